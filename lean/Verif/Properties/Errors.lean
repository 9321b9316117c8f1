import Verif.Proofs.Errors
import Verif.Properties.Rejected
import Verif.Properties.Iterative
import Verif.Properties.History
import Verif.Properties.EdgeRuns
import Verif.Properties.LoopSelective
/-
C56: errors of the parts reach the caller, and after an exception a filter can be used again.
-/
namespace Verif
set_option linter.unusedSectionVars false
variable {K P D : Type} [Field K] [Zero P] [Add P] [SMul K P]

/-- C56 for the cell filters: a run that ends with an exception, on any mesh, keeps the list of cells. -/
theorem C56_cell_selection_kept {sch : Scheme} {lib : QELib} {cosn : Nat → K} {f f' : Filt} {inp : Mesh P D} {e : Exc}
    (h : cellUpdate sch lib cosn f inp = (.error (.exc e), f')) : f'.cells = f.cells := (cellUpdate_exc h).1

/-- C56 for Linear, ModifiedButterfly and SquareThree: the run after a run that ended with an exception is what it would have
been without that.  (The program may have repaired the mesh, or set another one.) -/
theorem C56_cell_again_partial {sch : Scheme} (hs : sch ≠ .loop) {lib : QELib} {cosn : Nat → K} {f f' : Filt}
    {inp : Mesh P D} {e : Exc} (h : cellUpdate sch lib cosn f inp = (.error (.exc e), f')) (inp' : Mesh P D) :
    (cellUpdate sch lib cosn f' inp').1 = (cellUpdate sch lib cosn f inp').1 ∧
    (cellUpdate sch lib cosn f' inp').2.cells = (cellUpdate sch lib cosn f inp').2.cells :=
  cellUpdate_history hs lib cosn inp' (cellUpdate_exc h).1

/-- C56 for Loop: so it is if the last run before was selective or uniform as this one (a new object counts as
uniform).  Otherwise see `C56_loop_again_refuted`. -/
theorem C56_loop_again_partial {lib : QELib} {cosn : Nat → K} {f f' : Filt} {inp : Mesh P D} {e : Exc}
    (h : cellUpdate .loop lib cosn f inp = (.error (.exc e), f')) (hf : f.uniform = f.cells.isEmpty) (inp' : Mesh P D) :
    (cellUpdate .loop lib cosn f' inp').1 = (cellUpdate .loop lib cosn f inp').1 ∧
    (cellUpdate .loop lib cosn f' inp').2.cells = (cellUpdate .loop lib cosn f inp').2.cells :=
  cellUpdate_history_loop lib cosn inp' (cellUpdate_exc h).1 ((cellUpdate_exc h).2.trans hf.symm)

/-- a list with the quadrilateral of `mixedMesh`: every filter throws -/
theorem mixed_throws (sch : Scheme) (f : Filt) (hf : f.cells = [1]) :
    ∃ f', cellUpdate sch someLib cos0 f mixedMesh = (.error (.exc .notTriangle), f') := by
  have h := C35_listed_throws_partial (sch := sch) someLib cos0 (f := f) (mixedMesh_needs _)
    (show mixedMesh.SelOK f.cells by rw [hf]; unfold Mesh.SelOK; decide) (k := 1) (by rw [hf]; simp)
    (by decide)
  exact ⟨_, Prod.ext h rfl⟩

example : ∃ f', cellUpdate .butterfly someLib cos0 (Filt.new.setCells [1]) mixedMesh = (.error (.exc .notTriangle), f') ∧
    f'.cells = [1] ∧
    (cellUpdate .butterfly someLib cos0 f' patchMesh).1 = (cellUpdate .butterfly someLib cos0 (Filt.new.setCells [1]) patchMesh).1 := by
  obtain ⟨f', h⟩ := mixed_throws .butterfly (Filt.new.setCells [1]) rfl
  exact ⟨f', h, C56_cell_selection_kept h, (C56_cell_again_partial (by decide) h _).1⟩

section real

/-- `mixedMesh` on the line -/
def mixedR : Mesh ℝ Nat := mixedMesh.mapPoints fun p => (p.1 : ℝ)

theorem mixedR_needs (sch : Scheme) : sch.MixedNeeds mixedR where
  mixed :=
    { cells_some := (mixedMesh_needs sch).mixed.cells_some
      tri_edge := (mixedMesh_needs sch).mixed.tri_edge
      edge_pos := by
        have : ∀ e ∈ mixedMesh.edges ++ mixedMesh.edges.map Edge.sym, (mixedR.pos e.1).isSome := by decide
        exact fun e he => this e (isEdge_mem.1 (show mixedMesh.IsEdge e from he)) }
  ring := fun _ =>
    { onext_some := mixedMesh_ring.onext_some
      oprev_iff := mixedMesh_ring.oprev_iff
      one_ring := by
        intro e e' h h' he
        obtain ⟨k, hk⟩ := mixedMesh_ring.one_ring e e' h h' he
        have : ∀ k e, mixedR.onextIter k e = mixedMesh.onextIter k e := by
          intro k
          induction k with
          | zero => exact fun _ => rfl
          | succ k ih => intro e; simp only [Mesh.onextIter, ih]; rfl
        exact ⟨k, (this k e).trans hk⟩
      face := mixedMesh_ring.face
      point_edge := mixedMesh_ring.point_edge
      point_edge_some := mixedMesh_ring.point_edge_some }
  noIsolated := by
    intro _ v hv
    unfold Mesh.pos at hv
    rw [AMap.find?_isSome] at hv
    have : ∀ v ∈ mixedR.points.map Prod.fst, ∃ e ∈ mixedMesh.edges ++ mixedMesh.edges.map Edge.sym, e.1 = v := by
      intro v hv
      have hv' : v ∈ mixedMesh.points.map Prod.fst := by
        simpa [mixedR, Mesh.mapPoints, Function.comp_def] using hv
      have : ∀ v ∈ mixedMesh.points.map Prod.fst, ∃ e ∈ mixedMesh.edges ++ mixedMesh.edges.map Edge.sym, e.1 = v := by decide
      exact this v hv'
    obtain ⟨e, he, rfl⟩ := this v hv
    exact ⟨e.2, (isEdge_mem.2 he : mixedMesh.IsEdge e)⟩

/-- C56 fails for Loop: a new object is given a list, the run throws since the cell is a quadrilateral, and the run on the
next mesh, a valid one, smooths other points than it would have done without the failed run. -/
theorem C56_loop_again_refuted (lib : QELib) : ∃ (f f' : Filt) (m₁ m₂ : Mesh ℝ Nat),
    f = Filt.new.setCells [1] ∧ cellUpdate .loop lib realCos f mixedR = (.error (.exc .notTriangle), f') ∧
    Scheme.loop.Needs patchR ∧ (cellUpdate .loop lib realCos f patchR).1 = .ok m₁ ∧
    (cellUpdate .loop lib realCos f' patchR).1 = .ok m₂ ∧ m₁.pos 3 = some (19 / 2) ∧ m₂.pos 3 = some 12 := by
  have h := C35_listed_throws_partial (sch := .loop) lib realCos (f := Filt.new.setCells [1]) (mixedR_needs _)
    (show mixedR.SelOK [1] by unfold Mesh.SelOK; decide) (k := 1) (by simp [Filt.setCells])
    (by decide)
  have h' : cellUpdate .loop lib realCos (Filt.new.setCells [1]) mixedR = (.error (.exc .notTriangle),
    (cellUpdate .loop lib realCos (Filt.new.setCells [1]) mixedR).2) := Prod.ext h rfl
  generalize (cellUpdate .loop lib realCos (Filt.new.setCells [1]) mixedR).2 = f' at h'
  obtain ⟨hc, hu⟩ := cellUpdate_exc h'
  have hsel : patchR.SelOK (Filt.new.setCells [1]).cells := by
    show patchR.SelOK [1]
    unfold Mesh.SelOK; decide
  obtain ⟨m₁, f₁, e₁, -⟩ := cellUpdate_ok (sch := .loop) (by decide) lib realCos (f := Filt.new.setCells [1]) (patchR_needs _) hsel
  have hsel' : patchR.SelOK f'.cells := by rw [hc]; exact hsel
  obtain ⟨m₂, f₂, e₂, -⟩ := cellUpdate_ok (sch := .loop) (by decide) lib realCos (f := f') (patchR_needs _) hsel'
  refine ⟨_, f', m₁, m₂, rfl, h', patchR_needs _, congrArg Prod.fst e₁, congrArg Prod.fst e₂, ?_, ?_⟩
  · obtain ⟨m₀, f₀, e₀, -⟩ := cellUpdate_ok (sch := .loop) (by decide) lib realCos (f := Filt.new) (patchR_needs _)
      (selOK_nil _)
    rw [C42_first_run_smooths_all_refuted (patchR_needs _) hsel e₁ e₀ (by decide)]
    refine (C09_loop_boundary_point (v := 3) (p := 12) (a := 0) (b := 1) (pa := 0) (pb := 4) (patchR_needs _) e₀ rfl
      (by decide) (fun _ => patchR_point3) rfl rfl).trans (congrArg some ?_)
    simp only [smul_eq_mul]
    norm_num
  · rw [cellUpdate_base (by decide) (patchR_needs _) hsel' e₂ (v := 3) (by decide)]
    simp only [schemeBase, loopBase, hu, hc]
    rfl

end real

/-- C56 for the edge filters, all failures on all meshes: the list of edges is kept, and the next run is what it would have
been. -/
theorem C56_edge_again (sch : EdgeScheme) (lib : QELib) (cosn : Nat → K) (f : Filt) (inp inp' : Mesh P D) :
    (edgeUpdate sch lib cosn f inp).2.edgeSel = f.edgeSel ∧
    (edgeUpdate sch lib cosn (edgeUpdate sch lib cosn f inp).2 inp').1 = (edgeUpdate sch lib cosn f inp').1 := by
  have h := edgeUpdate_kept sch lib cosn f inp
  refine ⟨h, edgeUpdate_same sch lib cosn inp' ?_⟩
  rw [h]
  exact SameEdges.rfl

example : (edgeUpdate .linear someLib cos0 (edgeUpdate .linear someLib cos0 (Filt.new.setEdges [some (0, 1)]) mixedMesh).2
    patchMesh).1 = (edgeUpdate .linear someLib cos0 (Filt.new.setEdges [some (0, 1)]) patchMesh).1 :=
  (C56_edge_again _ _ _ _ _ _).2

/-- C56 for the iterative filter: it fails with `e` if and only if some level does so, after the levels before have gone
through. -/
theorem C56_iterative_error (sch : Scheme) (lib : QELib) (cosn : Nat → K) (f : Iter) (inp : Mesh P D) (e : Fail) :
    (iterUpdate sch lib cosn f inp).1 = .error e ↔
      ∃ k < (if f.levels = 0 then 1 else f.levels), ∃ m sel, manyLevels sch lib cosn k (inp, f.cells) = .ok (m, sel) ∧
        (cellUpdate sch lib cosn (Filt.new.setCells sel) m).1 = .error e := by
  rw [C22_iterative_is_iterated]
  generalize (if f.levels = 0 then 1 else f.levels) = n
  generalize f.cells = sel₀
  induction n generalizing inp sel₀ with
  | zero => constructor
            · intro h; cases h
            · rintro ⟨k, hk, -⟩; omega
  | succ n ih =>
    unfold manyLevels oneLevel
    dsimp only
    rcases hc : cellUpdate sch lib cosn (Filt.new.setCells sel₀) inp with ⟨e' | m, g⟩
    · constructor
      · intro h
        refine ⟨0, by omega, inp, sel₀, rfl, ?_⟩
        rw [hc]
        exact congrArg Except.error (Except.error.inj h)
      · rintro ⟨k, hk, m, sel, h1, h2⟩
        cases k with
        | zero =>
          cases h1
          rw [hc] at h2
          exact congrArg Except.error (Except.error.inj h2)
        | succ k =>
          simp only [hc, bind, Except.bind] at h1
          cases h1
    · refine (ih m g.cells).trans ?_
      constructor
      · rintro ⟨k, hk, m', sel, h1, h2⟩
        refine ⟨k + 1, by omega, m', sel, ?_, h2⟩
        simp only [hc, bind, Except.bind]
        exact h1
      · rintro ⟨k, hk, m', sel, h1, h2⟩
        cases k with
        | zero => cases h1; rw [hc] at h2; cases h2
        | succ k =>
          refine ⟨k, by omega, m', sel, ?_, h2⟩
          simp only [hc, bind, Except.bind] at h1
          exact h1

/-- C56 for the iterative filter, the run after any run (failed or not): the list and the number of levels are kept, and the
next run is what it would have been. -/
theorem C56_iterative_again (sch : Scheme) (lib : QELib) (cosn : Nat → K) (f : Iter) (inp inp' : Mesh P D) :
    (iterUpdate sch lib cosn f inp).2.cells = f.cells ∧ (iterUpdate sch lib cosn f inp).2.levels = f.levels ∧
    (iterUpdate sch lib cosn (iterUpdate sch lib cosn f inp).2 inp').1 = (iterUpdate sch lib cosn f inp').1 := by
  obtain ⟨h1, h2⟩ := iterUpdate_cells sch lib cosn f inp
  refine ⟨h1, h2, ?_⟩
  rw [C22_iterative_is_iterated, C22_iterative_is_iterated, h1, h2]

example (sch : Scheme) : (iterUpdate sch someLib cos0 ⟨[1], 3, []⟩ mixedMesh).1 = .error (.exc .notTriangle) := by
  obtain ⟨f', h⟩ := mixed_throws sch (Filt.new.setCells [1]) rfl
  exact (C56_iterative_error _ _ _ _ _ _).2 ⟨0, by decide, mixedMesh, [1], rfl, congrArg Prod.fst h⟩

section cond
variable {S ι : Type}

/-- C56 for the conditional filter, with any inner filter and any criterion: it fails with `e` if and only if the criterion
fails with `e` on the copied input, or, after some complete rounds, the inner filter or the criterion fails with `e`.  In the
first case the inner filter is untouched; if the inner filter fails, the list is kept as the criterion made it. -/
theorem C56_conditional_error (lib : QELib) (upd : S → List ι → Mesh P D → Except Fail (Mesh P D) × S)
    (crit : Mesh P D → Prog (List ι) Unit) (c c' : Cond S ι) (inp : Mesh P D) (e : Fail) :
    (∃ fuel, condGenerate lib upd (some crit) fuel c inp = some (.error e, c')) ↔
      (crit (copyGeometry lib inp) c.sel = (.error e, c'.sel) ∧ c'.inner = c.inner) ∨
      ∃ sel k c₁ m₁, crit (copyGeometry lib inp) c.sel = (.ok (), sel) ∧
        CondRounds upd crit k ⟨c.inner, sel⟩ (copyGeometry lib inp) c₁ m₁ ∧ RoundFails upd crit c₁ m₁ e c' := by
  constructor
  · rintro ⟨fuel, h⟩
    unfold condGenerate at h
    dsimp only at h
    rcases hc : crit (copyGeometry lib inp) c.sel with ⟨e' | _, sel⟩
    · rw [hc] at h
      cases h
      exact Or.inl ⟨rfl, rfl⟩
    · rw [hc] at h
      obtain ⟨k, c₁, m₁, -, h1, h2⟩ := condLoop_error h
      exact Or.inr ⟨sel, k, c₁, m₁, rfl, h1, h2⟩
  · rintro (⟨h1, h2⟩ | ⟨sel, k, c₁, m₁, h1, h2, h3⟩)
    · refine ⟨0, ?_⟩
      unfold condGenerate
      simp only [h1, ← h2]
    · refine ⟨k + 1, ?_⟩
      unfold condGenerate
      simp only [h1]
      exact condLoop_error_of h2 h3

/-- C56 for the conditional filter with the area criterion (Linear, ModifiedButterfly, SquareThree): whatever the object
holds, from runs that failed or not, the next run is that of a new object. -/
theorem C56_conditional_again_partial [LinearOrder K] {sch : Scheme} (hs : sch ≠ .loop) (lib : QELib) (cosn : Nat → K)
    (area : P → P → P → K) (maxArea : K) (fuel : Nat) (c : Cond Filt CId) (inp : Mesh P D) :
    (condGenerate lib (condCellUpd sch lib cosn) (some (areaCompute area maxArea)) fuel c inp).map Prod.fst =
      (condGenerate lib (condCellUpd sch lib cosn) (some (areaCompute area maxArea)) fuel ⟨Filt.new, []⟩ inp).map Prod.fst :=
  condGenerate_members (upd := condCellUpd (D := D) sch lib cosn) (crit := areaCompute area maxArea)
    (fun s s' sel m => (cellUpdate_history hs lib cosn m (f := s'.setCells sel) (g := s.setCells sel) rfl).1)
    (fun _ _ _ => rfl) lib fuel c ⟨Filt.new, []⟩ inp

/-- C56 for the conditional filter with the length criterion, all three schemes. -/
theorem C56_conditional_edge_again [LinearOrder K] (sch : EdgeScheme) (lib : QELib) (cosn : Nat → K)
    (len : P → P → K) (maxLen : K) (fuel : Nat) (c : Cond Filt (Option Edge)) (inp : Mesh P D) :
    (condGenerate lib (condEdgeUpd sch lib cosn) (some (lengthCompute len maxLen)) fuel c inp).map Prod.fst =
      (condGenerate lib (condEdgeUpd sch lib cosn) (some (lengthCompute len maxLen)) fuel ⟨Filt.new, []⟩ inp).map Prod.fst :=
  condGenerate_members (upd := condEdgeUpd (D := D) sch lib cosn) (crit := lengthCompute len maxLen)
    (fun _ _ _ m => edgeUpdate_same sch lib cosn m SameEdges.rfl)
    (fun _ _ _ => rfl) lib fuel c ⟨Filt.new, []⟩ inp

/-- a criterion of the user's that lists all cells -/
def listAll (m : Mesh P D) : Prog (List CId) Unit := Prog.modify fun _ => m.cells.map Prod.fst

/-- It lists the quadrilateral, the inner filter throws in the first round, and the list is kept. -/
example : ∃ fuel c', condGenerate someLib (condCellUpd .linear someLib cos0) (some listAll) fuel ⟨Filt.new, []⟩ mixedMesh =
    some (.error (.exc .notTriangle), c') ∧ c'.sel = [0, 1] := by
  have hsel : (copyGeometry someLib mixedMesh).SelOK [0, 1] := by unfold Mesh.SelOK; decide
  have hn : Scheme.linear.MixedNeeds (copyGeometry someLib mixedMesh) :=
    { mixed :=
      { cells_some := by decide
        tri_edge := by
          have ht : (copyGeometry someLib mixedMesh).tris = [(0, 1, 2)] := rfl
          rw [ht]; unfold Mesh.IsEdge; decide
        edge_pos := by
          have : ∀ e ∈ mixedMesh.edges ++ mixedMesh.edges.map Edge.sym, ((copyGeometry someLib mixedMesh).pos e.1).isSome := by
            decide
          exact fun e he => this e (isEdge_mem.1 (show mixedMesh.IsEdge e from he)) }
      ring := fun h => by rcases h with h | h <;> cases h
      noIsolated := fun h => by cases h }
  have h := C35_listed_throws_partial (sch := .linear) someLib cos0 (f := Filt.new.setCells [0, 1]) hn hsel (k := 1)
    (by simp [Filt.setCells]) (by decide)
  obtain ⟨fuel, h'⟩ := (C56_conditional_error someLib (condCellUpd .linear someLib cos0) listAll ⟨Filt.new, []⟩
    ⟨(cellUpdate .linear someLib cos0 (Filt.new.setCells [0, 1]) (copyGeometry someLib mixedMesh)).2, [0, 1]⟩ mixedMesh
    (.exc .notTriangle)).2 (Or.inr ⟨[0, 1], 0, ⟨Filt.new, [0, 1]⟩, _, rfl, .none _ _, .inner (by simp) (Prod.ext h rfl)⟩)
  exact ⟨fuel, _, h', rfl⟩

end cond
end Verif
