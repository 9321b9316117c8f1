import Verif.Proofs.RimLength
import Verif.Properties.Rim
import Verif.Properties.LevelsGeo
/-
C104: the boundary as a set of points stays (Linear, SquareThree, the Loop edge filter); its curves get no longer (Loop).
-/
namespace Verif
set_option linter.unusedSectionVars false
variable {E D : Type} [NormedAddCommGroup E] [InnerProductSpace ℝ E]
variable {lib : QELib} {cosn : Nat → ℝ} {f f' : Filt} {inp out : Mesh E D} {sch : Scheme}

/-- C104 for the cell filters: the boundary is the same set of points after a run of Linear or SquareThree, with any selection. -/
theorem C104_rim (hs : sch = .linear ∨ sch = .sqrt3) (hv : inp.Valid) (hsel : inp.SelOK f.cells)
    (hmax : sch = .sqrt3 → inp.points.length + (inp.selected f.cells).length ≤ idMax)
    (h : cellUpdate sch lib cosn f inp = (.ok out, f')) : out.rimSet = inp.rimSet := by
  rcases hs with rfl | rfl
  · exact (linear_split hv hsel h).rimSet_eq (C18_boundary_preserved (by decide) ⟨hv, by simp, by simp⟩ hsel h).1
  · have hb := (C18_boundary_preserved_sqrt3 hv hsel (hmax rfl) h).1
    have hk := C06_original_points_kept (by decide) hv.points_dense h
    have kept : ∀ e, inp.IsBoundary e → out.place e.1 = inp.place e.1 ∧ out.place e.2 = inp.place e.2 := fun e he =>
      ⟨place_kept hk hv (hv.isEdge_lt (hv.isEdge_of_dart he.1)).1, place_kept hk hv (hv.isEdge_lt (hv.isEdge_of_dart he.1)).2⟩
    ext x
    constructor
    · rintro ⟨e, he, hx⟩
      have he' := (hb e).1 he
      exact ⟨e, he', by rwa [(kept e he').1, (kept e he').2] at hx⟩
    · rintro ⟨e, he, hx⟩
      exact ⟨e, (hb e).2 he, by rwa [(kept e he).1, (kept e he).2]⟩

/-- C104 for the Linear and the Loop edge filters, which both put new points of boundary edges in the middle. -/
theorem C104_rim_edge {sch : EdgeScheme} (hs : sch ≠ .butterfly) (hn : sch.toScheme.Needs inp) (hsel : inp.EdgeSelOK f.edgeSel)
    (h : edgeUpdate sch lib cosn f inp = (.ok out, f')) : out.rimSet = inp.rimSet := edge_rimSet hs hn hsel h

/-- C104 for any number of levels and any selection. -/
theorem C104_rim_levels (hs : sch = .linear ∨ sch = .sqrt3) (hv : inp.Valid) {f : Iter} (hsel : inp.SelOK f.cells)
    (hid : sch.IdsLeft (max 1 f.levels) inp f.cells) (h : (iterUpdate sch lib cosn f inp).1 = .ok out) :
    out.rimSet = inp.rimSet := by
  have hl : sch = .loop ∨ sch = .butterfly → lib.Lawful := by rintro (rfl | rfl) <;> simp at hs
  have hn : sch.Needs inp := ⟨hv, by rcases hs with rfl | rfl <;> simp, by rcases hs with rfl | rfl <;> simp⟩
  refine (iter_induct (sch := sch) (lib := lib) (cosn := cosn) hl (fun m _ => m.rimSet = inp.rimSet) ?_ hn hsel hid rfl h).elim
    fun _ h => h
  rintro m out sel f' hm hsel _ hmax h h1
  exact (C104_rim hs hm.valid (f := Filt.new.setCells sel) hsel hmax h).trans h1

/-- C104 for the conditional filter with the Linear or the SquareThree cell filter, when it returns. -/
theorem C104_rim_conditional (hs : sch = .linear ∨ sch = .sqrt3) (hv : inp.Valid) {n : Nat}
    (hmax : sch = .sqrt3 → inp.points.length + 4 ^ n * inp.cells.length ≤ idMax) {area : E → E → E → ℝ} {A : ℝ}
    {c c' : Cond Filt CId}
    (h : condGenerate lib (condCellUpd sch lib cosn) (some (areaCompute area A)) n c inp = some (.ok out, c')) :
    out.rimSet = inp.rimSet := by
  have hl : sch = .loop ∨ sch = .butterfly → lib.Lawful := by rintro (rfl | rfl) <;> simp at hs
  refine condArea_induct hv hl (by rcases hs with rfl | rfl <;> simp) hmax (fun m => m.rimSet = inp.rimSet) (rimSet_copy lib hv) ?_ h
  rintro m out sel f f' hm hn' hsel hnd hne hmax h h1
  exact (C104_rim hs hm.valid (f := f.setCells sel) hsel hmax h).trans h1

/-- C104 for the conditional filter with the Linear or the Loop edge filter, when it returns. -/
theorem C104_rim_conditional_edge {sch : EdgeScheme} (hs : sch ≠ .butterfly) (hv : inp.Valid) (hl : sch = .loop → lib.Lawful)
    (hi : sch = .loop → inp.NoIsolated) {n : Nat} {len : E → E → ℝ} {L : ℝ} {c c' : Cond Filt (Option Edge)}
    (h : condGenerate lib (condEdgeUpd sch lib cosn) (some (lengthCompute len L)) n c inp = some (.ok out, c')) :
    out.rimSet = inp.rimSet := by
  refine condLength_induct hv (fun h => h.elim hl fun h => absurd h hs) hi (fun m => m.rimSet = inp.rimSet) (rimSet_copy lib hv) ?_ h
  rintro m out sel f f' H hn' hne h h1
  exact (C104_rim_edge hs H.needs (f := f.setEdges sel) H.selOK h).trans h1

theorem rimStep_length (hs : sch ≠ .butterfly) {n : Nat} {q : Int → E} (h : Returns n q) :
    Returns (sch.halves * n) (sch.rimStep ℝ q) ∧ walkLength (sch.halves * n) (sch.rimStep ℝ q) ≤ walkLength n q ∧
      (sch ≠ .loop → walkLength (sch.halves * n) (sch.rimStep ℝ q) = walkLength n q) := by
  cases sch with
  | linear => exact ⟨h.withMidpoints, (walkLength_withMidpoints q n).le, fun _ => walkLength_withMidpoints q n⟩
  | loop => exact ⟨h.splineStep, walkLength_splineStep h, fun hc => absurd rfl hc⟩
  | butterfly => exact absurd rfl hs
  | sqrt3 => simpa [Scheme.halves, Scheme.rimStep] using h

/-- C104, lengths: a boundary curve with `n` edges becomes in `L` uniform levels one with `2 ^ L * n` edges (Linear, Loop; for
SquareThree it keeps its edges), which is as long (Linear, SquareThree) or not longer (Loop, if the boundary does not touch
itself). -/
theorem C104_length (hs : sch ≠ .butterfly) (hl : sch = .loop → lib.Lawful) (cosn : Nat → ℝ) (hn : sch.Needs inp)
    (hsb : sch = .loop → inp.SimpleBoundary) {f : Iter} (hf : f.cells = []) (hid : sch.IdsLeft (max 1 f.levels) inp []) :
    ∃ out, (iterUpdate sch lib cosn f inp).1 = .ok out ∧ ∀ q n, inp.Rim q → Returns n q →
      ∃ q', out.Rim q' ∧ Returns (sch.halves ^ max 1 f.levels * n) q' ∧
        walkLength (sch.halves ^ max 1 f.levels * n) q' ≤ walkLength n q ∧
        (sch ≠ .loop → walkLength (sch.halves ^ max 1 f.levels * n) q' = walkLength n q) := by
  obtain ⟨out, h1, h2⟩ := C51_boundary_alone (D := D) hs hl cosn hn hsb hf hid
  refine ⟨out, h1, fun q n hq hr => ⟨_, h2 q hq, ?_⟩⟩
  generalize max 1 f.levels = L
  induction L with
  | zero => simpa using hr
  | succ L ih =>
    obtain ⟨i1, i2, i3⟩ := ih
    obtain ⟨k1, k2, k3⟩ := rimStep_length (sch := sch) hs i1
    rw [Function.iterate_succ_apply', pow_succ', Nat.mul_assoc]
    exact ⟨k1, k2.trans i2, fun hc => (k3 hc).trans (i3 hc)⟩

section examples

theorem patchP_rim : patchP.Rim fun i => patchP.coord ([0, 3, 1, 4, 2, 5] : List PId)[(i % (6 : Nat)).toNat]! := by
  refine rim_cycle patchP_ok.1 [0, 3, 1, 4, 2, 5] (by decide) ?_
  unfold Mesh.IsBoundary
  rw [patchP_ok.2.2.2]
  decide

/-- four levels of Loop: the boundary, of six edges, becomes one of 96, and no longer -/
example : ∃ out, (iterUpdate .loop someLib realCos ⟨[], 4, []⟩ patchP).1 = .ok out ∧
    ∃ q', out.Rim q' ∧ Returns 96 q' ∧ walkLength 96 q' ≤ walkLength 6
      fun i => patchP.coord ([0, 3, 1, 4, 2, 5] : List PId)[(i % (6 : Nat)).toNat]! := by
  obtain ⟨out, h1, h2⟩ := C104_length (sch := .loop) (lib := someLib) (f := ⟨[], 4, []⟩) (inp := patchP) (by decide)
    (fun _ => someLib_lawful) realCos ⟨patchP_ok.1, fun _ => patchP_ok.2.1, fun _ => patchP_ok.2.2.1⟩
    (fun _ => simple_of_tris patchP_ok.2.2.2 (by decide)) rfl (fun h => by cases h)
  obtain ⟨q', h3, h4, h5, -⟩ := h2 _ 6 patchP_rim (fun i => by
    rw [Int.add_emod_right])
  exact ⟨out, h1, q', h3, h4, h5⟩

/-- three levels of Linear on a selection: the boundary stays, and it is not empty -/
example : ∃ out, (iterUpdate .linear someLib realCos ⟨[1, 3], 3, []⟩ patchP).1 = .ok out ∧ out.rimSet = patchP.rimSet ∧
    !₂[(0 : ℝ), 0] ∈ out.rimSet := by
  have hsel : patchP.SelOK [1, 3] := by unfold Mesh.SelOK; decide
  obtain ⟨out, -, h, -⟩ := C24_iterative_selective (sch := .linear) (lib := someLib) realCos (by simp)
    ⟨patchP_ok.1, by simp, by simp⟩ (f := ⟨[1, 3], 3, []⟩) (by simp) hsel (fun hc => nomatch hc)
  have h1 := C104_rim_levels (.inl rfl) patchP_ok.1 (f := ⟨[1, 3], 3, []⟩) hsel (fun hc => nomatch hc) h
  refine ⟨out, h, h1, ?_⟩
  rw [h1]
  exact ⟨(0, 3), by unfold Mesh.IsBoundary; rw [patchP_ok.2.2.2]; decide, left_mem_segment ℝ _ _⟩

/-- one run of the Loop edge filter -/
example (out : Mesh R2 Nat) (f' : Filt) (h : edgeUpdate .loop someLib realCos Filt.new patchP = (.ok out, f')) :
    out.rimSet = patchP.rimSet :=
  C104_rim_edge (by decide) ⟨patchP_ok.1, fun _ => patchP_ok.2.1, fun _ => patchP_ok.2.2.1⟩ (fun e he => by cases he) h

end examples
end Verif
