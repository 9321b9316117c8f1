import Verif.Proofs.Settled
/-
C74  what a conditional filter has produced is settled: a conditional filter run on it with the same or a larger
threshold returns it unchanged.
-/
namespace Verif
set_option linter.unusedSectionVars false
variable {K P D : Type} [Field K] [LinearOrder K] [Zero P] [Add P] [SMul K P] {lib : QELib} {cosn cosn' : Nat → K}
  {inp out : Mesh P D}

/-- C74: the mesh that a conditional filter with the area criterion returns is left as it is (ids, positions, cells, edges,
rings) by any conditional filter with a maximum area that is not smaller, whatever scheme that filter uses and whatever it has
done before; its inner filter is not run. -/
theorem C74_area_settled {sch sch' : Scheme} (hv : inp.Valid) (hl : sch = .loop ∨ sch = .butterfly → lib.Lawful)
    (hi : sch = .loop → inp.NoIsolated) {n : Nat} (hmax : sch = .sqrt3 → inp.points.length + 4 ^ n * inp.cells.length ≤ idMax)
    {area : P → P → P → K} {A A' : K} (hA : A ≤ A') {c c' : Cond Filt CId}
    (h : condGenerate lib (condCellUpd sch lib cosn) (some (areaCompute area A)) n c inp = some (.ok out, c'))
    (n' : Nat) (d : Cond Filt CId) :
    condGenerate lib (condCellUpd sch' lib cosn') (some (areaCompute area A')) n' d out = some (.ok out, ⟨d.inner, []⟩) := by
  have hs : Settled lib out := condArea_induct hv hl hi hmax (Settled lib) (Settled.of_copy hv)
    (fun m out sel f f' k1 k2 k3 _ _ k4 k5 hm => Settled.cellUpdate k1 k2.valid k3 k4 k5 hm.noData) h
  have hp := (C30_area_postcondition h).2.2.1
  have hv' := hs.valid
  obtain ⟨l, h1, -, h2⟩ := C28_area_exact area A' hv'.cells_sorted hv'.allTriangles hv'.cornersExist d.sel
  have hl : l = [] := by
    rw [List.eq_nil_iff_forall_not_mem]
    intro k hk
    obtain ⟨t, pa, pb, pc, h3, h4, h5, h6, h7⟩ := (h2 k).1 hk
    exact hp k ⟨t, pa, pb, pc, h3, h4, h5, h6, hA.trans_lt h7⟩
  subst hl
  unfold condGenerate
  simp only [hs.copy, h1]
  exact condLoop_done rfl

/-- the first run refines a patch with SquareThree, the second one is a used Loop filter with a larger threshold -/
example : ∃ out c', condGenerate someLib (condCellUpd .sqrt3 someLib cos0) (some (areaCompute shadow 6)) 3 ⟨usedFilt [1], [7]⟩
      patchMesh = some (.ok out, c') ∧ out.cells.length ≠ patchMesh.cells.length ∧
    condGenerate someLib (condCellUpd .loop someLib cos0) (some (areaCompute shadow 7)) 0 ⟨usedFilt [0, 2], [5]⟩ out =
      some (.ok out, ⟨usedFilt [0, 2], []⟩) := by
  have hr : (match condGenerate someLib (condCellUpd .sqrt3 someLib cos0) (some (areaCompute shadow 6)) 3 ⟨usedFilt [1], [7]⟩
      patchMesh with
      | some (.ok out, _) => decide (out.cells.length ≠ patchMesh.cells.length)
      | _ => false) = true := by decide +kernel
  split at hr
  · rename_i out c' heq
    exact ⟨out, c', heq, of_decide_eq_true hr, C74_area_settled patchMesh_ok.1 (by simp) (by simp) (by decide) (by norm_num) heq 0 _⟩
  · simp at hr

/-- C74 with edge filters and the length criterion. -/
theorem C74_length_settled {sch sch' : EdgeScheme} (hv : inp.Valid) (hl : sch = .loop ∨ sch = .butterfly → lib.Lawful)
    (hi : sch = .loop → inp.NoIsolated) {n : Nat} {len : P → P → K} {L L' : K} (hL : L ≤ L') {c c' : Cond Filt (Option Edge)}
    (h : condGenerate lib (condEdgeUpd sch lib cosn) (some (lengthCompute len L)) n c inp = some (.ok out, c'))
    (n' : Nat) (d : Cond Filt (Option Edge)) :
    condGenerate lib (condEdgeUpd sch' lib cosn') (some (lengthCompute len L')) n' d out = some (.ok out, ⟨d.inner, []⟩) := by
  have hs : Settled lib out := condLength_induct hv hl hi (Settled lib) (Settled.of_copy hv)
    (fun m out sel f f' k1 k2 _ k5 hm => Settled.edgeUpdate k1.needs k2.valid k1.selOK k5 hm.noData) h
  have hp := (C30_length_postcondition h).2.1
  have hv' := hs.valid
  obtain ⟨l, h1, -, h2, -⟩ := C29_length_exact len L' hv'.has_edge_cells hv'.endsExist d.sel
  have hl : l = [] := by
    rw [List.eq_nil_iff_forall_not_mem]
    intro e he
    obtain ⟨h3, p, q, h4, h5, h6⟩ := (h2 e).1 he
    exact hp e h3 ⟨p, q, h4, h5, hL.trans_lt h6⟩
  subst hl
  unfold condGenerate
  simp only [hs.copy, h1]
  exact condLoop_done rfl

/-- Linear first, Butterfly second -/
example : ∃ out c', condGenerate someLib (condEdgeUpd .linear someLib cos0) (some (lengthCompute taxi 4)) 3 ⟨Filt.new, [none]⟩
      patchMesh = some (.ok out, c') ∧ out.cells.length ≠ patchMesh.cells.length ∧
    condGenerate someLib (condEdgeUpd .butterfly someLib cos0) (some (lengthCompute taxi 4)) 0 ⟨usedFilt [0, 2], []⟩ out =
      some (.ok out, ⟨usedFilt [0, 2], []⟩) := by
  have hr : (match condGenerate someLib (condEdgeUpd .linear someLib cos0) (some (lengthCompute taxi 4)) 3 ⟨Filt.new, [none]⟩
      patchMesh with
      | some (.ok out, _) => decide (out.cells.length ≠ patchMesh.cells.length)
      | _ => false) = true := by decide +kernel
  split at hr
  · rename_i out c' heq
    exact ⟨out, c', heq, of_decide_eq_true hr, C74_length_settled patchMesh_ok.1 (by simp) (by simp) le_rfl heq 0 _⟩
  · simp at hr

end Verif
