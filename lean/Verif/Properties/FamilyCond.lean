import Verif.Properties.Family
import Verif.Properties.CondKeeps
/-
C106 for the conditional filter with the Linear filters.
-/
namespace Verif
set_option linter.unusedSectionVars false
variable {E D : Type} [NormedAddCommGroup E] [InnerProductSpace ℝ E]
variable {lib : QELib} {cosn : Nat → ℝ} {inp m out : Mesh E D} {p q : Nat → Nat}

theorem labelled_snd (m : Mesh E D) : m.labelled.map Prod.snd = m.tris := by
  unfold Mesh.labelled Mesh.tris
  rw [List.map_filterMap]
  congr 1
  funext c
  rcases Cell.tri? c.2 with _ | t <;> rfl

theorem labelled_length (m : Mesh E D) : m.labelled.length = m.tris.length := by
  rw [← labelled_snd, List.length_map]

theorem labelled_get (m : Mesh E D) (k : Nat) : m.tris[k]? = (m.labelled[k]?).map Prod.snd := by
  rw [← labelled_snd, List.getElem?_map]

/-- the copy is made of the same triangles -/
theorem madeOf_copy (lib : QELib) (hv : inp.Valid) : inp.MadeOf id (copyGeometry lib inp) := by
  intro i y hi x
  have hp : (copyGeometry lib inp).place = inp.place := by
    funext v
    unfold Mesh.place Mesh.pos
    rw [copyGeometry_points lib hv]
  have hf : (copyGeometry lib inp).filledTri = inp.filledTri := by
    unfold Mesh.filledTri
    rw [hp]
  have ht : ((copyGeometry lib inp).labelled[i]?).map Prod.snd = some y.2 := by
    rw [← labelled_get, copyGeometry_tris lib hv, labelled_get, hi]
    rfl
  obtain ⟨z, hz, hzy⟩ := Option.map_eq_some_iff.1 ht
  rw [hf]
  constructor
  · exact fun h => ⟨i, z, hz, rfl, by rw [hzy]; exact h⟩
  · rintro ⟨k, z', h1, rfl, h2⟩
    have h3 : z' = z := Option.some.inj (h1.symm.trans hz)
    rw [h3, hzy] at h2
    exact h2

/-- the places of the pieces, for a mesh without data -/
def Mesh.InOrder (inp out : Mesh E D) : Prop :=
  ∃ par : Nat → Nat, Monotone par ∧ (∀ k, k < out.tris.length → par k < inp.tris.length) ∧ inp.MadeOf par out

theorem inOrder_copy (lib : QELib) (hv : inp.Valid) : inp.InOrder (copyGeometry lib inp) :=
  ⟨id, monotone_id, fun k hk => by rw [copyGeometry_tris lib hv] at hk; exact hk, madeOf_copy lib hv⟩

theorem Mesh.InOrder.step (h : inp.InOrder m) (hF : m.Family q out) (hM : m.MadeOf q out) : inp.InOrder out := by
  obtain ⟨p, h1, h2, h3⟩ := h
  refine ⟨fun k => p (q k), fun a b hab => h1 (hF.mono a b hab), fun k hk => h2 _ ?_, h3.trans hM hF⟩
  rw [← labelled_length] at hk ⊢
  obtain ⟨y, hy, -⟩ := hF.parent k _ (List.getElem?_eq_getElem hk)
  exact (List.getElem?_eq_some_iff.1 hy).1

/-- C106 for the conditional filter with the Linear cell filter: the pieces of an input cell are consecutive, come before those
of any later cell, and are exactly the cell, as sets of points. (The data is lost, see C46.) -/
theorem C106_linear_conditional (hv : inp.Valid) {n : Nat} {area : E → E → E → ℝ} {A : ℝ} {c c' : Cond Filt CId}
    (h : condGenerate lib (condCellUpd .linear lib cosn) (some (areaCompute area A)) n c inp = some (.ok out, c')) :
    ∃ par : Nat → Nat, Monotone par ∧ (∀ k, k < out.tris.length → par k < inp.tris.length) ∧ inp.MadeOf par out := by
  refine condArea_induct hv (by simp) (by simp) (by simp) (fun m => inp.InOrder m) (inOrder_copy lib hv) ?_ h
  rintro m out sel f f' hm hn' hsel hnd hne hmax h hI
  obtain ⟨⟨q, h1, h2⟩, -⟩ := C106_linear hm.valid (f := f.setCells sel) hsel h
  exact hI.step h1 h2

/-- C106 for the conditional filter with the Linear edge filter. -/
theorem C106_linear_conditional_edge (hv : inp.Valid) {n : Nat} {len : E → E → ℝ} {L : ℝ} {c c' : Cond Filt (Option Edge)}
    (h : condGenerate lib (condEdgeUpd .linear lib cosn) (some (lengthCompute len L)) n c inp = some (.ok out, c')) :
    ∃ par : Nat → Nat, Monotone par ∧ (∀ k, k < out.tris.length → par k < inp.tris.length) ∧ inp.MadeOf par out := by
  refine condLength_induct hv (by simp) (by simp) (fun m => inp.InOrder m) (inOrder_copy lib hv) ?_ h
  rintro m out sel f f' H hn' hne h hI
  obtain ⟨q, h1, h2⟩ := C106_linear_edge H.needs.valid (f := f.setEdges sel) H.selOK h
  exact hI.step h1 h2

example : ∃ n out c', condGenerate someLib (condCellUpd .linear someLib realCos) (some (areaCompute heronArea (1 / 100))) n
    ⟨usedFilt [1, 3], [5]⟩ patchP = some (.ok out, c') ∧ patchP.InOrder out := by
  obtain ⟨n, out, c', h⟩ := C32_area_returns (lib := someLib) (cosn := realCos) patchP_ok.1 (A := 1 / 100) (by norm_num)
    ⟨usedFilt [1, 3], [5]⟩
  exact ⟨n, out, c', h n le_rfl, C106_linear_conditional patchP_ok.1 (h n le_rfl)⟩

example : ∃ n out c', condGenerate someLib (condEdgeUpd .linear someLib realCos) (some (lengthCompute dist (1 / 100))) n
    ⟨Filt.new, [none]⟩ patchP = some (.ok out, c') ∧ patchP.InOrder out := by
  obtain ⟨n, out, c', h⟩ := C33_length_returns (lib := someLib) (cosn := realCos) patchP_ok.1 (L := 1 / 100) (by norm_num)
    ⟨Filt.new, [none]⟩
  exact ⟨n, out, c', h n le_rfl, C106_linear_conditional_edge patchP_ok.1 (h n le_rfl)⟩

end Verif
