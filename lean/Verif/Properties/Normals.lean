import Verif.Proofs.Normals
import Verif.Properties.Volume
/-
C61: the triangles that the Linear filters make lie in triangles of the input and look to the same side.
-/
namespace Verif
set_option linter.unusedSectionVars false
variable {E D : Type} [NormedAddCommGroup E] [InnerProductSpace ℝ E]
variable {lib : QELib} {cosn : Nat → ℝ} {f f' : Filt} {inp out : Mesh E D}

theorem Mesh.SameSide.trans {a b c : Mesh E D} (h : a.SameSide b) (h' : b.SameSide c) : a.SameSide c := by
  intro d hd
  obtain ⟨t, ht, h1⟩ := h' d hd
  obtain ⟨s, hs, h2⟩ := h t ht
  exact ⟨s, hs, h1.trans h2⟩

theorem SplitAtMid.sameSide {μ : Edge → Option PId} (S : SplitAtMid inp out μ) : inp.SameSide out := by
  intro d hd
  rw [S.tris] at hd
  obtain ⟨t, ht, hd⟩ := List.mem_flatMap.1 hd
  refine ⟨t, ht, ?_⟩
  rw [← S.kept t ht t.1 (by simp [Tri.verts]), ← S.kept t ht t.2.1 (by simp [Tri.verts]),
    ← S.kept t ht t.2.2 (by simp [Tri.verts])]
  exact child_liesIn (S.mid t ht) hd

theorem sameSide_copy (lib : QELib) (hv : inp.Valid) : inp.SameSide (copyGeometry lib inp) := by
  intro d hd
  rw [copyGeometry_tris lib hv] at hd
  rw [place_copyGeometry hv]
  exact ⟨d, hd, LiesIn.refl _ _ _⟩

theorem child_area_pos {μ : Edge → Option PId} {t d : Tri} {g : PId → E} (h : AtMid μ g t) (hd : d ∈ t.children μ)
    (ht : 0 < triArea (g t.1) (g t.2.1) (g t.2.2)) : 0 < triArea (g d.1) (g d.2.1) (g d.2.2) := by
  have := child_area_ge h hd
  linarith

theorem SplitAtMid.area_pos {μ : Edge → Option PId} (S : SplitAtMid inp out μ) (h : ∀ t ∈ inp.tris, 0 < inp.areaOf t) :
    ∀ d ∈ out.tris, 0 < out.areaOf d := by
  intro d hd
  rw [S.tris] at hd
  obtain ⟨t, ht, hd⟩ := List.mem_flatMap.1 hd
  exact child_area_pos (S.mid t ht) hd (by rw [S.areaOf_parent ht]; exact h t ht)

/-- C61. Every triangle that the Linear filter makes lies in a triangle of the input and has its normal; if the input has no
degenerate triangle, the output has none. -/
theorem C61_linear_normals (hv : inp.Valid) (hsel : inp.SelOK f.cells) (h : cellUpdate .linear lib cosn f inp = (.ok out, f')) :
    inp.SameSide out ∧ ((∀ t ∈ inp.tris, 0 < inp.areaOf t) → ∀ d ∈ out.tris, 0 < out.areaOf d) :=
  ⟨(linear_split hv hsel h).sameSide, (linear_split hv hsel h).area_pos⟩

/-- C61 for the Linear edge filter. -/
theorem C61_linear_normals_edge (hv : inp.Valid) (hsel : inp.EdgeSelOK f.edgeSel)
    (h : edgeUpdate .linear lib cosn f inp = (.ok out, f')) :
    inp.SameSide out ∧ ((∀ t ∈ inp.tris, 0 < inp.areaOf t) → ∀ d ∈ out.tris, 0 < out.areaOf d) :=
  ⟨(linear_edge_split hv hsel h).sameSide, (linear_edge_split hv hsel h).area_pos⟩

/-- C61 for any number of levels and any selection. -/
theorem C61_linear_normals_iterative (hv : inp.Valid) {f : Iter} (hsel : inp.SelOK f.cells)
    (h : (iterUpdate .linear lib cosn f inp).1 = .ok out) :
    inp.SameSide out ∧ ((∀ t ∈ inp.tris, 0 < inp.areaOf t) → ∀ d ∈ out.tris, 0 < out.areaOf d) := by
  refine (iter_induct (sch := .linear) (lib := lib) (cosn := cosn) (by simp)
    (fun m _ => inp.SameSide m ∧ ((∀ t ∈ inp.tris, 0 < inp.areaOf t) → ∀ d ∈ m.tris, 0 < m.areaOf d)) ?_
    ⟨hv, by simp, by simp⟩ hsel (fun hc => nomatch hc) ⟨fun d hd => ⟨d, hd, LiesIn.refl _ _ _⟩, fun h => h⟩ h).elim fun _ h => h
  rintro m out sel f' hm hsel _ _ h ⟨h1, h2⟩
  obtain ⟨h3, h4⟩ := C61_linear_normals hm.valid (f := Filt.new.setCells sel) hsel h
  exact ⟨h1.trans h3, fun h => h4 (h2 h)⟩

/-- C61, conditional filter with the Linear cell filter, any area function and threshold: when it returns. -/
theorem C61_linear_normals_conditional (hv : inp.Valid) {n : Nat} {area : E → E → E → ℝ} {A : ℝ} {c c' : Cond Filt CId}
    (h : condGenerate lib (condCellUpd .linear lib cosn) (some (areaCompute area A)) n c inp = some (.ok out, c')) :
    inp.SameSide out ∧ ((∀ t ∈ inp.tris, 0 < inp.areaOf t) → ∀ d ∈ out.tris, 0 < out.areaOf d) := by
  refine condArea_induct hv (by simp) (by simp) (by simp)
    (fun m => inp.SameSide m ∧ ((∀ t ∈ inp.tris, 0 < inp.areaOf t) → ∀ d ∈ m.tris, 0 < m.areaOf d))
    ⟨sameSide_copy lib hv, by rw [copyGeometry_tris lib hv, areaOf_copyGeometry hv]; exact fun h => h⟩ ?_ h
  rintro m out sel f f' hm hn' hsel hnd hne hmax h ⟨h1, h2⟩
  obtain ⟨h3, h4⟩ := C61_linear_normals hm.valid (f := f.setCells sel) hsel h
  exact ⟨h1.trans h3, fun h => h4 (h2 h)⟩

/-- C61, conditional filter with the Linear edge filter. -/
theorem C61_linear_normals_conditional_edge (hv : inp.Valid) {n : Nat} {len : E → E → ℝ} {L : ℝ}
    {c c' : Cond Filt (Option Edge)}
    (h : condGenerate lib (condEdgeUpd .linear lib cosn) (some (lengthCompute len L)) n c inp = some (.ok out, c')) :
    inp.SameSide out ∧ ((∀ t ∈ inp.tris, 0 < inp.areaOf t) → ∀ d ∈ out.tris, 0 < out.areaOf d) := by
  refine condLength_induct hv (by simp) (by simp)
    (fun m => inp.SameSide m ∧ ((∀ t ∈ inp.tris, 0 < inp.areaOf t) → ∀ d ∈ m.tris, 0 < m.areaOf d))
    ⟨sameSide_copy lib hv, by rw [copyGeometry_tris lib hv, areaOf_copyGeometry hv]; exact fun h => h⟩ ?_ h
  rintro m out sel f f' H hn' hne h ⟨h1, h2⟩
  obtain ⟨h3, h4⟩ := C61_linear_normals_edge H.needs.valid (f := f.setEdges sel) H.selOK h
  exact ⟨h1.trans h3, fun h => h4 (h2 h)⟩

/-- the vector product with the third axis: positive for the triangles of `patchP`, which look upwards -/
noncomputable def up : R2 [⋀^Fin 2]→ₗ[ℝ] ℝ :=
  (Matrix.detRowAlternating : (Fin 2 → ℝ) [⋀^Fin 2]→ₗ[ℝ] ℝ).compLinearMap (WithLp.linearEquiv 2 ℝ (Fin 2 → ℝ)).toLinearMap

theorem up_eq (a b : R2) : up ![a, b] = a 0 * b 1 - a 1 * b 0 := by
  have : up ![a, b] = Matrix.det (Matrix.of fun i : Fin 2 => (![a, b] i).ofLp) := rfl
  rw [this, Matrix.det_fin_two]
  simp

theorem patchP_up : ∀ t ∈ patchP.tris, 0 < vectorArea up (patchP.place t.1) (patchP.place t.2.1) (patchP.place t.2.2) := by
  rw [patchP_ok.2.2.2]
  simp only [patch, List.mem_cons, List.not_mem_nil, or_false, forall_eq_or_imp, forall_eq]
  refine ⟨?_, ?_, ?_, ?_⟩ <;>
    simp [vectorArea, up_eq, Mesh.place, Mesh.pos, patchP, mk, meshOf, AMap.find?]

/-- after any number of levels all triangles still look upwards -/
example (n : Nat) : ∃ out, (iterUpdate .linear someLib realCos ⟨[1, 3], n, []⟩ patchP).1 = .ok out ∧
    ∀ t ∈ out.tris, 0 < vectorArea up (out.place t.1) (out.place t.2.1) (out.place t.2.2) := by
  have hsel : patchP.SelOK [1, 3] := by unfold Mesh.SelOK; decide
  obtain ⟨out, -, h, -⟩ := C24_iterative_selective (sch := .linear) (lib := someLib) realCos (by simp)
    (⟨patchP_ok.1, by simp, by simp⟩ : Scheme.linear.Needs patchP) (f := ⟨[1, 3], n, []⟩) (by simp) hsel (fun hc => nomatch hc)
  refine ⟨out, h, fun d hd => ?_⟩
  obtain ⟨t, ht, h1⟩ := (C61_linear_normals_iterative patchP_ok.1 (f := ⟨[1, 3], n, []⟩) hsel h).1 d hd
  obtain ⟨x, x0, -, hx⟩ := h1.normal
  rw [hx ℝ up]
  exact mul_pos x0 (patchP_up t ht)

example (A : ℝ) (hA : 0 < A) (c : Cond Filt CId) : ∃ n out c',
    condGenerate someLib (condCellUpd .linear someLib realCos) (some (areaCompute heronArea A)) n c patchP = some (.ok out, c') ∧
    patchP.SameSide out := by
  obtain ⟨n, out, c', h⟩ := C32_area_returns patchP_ok.1 hA someLib realCos c
  exact ⟨n, out, c', h n le_rfl, (C61_linear_normals_conditional patchP_ok.1 (h n le_rfl)).1⟩

example (L : ℝ) (hL : 0 < L) (c : Cond Filt (Option Edge)) : ∃ n out c',
    condGenerate someLib (condEdgeUpd .linear someLib realCos) (some (lengthCompute dist L)) n c patchP = some (.ok out, c') ∧
    patchP.SameSide out := by
  obtain ⟨n, out, c', h⟩ := C33_length_returns patchP_ok.1 hL someLib realCos c
  exact ⟨n, out, c', h n le_rfl, (C61_linear_normals_conditional_edge patchP_ok.1 (h n le_rfl)).1⟩

end Verif
