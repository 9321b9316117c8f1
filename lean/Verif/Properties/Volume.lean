import Verif.Proofs.Volume
import Verif.Properties.CondKeeps
import Mathlib.LinearAlgebra.Matrix.Determinant.Basic
/-
C59: the Linear filters keep every quantity that is a sum over triangles and that adds up when a triangle is cut at the
midpoint of a side (`Additive`): area, vector area, enclosed volume.
-/
namespace Verif
set_option linter.unusedSectionVars false
variable {E D M : Type} [NormedAddCommGroup E] [InnerProductSpace ℝ E] [AddCommMonoid M]
variable {lib : QELib} {cosn : Nat → ℝ} {f f' : Filt} {inp out : Mesh E D} {F : E → E → E → M}

theorem SplitAtMid.total_eq {μ : Edge → Option PId} (S : SplitAtMid inp out μ) (hF : Additive F) :
    out.total F = inp.total F := by
  unfold Mesh.total
  rw [S.tris]
  have key : ∀ T : List Tri, (∀ t ∈ T, t ∈ inp.tris) →
      ((T.flatMap (Tri.children μ)).map fun t => F (out.place t.1) (out.place t.2.1) (out.place t.2.2)).sum =
      (T.map fun t => F (inp.place t.1) (inp.place t.2.1) (inp.place t.2.2)).sum := by
    intro T
    induction T with
    | nil => intro _; rfl
    | cons t T ih =>
      intro hT
      have ht := hT t (by simp)
      rw [List.flatMap_cons, List.map_append, List.sum_append, ih (fun t h => hT t (by simp [h])), List.map_cons,
        List.sum_cons, children_sum hF (S.mid t ht), S.kept t ht t.1 (by simp [Tri.verts]),
        S.kept t ht t.2.1 (by simp [Tri.verts]), S.kept t ht t.2.2 (by simp [Tri.verts])]
  exact key _ fun _ h => h

theorem total_copy (lib : QELib) (hv : inp.Valid) (F : E → E → E → M) : (copyGeometry lib inp).total F = inp.total F := by
  have hp : (copyGeometry lib inp).place = inp.place := by
    funext v
    unfold Mesh.place Mesh.pos
    rw [copyGeometry_points lib hv]
  unfold Mesh.total
  rw [copyGeometry_tris lib hv, hp]

section samples

abbrev R3 := EuclideanSpace ℝ (Fin 3)

/-- a tetrahedron, with edges of length 6 along the axes -/
noncomputable def tetraP : Mesh R3 Nat := mk [!₂[0, 0, 0], !₂[6, 0, 0], !₂[0, 6, 0], !₂[0, 0, 6]] tetra none

theorem tetraP_ok : tetraP.Valid ∧ tetraP.RingOK ∧ tetraP.NoIsolated ∧ tetraP.tris = tetra := mk_ok _ (by decide)

theorem tetraP_closed : tetraP.Closed := by
  rintro ⟨a, b⟩ ⟨h1, h2⟩
  rw [tetraP_ok.2.2.2] at h1 h2
  have : ∀ e ∈ dartsOf tetra, e.sym ∈ dartsOf tetra := by decide
  exact h2 (this _ h1)

/-- the determinant -/
noncomputable def det3 : R3 [⋀^Fin 3]→ₗ[ℝ] ℝ :=
  (Matrix.detRowAlternating : (Fin 3 → ℝ) [⋀^Fin 3]→ₗ[ℝ] ℝ).compLinearMap (WithLp.linearEquiv 2 ℝ (Fin 3 → ℝ)).toLinearMap

theorem det3_eq (a b c : R3) : det3 ![a, b, c] = a 0 * b 1 * c 2 - a 0 * b 2 * c 1 - a 1 * b 0 * c 2 + a 1 * b 2 * c 0 +
    a 2 * b 0 * c 1 - a 2 * b 1 * c 0 := by
  have : det3 ![a, b, c] = Matrix.det (Matrix.of fun i : Fin 3 => (![a, b, c] i).ofLp) := rfl
  rw [this, Matrix.det_fin_three]
  simp

/-- Its triangles turn inwards, so the volume is negative. -/
theorem tetraP_volume (o : R3) : tetraP.volume det3 o = -36 := by
  rw [Mesh.Closed.volume_apex tetraP_ok.1 tetraP_closed det3 o 0]
  unfold Mesh.volume Mesh.total
  rw [tetraP_ok.2.2.2]
  simp [tetra, coneVolume, det3_eq, Mesh.place, Mesh.pos, tetraP, mk, meshOf, AMap.find?]
  norm_num

end samples

/-- C59. The Linear filter keeps the sum of every additive quantity, for every selection. -/
theorem C59_linear_additive (hF : Additive F) (hv : inp.Valid) (hsel : inp.SelOK f.cells)
    (h : cellUpdate .linear lib cosn f inp = (.ok out, f')) : out.total F = inp.total F :=
  (linear_split hv hsel h).total_eq hF

/-- C59 for the Linear edge filter. -/
theorem C59_linear_additive_edge (hF : Additive F) (hv : inp.Valid) (hsel : inp.EdgeSelOK f.edgeSel)
    (h : edgeUpdate .linear lib cosn f inp = (.ok out, f')) : out.total F = inp.total F :=
  (linear_edge_split hv hsel h).total_eq hF

/-- C59 for any number of levels and any selection. -/
theorem C59_linear_additive_iterative (hF : Additive F) (hv : inp.Valid) {f : Iter} (hsel : inp.SelOK f.cells)
    (h : (iterUpdate .linear lib cosn f inp).1 = .ok out) : out.total F = inp.total F := by
  refine (iter_induct (sch := .linear) (lib := lib) (cosn := cosn) (by simp) (fun m _ => m.total F = inp.total F) ?_
    ⟨hv, by simp, by simp⟩ hsel (fun hc => nomatch hc) rfl h).elim fun _ h => h
  rintro m out sel f' hm hsel _ _ h h1
  exact (C59_linear_additive hF hm.valid (f := Filt.new.setCells sel) hsel h).trans h1

/-- C59, conditional filter with the Linear cell filter, any area function and threshold: when it returns. -/
theorem C59_linear_additive_conditional (hF : Additive F) (hv : inp.Valid) {n : Nat} {area : E → E → E → ℝ} {A : ℝ}
    {c c' : Cond Filt CId}
    (h : condGenerate lib (condCellUpd .linear lib cosn) (some (areaCompute area A)) n c inp = some (.ok out, c')) :
    out.total F = inp.total F := by
  refine condArea_induct hv (by simp) (by simp) (by simp) (fun m => m.total F = inp.total F) (total_copy lib hv F) ?_ h
  rintro m out sel f f' hm hn' hsel hnd hne hmax h h1
  exact (C59_linear_additive hF hm.valid (f := f.setCells sel) hsel h).trans h1

/-- C59, conditional filter with the Linear edge filter. -/
theorem C59_linear_additive_conditional_edge (hF : Additive F) (hv : inp.Valid) {n : Nat} {len : E → E → ℝ} {L : ℝ}
    {c c' : Cond Filt (Option Edge)}
    (h : condGenerate lib (condEdgeUpd .linear lib cosn) (some (lengthCompute len L)) n c inp = some (.ok out, c')) :
    out.total F = inp.total F := by
  refine condLength_induct hv (by simp) (by simp) (fun m => m.total F = inp.total F) (total_copy lib hv F) ?_ h
  rintro m out sel f f' H hn' hne h h1
  exact (C59_linear_additive_edge hF H.needs.valid (f := f.setEdges sel) H.selOK h).trans h1

/-- C59 for the volume that a closed mesh encloses, measured from any point before and from any point after the run. -/
theorem C59_linear_volume (ω : E [⋀^Fin 3]→ₗ[ℝ] ℝ) (hv : inp.Valid) (hc : inp.Closed) (hsel : inp.SelOK f.cells)
    (h : cellUpdate .linear lib cosn f inp = (.ok out, f')) (o o' : E) : out.volume ω o = inp.volume ω o' :=
  (C59_linear_additive (additive_coneVolume ω o) hv hsel h).trans (Mesh.Closed.volume_apex hv hc ω o o')

/-- … for any number of levels -/
theorem C59_linear_volume_iterative (ω : E [⋀^Fin 3]→ₗ[ℝ] ℝ) (hv : inp.Valid) (hc : inp.Closed) {f : Iter}
    (hsel : inp.SelOK f.cells) (h : (iterUpdate .linear lib cosn f inp).1 = .ok out) (o o' : E) :
    out.volume ω o = inp.volume ω o' :=
  (C59_linear_additive_iterative (additive_coneVolume ω o) hv hsel h).trans (Mesh.Closed.volume_apex hv hc ω o o')

/-- a tetrahedron: two selected cells; the volume, the area and the vector area for any vector product -/
example (ω : R3 [⋀^Fin 2]→ₗ[ℝ] R3) (o : R3) : ∃ out f', cellUpdate .linear someLib realCos (usedFilt [1, 3]) tetraP = (.ok out, f') ∧
    out.volume det3 o = -36 ∧ out.total (vectorArea ω) = tetraP.total (vectorArea ω) ∧
    out.total triArea = tetraP.total triArea := by
  have hsel : tetraP.SelOK (usedFilt [1, 3]).cells := by unfold Mesh.SelOK; decide
  obtain ⟨out, f', h, -⟩ := C01_face_split_completes (sch := .linear) (f := usedFilt [1, 3]) (by decide) someLib realCos
    ⟨tetraP_ok.1, by simp, by simp⟩ hsel
  exact ⟨out, f', h, by rw [C59_linear_volume det3 tetraP_ok.1 tetraP_closed hsel h o o]; exact tetraP_volume o,
    C59_linear_additive (additive_vectorArea ω) tetraP_ok.1 hsel h, C59_linear_additive additive_area tetraP_ok.1 hsel h⟩

/-- any number of levels -/
example (n : Nat) (o : R3) : ∃ out, (iterUpdate .linear someLib realCos ⟨[1, 3], n, []⟩ tetraP).1 = .ok out ∧
    out.volume det3 o = -36 := by
  have hsel : tetraP.SelOK [1, 3] := by unfold Mesh.SelOK; decide
  obtain ⟨out, -, h, -⟩ := C24_iterative_selective (sch := .linear) (lib := someLib) realCos (by simp)
    (⟨tetraP_ok.1, by simp, by simp⟩ : Scheme.linear.Needs tetraP) (f := ⟨[1, 3], n, []⟩) (by simp) hsel (fun hc => nomatch hc)
  exact ⟨out, h, by
    rw [C59_linear_volume_iterative det3 tetraP_ok.1 tetraP_closed (f := ⟨[1, 3], n, []⟩) hsel h o o]; exact tetraP_volume o⟩

/-- a listed edge -/
example (o : R3) : ∃ out f', edgeUpdate .linear someLib realCos (Filt.new.setEdges [some (1, 0)]) tetraP = (.ok out, f') ∧
    out.volume det3 o = -36 := by
  have hsel : tetraP.EdgeSelOK (Filt.new.setEdges [some (1, 0)]).edgeSel := by
    intro e he
    have : e = (1, 0) := by simpa [Filt.setEdges, Filt.new] using he
    subst this
    exact (tetraP_ok.1.isEdge_of_dart (by rw [tetraP_ok.2.2.2]; decide) : tetraP.IsEdge (1, 0))
  obtain ⟨out, f', h, -⟩ := C39_edge_filter_completes (sch := .linear) (f := Filt.new.setEdges [some (1, 0)]) someLib
    realCos ⟨tetraP_ok.1, by simp [EdgeScheme.toScheme], by simp [EdgeScheme.toScheme]⟩ hsel
  exact ⟨out, f', h, (C59_linear_additive_edge (additive_coneVolume det3 o) tetraP_ok.1 hsel h).trans (tetraP_volume o)⟩

/-- the conditional filters, any positive threshold -/
example (A : ℝ) (hA : 0 < A) (c : Cond Filt CId) (o : R3) : ∃ n out c',
    condGenerate someLib (condCellUpd .linear someLib realCos) (some (areaCompute heronArea A)) n c tetraP = some (.ok out, c') ∧
    out.volume det3 o = -36 := by
  obtain ⟨n, out, c', h⟩ := C32_area_returns tetraP_ok.1 hA someLib realCos c
  exact ⟨n, out, c', h n le_rfl,
    (C59_linear_additive_conditional (additive_coneVolume det3 o) tetraP_ok.1 (h n le_rfl)).trans (tetraP_volume o)⟩

example (L : ℝ) (hL : 0 < L) (c : Cond Filt (Option Edge)) (o : R3) : ∃ n out c',
    condGenerate someLib (condEdgeUpd .linear someLib realCos) (some (lengthCompute dist L)) n c tetraP = some (.ok out, c') ∧
    out.volume det3 o = -36 := by
  obtain ⟨n, out, c', h⟩ := C33_length_returns tetraP_ok.1 hL someLib realCos c
  exact ⟨n, out, c', h n le_rfl,
    (C59_linear_additive_conditional_edge (additive_coneVolume det3 o) tetraP_ok.1 (h n le_rfl)).trans (tetraP_volume o)⟩

end Verif
