import Verif.Proofs.Affine
import Verif.Properties.Points
/-
C19: affine maps.
-/
namespace Verif
variable {K P P' D : Type} [Field K] [CharZero K] [AddCommGroup P] [Module K P] [AddCommGroup P'] [Module K P']

/-- C19 for Linear and SquareThree: on any mesh (valid or not) whose points are numbered `0 … n-1`, with any selection,
the run on the moved mesh is the moved run; if the one fails, the other fails in the same way. -/
theorem C19_affine_linear_sqrt3 {sch : Scheme} (hs : sch = .linear ∨ sch = .sqrt3) (lib : QELib) (cosn : Nat → K)
    (f : Filt) (inp : Mesh P D) (hp : inp.points.map Prod.fst = List.range inp.points.length) (φ : P →ᵃ[K] P') :
    (cellUpdate sch lib cosn f (inp.mapPoints φ)).1 = (cellUpdate sch lib cosn f inp).1.map (Mesh.mapPoints φ) ∧
    (cellUpdate sch lib cosn f (inp.mapPoints φ)).2.cells = (cellUpdate sch lib cosn f inp).2.cells := by
  have hcopy := copyPoints_alike (φ := (φ : P → P')) (inp := inp) (f := f) (g := f) (Or.inr hp) rfl
  rcases hs with rfl | rfl
  · exact runFilter_alike lib
      (sim_generateOutputPoints inp (fun _ c _ => sim_linearAddNew (aff_mid φ) inp c) hcopy)
      (sim_generateOutputCells inp)
  · exact runFilter_alike lib
      (sim_generateOutputPoints inp (fun _ c _ => sim_sq3AddNew (aff_third φ) inp c) hcopy)
      (sim_sq3OutputCells inp)

/-- C19 for ModifiedButterfly, on valid meshes, with any selection. -/
theorem C19_affine_butterfly (lib : QELib) (cosn : Nat → K) (f : Filt) {inp : Mesh P D} (hv : inp.Valid)
    (hr : inp.RingOK) (φ : P →ᵃ[K] P') :
    (cellUpdate .butterfly lib cosn f (inp.mapPoints φ)).1 =
      (cellUpdate .butterfly lib cosn f inp).1.map (Mesh.mapPoints φ) ∧
    (cellUpdate .butterfly lib cosn f (inp.mapPoints φ)).2.cells = (cellUpdate .butterfly lib cosn f inp).2.cells := by
  have hcopy := copyPoints_alike (φ := (φ : P → P')) (inp := inp) (f := f) (g := f) (Or.inr hv.points_dense) rfl
  exact runFilter_alike lib
      (sim_generateOutputPoints inp (fun _ c _ => sim_addThree inp (fun e he =>
        butterflyPoint_map φ hv hr (by simpa [Mesh.hasEdge, Mesh.IsEdge] using he)) c) hcopy)
      (sim_generateOutputCells inp)

/-- C19 for Loop, the part that holds: on valid meshes whose boundary does not touch itself.  Missing: points where
several boundary curves meet, at which the weights of `SmoothingPoint` do not sum to 1; see `C19_affine_loop_refuted`. -/
theorem C19_affine_loop_partial (lib : QELib) (cosn : Nat → K) {f : Filt} {inp : Mesh P D} (hn : Scheme.loop.Needs inp)
    (hsb : inp.SimpleBoundary) (hsel : inp.SelOK f.cells) (φ : P →ᵃ[K] P') :
    (cellUpdate .loop lib cosn f (inp.mapPoints φ)).1 = (cellUpdate .loop lib cosn f inp).1.map (Mesh.mapPoints φ) ∧
    (cellUpdate .loop lib cosn f (inp.mapPoints φ)).2.cells = (cellUpdate .loop lib cosn f inp).2.cells := by
  have hv := hn.valid
  have hr := hn.ring (Or.inl rfl)
  exact runFilter_alike lib
      (sim_generateOutputPoints inp (fun _ c _ => sim_addThree inp (fun e he =>
        loopPoint_map φ hv hr (by simpa [Mesh.hasEdge, Mesh.IsEdge] using he)) c)
        (loopCopy_alike φ cosn hv hr (hn.noIsolated rfl) hsb hsel))
      (sim_generateOutputCells inp)

/-- closed meshes meet the extra hypothesis -/
theorem C19_affine_loop_closed_partial (lib : QELib) (cosn : Nat → K) {f : Filt} {inp : Mesh P D}
    (hn : Scheme.loop.Needs inp) (hc : inp.Closed) (hsel : inp.SelOK f.cells) (φ : P →ᵃ[K] P') :
    (cellUpdate .loop lib cosn f (inp.mapPoints φ)).1 = (cellUpdate .loop lib cosn f inp).1.map (Mesh.mapPoints φ) :=
  (C19_affine_loop_partial lib cosn hn (fun e _ he => absurd he (hc e)) hsel φ).1

/-- a translation and a non-invertible linear map -/
example (out : Mesh Q3 Nat) (f' : Filt) (h : cellUpdate .linear someLib cos0 (usedFilt [1, 3]) patchMesh = (.ok out, f')) :
    (cellUpdate .linear someLib cos0 (usedFilt [1, 3]) (patchMesh.mapPoints fun p => (p.1 + 1, p.2.1 + 2, p.2.2 + 3))).1 =
      .ok (out.mapPoints fun p => (p.1 + 1, p.2.1 + 2, p.2.2 + 3)) := by
  have := (C19_affine_linear_sqrt3 (Or.inl rfl) someLib cos0 (usedFilt [1, 3]) patchMesh patchMesh_ok.1.points_dense
    (AffineMap.id ℚ Q3 + AffineMap.const ℚ Q3 ((1, 2, 3) : Q3))).1
  rw [h] at this
  exact this

example (f : Filt) : (cellUpdate .butterfly someLib cos0 f (patchMesh.mapPoints fun p => p.1)).1 =
    (cellUpdate .butterfly someLib cos0 f patchMesh).1.map (Mesh.mapPoints fun p => p.1) :=
  (C19_affine_butterfly someLib cos0 f patchMesh_ok.1 patchMesh_ok.2.1 (LinearMap.fst ℚ ℚ (ℚ × ℚ)).toAffineMap).1

theorem patch_simple : ∀ e e' : Edge, e ∈ dartsOf patch → e.sym ∉ dartsOf patch → e' ∈ dartsOf patch →
    e'.sym ∉ dartsOf patch → (e.1 = e'.1 → e = e') ∧ (e.2 = e'.2 → e = e') := by
  have : ∀ e ∈ dartsOf patch, ∀ e' ∈ dartsOf patch, e.sym ∉ dartsOf patch → e'.sym ∉ dartsOf patch →
      (e.1 = e'.1 → e = e') ∧ (e.2 = e'.2 → e = e') := by decide
  exact fun e e' h1 h2 h3 h4 => this e h1 e' h3 h2 h4

theorem patchMesh_simple : patchMesh.SimpleBoundary := by
  rintro e e' ⟨h1, h2⟩ ⟨h3, h4⟩
  rw [patchMesh_ok.2.2.2] at h1 h2 h3 h4
  exact patch_simple e e' h1 h2 h3 h4

example : (cellUpdate .loop someLib cos0 (usedFilt [1, 3]) (patchMesh.mapPoints fun p => p.1)).1 =
    (cellUpdate .loop someLib cos0 (usedFilt [1, 3]) patchMesh).1.map (Mesh.mapPoints fun p => p.1) :=
  (C19_affine_loop_partial someLib cos0 (patchMesh_needs _) patchMesh_simple patchMesh_sel
    (LinearMap.fst ℚ ℚ (ℚ × ℚ)).toAffineMap).1

section refuted

/-- two triangles that share the point 0 only, on a line -/
def bowtieR : Mesh ℝ Nat := mk [0, 1, 2, 3, 4] bowtie none

theorem bowtieR_ok : bowtieR.Valid ∧ bowtieR.RingOK ∧ bowtieR.NoIsolated ∧ bowtieR.tris = bowtie := mk_ok _ (by decide)

/-- the new position of the point that the two triangles share: the weights sum to 5/4 -/
theorem bowtie_smoothed {cosn : Nat → ℝ} {lib : QELib} {inp out : Mesh ℝ Nat} {f' : Filt} (hn : Scheme.loop.Needs inp)
    (ht : inp.tris = bowtie) (h : cellUpdate .loop lib cosn Filt.new inp = (.ok out, f')) (h0 : 0 < inp.points.length) :
    out.pos 0 = some ((3 / 4 : ℝ) * inp.coord 0 +
      (1 / 8 : ℝ) * (inp.coord 1 + (inp.coord 2 + (inp.coord 3 + inp.coord 4)))) := by
  have hv := hn.valid
  have hN : ∀ w, w ∈ [1, 2, 3, 4] ↔ inp.IsEdge (0, w) := by
    intro w
    rw [Mesh.IsEdge, hv.edges_iff, ht]
    simp [dartsOf, bowtie, Tri.darts, Edge.sym]
    tauto
  have hr := hn.ring (Or.inl rfl)
  obtain ⟨r, h1, h2⟩ := smoothingPoint_neighbours cosn hv hr (by decide) hN (by decide) (inp.coord 0)
  rw [smoothed_border cosn hv h1 (by decide) hN (B := [1, 2, 3, 4]) (by decide) (by decide) (by
    intro w
    rw [hN]
    constructor
    · intro hw
      refine ⟨hw, ?_⟩
      rw [← hN] at hw
      rw [ht]
      revert w
      decide
    · exact fun hw => hw.1)] at h2
  rw [cellUpdate_base (by decide) hn (selOK_nil _) h h0]
  simp only [schemeBase, loopBase, Filt.new, Bool.true_or, if_true]
  rw [valueOf_eq (np := fun v => smoothingPoint cosn inp v (inp.coord v)) h2]
  simp

/-- C19 is false for Loop: moving a mesh by a translation moves the shared point by another amount. -/
theorem C19_affine_loop_refuted (lib : QELib) (cosn : Nat → ℝ) : ∃ (inp out out' : Mesh ℝ Nat) (φ : ℝ →ᵃ[ℝ] ℝ),
    Scheme.loop.Needs inp ∧ (∀ x, φ x = x + 8) ∧
    (cellUpdate .loop lib cosn Filt.new inp).1 = .ok out ∧
    (cellUpdate .loop lib cosn Filt.new (inp.mapPoints φ)).1 = .ok out' ∧
    out.pos 0 = some (5 / 4) ∧ out'.pos 0 = some (5 / 4 + 10) := by
  have hn : Scheme.loop.Needs bowtieR := ⟨bowtieR_ok.1, fun _ => bowtieR_ok.2.1, fun _ => bowtieR_ok.2.2.1⟩
  have hn' : Scheme.loop.Needs (bowtieR.mapPoints (fun x => x + 8)) := hn.mapPoints
  obtain ⟨out, f, h, -⟩ := cellUpdate_ok (by decide) lib cosn (f := Filt.new) hn (selOK_nil _)
  obtain ⟨out', f', h', -⟩ := cellUpdate_ok (by decide) lib cosn (f := Filt.new) hn' (selOK_nil _)
  refine ⟨bowtieR, out, out', AffineMap.id ℝ ℝ + AffineMap.const ℝ ℝ (8 : ℝ), hn, fun x => rfl, congrArg Prod.fst h,
    congrArg Prod.fst h', ?_, ?_⟩
  · rw [bowtie_smoothed hn bowtieR_ok.2.2.2 h (by decide)]
    have e : ∀ v p, bowtieR.pos v = some p → bowtieR.coord v = p := fun v p h => Mesh.coord_of_pos h
    rw [e 0 0 rfl, e 1 1 rfl, e 2 2 rfl, e 3 3 rfl, e 4 4 rfl]
    norm_num
  · rw [bowtie_smoothed hn' bowtieR_ok.2.2.2 h' (by decide)]
    have e : ∀ v p, (bowtieR.mapPoints (fun x => x + 8)).pos v = some p →
        (bowtieR.mapPoints (fun x => x + 8)).coord v = p := fun v p h => Mesh.coord_of_pos h
    rw [e 0 (0 + 8) rfl, e 1 (1 + 8) rfl, e 2 (2 + 8) rfl, e 3 (3 + 8) rfl, e 4 (4 + 8) rfl]
    norm_num

end refuted
end Verif
