import Verif.Proofs.Fat
import Verif.Properties.CondKeeps
import Verif.Properties.CondSafe
/-
The shapes of the triangles in adaptive Linear refinements.
-/
namespace Verif
set_option linter.unusedSectionVars false
variable {E D : Type} [NormedAddCommGroup E] [InnerProductSpace ℝ E] {inp out : Mesh E D} {lib : QELib} {cosn : Nat → ℝ}

theorem fatBy_iff {m : Mesh E D} {q : ℝ} :
    m.FatBy q ↔ ∀ t ∈ m.tris, ∀ e ∈ t.darts, q * sqd (m.place e.1) (m.place e.2) ≤ m.areaOf t := by
  unfold Mesh.FatBy
  simp only [sqd_eq]

theorem area_pieces (hv : inp.Valid) {A q b : ℝ} (hA : 0 < A) (hq : 0 < q) (hf : inp.FatBy q) (hb : b ≤ A / 4)
    (hb' : ∀ t ∈ inp.tris, b ≤ inp.areaOf t) {n : Nat} {c c' : Cond Filt CId}
    (h : condGenerate lib (condCellUpd .linear lib cosn) (some (areaCompute heronArea A)) n c inp = some (.ok out, c')) :
    ∀ t ∈ out.tris, ∃ s j, PieceBy q A b out t s j := by
  have key := condArea_induct_exact (sch := .linear) hv (by simp) (by simp) (by simp)
    (fun m => ∀ t ∈ m.tris, FatOrPiece q A b m t) ?_ ?_ h
  · intro t ht
    refine (key t ht).resolve_left fun hc => ?_
    rcases C47_area_safe (lib := lib) (sch := .linear) cosn hv (by simp) (by simp) n (by simp) heronArea A c with
      h1 | ⟨o, c2, h1, h2, -⟩
    · rw [h1] at h; cases h
    · rw [h1] at h
      cases h
      obtain ⟨k, hk⟩ := h2.mem_tris.1 ht
      have h3 := (C30_area_postcondition h1).2.2.1 k
      rw [tooLarge_iff h2 hk] at h3
      exact h3 hc.1
  · intro t ht
    rw [copyGeometry_tris lib hv] at ht
    have hp := place_copyGeometry (lib := lib) hv
    have hf := fatBy_iff.1 hf t ht
    refine fatOrPiece_of hq.le (Or.inl ?_) ?_
    · unfold Mesh.areaOf; rw [hp]; exact hb' t ht
    · unfold Mesh.areaOf; rw [hp]; exact hf
  · rintro m out sel f f' hn - hsel hne hex - hrun H
    exact fat_step hq hA hb hn.valid hsel hne hex hrun H

theorem length_pieces (hv : inp.Valid) {L q b : ℝ} (hL : 0 < L) (hq : 0 < q) (hf : inp.FatBy q) (hb : b ≤ q * L ^ 2 / 4)
    (hb' : ∀ t ∈ inp.tris, b ≤ inp.areaOf t) {n : Nat} {c c' : Cond Filt (Option Edge)}
    (h : condGenerate lib (condEdgeUpd .linear lib cosn) (some (lengthCompute dist L)) n c inp = some (.ok out, c')) :
    ∀ t ∈ out.tris, ∃ s j, ShortBy q L b out t s j := by
  have key := condLength_induct_exact (sch := .linear) hv (by simp) (by simp)
    (fun m => ∀ t ∈ m.tris, FatOrShort q L b m t) ?_ ?_ h
  · intro t ht
    refine (key t ht).resolve_left fun hc => ?_
    rcases C47_length_safe (lib := lib) (sch := .linear) cosn hv (by simp) (by simp) n dist L c with
      h1 | ⟨o, c2, h1, h2, -⟩
    · rw [h1] at h; cases h
    · rw [h1] at h
      cases h
      have he : (t.1, t.2.1) ∈ t.darts := by simp [Tri.darts]
      have hE := h2.isEdge_of_dart (mem_dartsOf.2 ⟨t, ht, he⟩)
      have h3 := (C30_length_postcondition h1).2.1
      have h4 := hc.1 _ he
      rw [sqd_eq, sq_lt_sq₀ hL.le dist_nonneg] at h4
      rcases hE with h5 | h5
      · exact h3 _ h5 ((tooLong_iff h2 (Or.inl h5)).2 h4)
      · rw [dist_comm] at h4
        exact h3 _ h5 ((tooLong_iff h2 (Or.inl h5)).2 h4)
  · intro t ht
    rw [copyGeometry_tris lib hv] at ht
    have hp := place_copyGeometry (lib := lib) hv
    have hf := fatBy_iff.1 hf t ht
    refine fatOrShort_of hq.le (Or.inl ?_) ?_
    · unfold Mesh.areaOf; rw [hp]; exact hb' t ht
    · unfold Mesh.areaOf; rw [hp]; exact hf
  · rintro m out l f f' hi - hne hex hrun H
    exact fat_step_length hq hL hb hi.needs.valid hi.selOK hne hex hrun H

theorem areaOf_nonneg (m : Mesh E D) (t : Tri) : 0 ≤ m.areaOf t := triArea_nonneg _ _ _

/-- C87. When the area of every input triangle is at least `q` times the square of each of its sides, the same is true of the
output with `q ^ 3` instead of `q`, however small the maximum area is. -/
theorem C87_shapes (hv : inp.Valid) {A q : ℝ} (hA : 0 < A) (hq : 0 < q) (hf : inp.FatBy q) {n : Nat} {c c' : Cond Filt CId}
    (h : condGenerate lib (condCellUpd .linear lib cosn) (some (areaCompute heronArea A)) n c inp = some (.ok out, c')) :
    out.FatBy (q ^ 3) := by
  rw [fatBy_iff]
  intro t ht e he
  obtain ⟨s, j, hp⟩ := area_pieces hv hA hq hf (b := 0) (by linarith) (fun t _ => areaOf_nonneg _ t) h t ht
  calc q ^ 3 * sqd (out.place e.1) (out.place e.2) = q ^ 2 * (q * sqd (out.place e.1) (out.place e.2)) := by ring
    _ ≤ q ^ 2 * s := mul_le_mul_of_nonneg_left (hp.side e he) (sq_nonneg q)
    _ ≤ _ := hp.area

/-- C87, for the edge filter with the length criterion: with `q ^ 5`. -/
theorem C87_shapes_edge (hv : inp.Valid) {L q : ℝ} (hL : 0 < L) (hq : 0 < q) (hf : inp.FatBy q) {n : Nat}
    {c c' : Cond Filt (Option Edge)}
    (h : condGenerate lib (condEdgeUpd .linear lib cosn) (some (lengthCompute dist L)) n c inp = some (.ok out, c')) :
    out.FatBy (q ^ 5) := by
  rw [fatBy_iff]
  intro t ht e he
  obtain ⟨s, j, hp⟩ := length_pieces hv hL hq hf (b := 0) (by positivity) (fun t _ => areaOf_nonneg _ t) h t ht
  calc q ^ 5 * sqd (out.place e.1) (out.place e.2) = q ^ 4 * (q * sqd (out.place e.1) (out.place e.2)) := by ring
    _ ≤ q ^ 4 * s := mul_le_mul_of_nonneg_left (hp.side e he) (by positivity)
    _ ≤ _ := hp.area

/-- C87 in terms of angles: when the sines of the angles of the input are at least `σ`, those of the output are at least
`σ ^ 6 / 4`. -/
theorem C87_angles (hv : inp.Valid) {A σ : ℝ} (hA : 0 < A) (hσ : 0 < σ) (hσ1 : σ ≤ 1) (hf : inp.AnglesBy σ) {n : Nat}
    {c c' : Cond Filt CId}
    (h : condGenerate lib (condCellUpd .linear lib cosn) (some (areaCompute heronArea A)) n c inp = some (.ok out, c')) :
    out.AnglesBy (σ ^ 6 / 4) := by
  have h1 := C87_shapes hv hA (by positivity) (hf.fat hσ) h
  have h2 := h1.angles (by
    have : σ ^ 6 ≤ 1 := pow_le_one₀ hσ.le hσ1
    nlinarith)
  have e : 2 * (σ ^ 2 / 2) ^ 3 = σ ^ 6 / 4 := by ring
  rwa [e] at h2

/-- C87 in terms of angles, for the edge filter with the length criterion. -/
theorem C87_angles_edge (hv : inp.Valid) {L σ : ℝ} (hL : 0 < L) (hσ : 0 < σ) (hσ1 : σ ≤ 1) (hf : inp.AnglesBy σ) {n : Nat}
    {c c' : Cond Filt (Option Edge)}
    (h : condGenerate lib (condEdgeUpd .linear lib cosn) (some (lengthCompute dist L)) n c inp = some (.ok out, c')) :
    out.AnglesBy (σ ^ 10 / 16) := by
  have h1 := C87_shapes_edge hv hL (by positivity) (hf.fat hσ) h
  have h2 := h1.angles (by
    have : σ ^ 10 ≤ 1 := pow_le_one₀ hσ.le hσ1
    nlinarith)
  have e : 2 * (σ ^ 2 / 2) ^ 5 = σ ^ 10 / 16 := by ring
  rwa [e] at h2

theorem count_areas {b : ℝ} (hv : out.Valid) (h : ∀ t ∈ out.tris, b ≤ out.areaOf t) : out.cells.length * b ≤ out.totalArea := by
  rw [← hv.tris_length]
  unfold Mesh.totalArea
  have key : ∀ T : List Tri, (∀ t ∈ T, b ≤ out.areaOf t) → T.length * b ≤ (T.map out.areaOf).sum := by
    intro T
    induction T with
    | nil => simp
    | cons t T ih =>
      intro hT
      have h1 := ih fun t ht => hT t (by simp [ht])
      have h2 := hT t (by simp)
      simp only [List.length_cons, List.map_cons, List.sum_cons]
      push_cast
      linarith
  exact key _ h

/-- C87, the sizes of the triangles: none is made much smaller than was asked for.  If no input triangle is smaller than
`a`, every output triangle has at least `q ^ 2` times the smaller one of `A / 4` and `a`; so the number of output triangles
is at most proportional to the total area divided by the maximum. -/
theorem C87_sizes (hv : inp.Valid) {A q a : ℝ} (hA : 0 < A) (hq : 0 < q) (hf : inp.FatBy q)
    (ha : ∀ t ∈ inp.tris, a ≤ inp.areaOf t) {n : Nat} {c c' : Cond Filt CId}
    (h : condGenerate lib (condCellUpd .linear lib cosn) (some (areaCompute heronArea A)) n c inp = some (.ok out, c')) :
    (∀ t ∈ out.tris, q ^ 2 * min (A / 4) a ≤ out.areaOf t ∧ out.areaOf t ≤ A) ∧
    out.cells.length * (q ^ 2 * min (A / 4) a) ≤ inp.totalArea := by
  have h1 := area_pieces hv hA hq hf (b := min (A / 4) a) (min_le_left _ _)
    (fun t ht => (min_le_right _ _).trans (ha t ht)) h
  have h2 : ∀ t ∈ out.tris, q ^ 2 * min (A / 4) a ≤ out.areaOf t ∧ out.areaOf t ≤ A := by
    intro t ht
    obtain ⟨s, j, hp⟩ := h1 t ht
    exact ⟨(mul_le_mul_of_nonneg_left hp.ge (sq_nonneg q)).trans hp.area, hp.small⟩
  refine ⟨h2, ?_⟩
  rcases C47_area_safe (lib := lib) (sch := .linear) cosn hv (by simp) (by simp) n (by simp) heronArea A c with
    h3 | ⟨o, c2, h3, h4, -⟩
  · rw [h3] at h; cases h
  · rw [h3] at h
    cases h
    rw [← (C21_linear_same_surface_conditional hv h3).2]
    exact count_areas h4 fun t ht => (h2 t ht).1

/-- C87, the sizes of the triangles, for the edge filter with the length criterion. -/
theorem C87_sizes_edge (hv : inp.Valid) {L q a : ℝ} (hL : 0 < L) (hq : 0 < q) (hf : inp.FatBy q)
    (ha : ∀ t ∈ inp.tris, a ≤ inp.areaOf t) {n : Nat} {c c' : Cond Filt (Option Edge)}
    (h : condGenerate lib (condEdgeUpd .linear lib cosn) (some (lengthCompute dist L)) n c inp = some (.ok out, c')) :
    (∀ t ∈ out.tris, q ^ 4 * min (q * L ^ 2 / 4) a ≤ out.areaOf t) ∧
    out.cells.length * (q ^ 4 * min (q * L ^ 2 / 4) a) ≤ inp.totalArea := by
  have h1 := length_pieces hv hL hq hf (b := min (q * L ^ 2 / 4) a) (min_le_left _ _)
    (fun t ht => (min_le_right _ _).trans (ha t ht)) h
  have h2 : ∀ t ∈ out.tris, q ^ 4 * min (q * L ^ 2 / 4) a ≤ out.areaOf t := by
    intro t ht
    obtain ⟨s, j, hp⟩ := h1 t ht
    exact (mul_le_mul_of_nonneg_left hp.ge (by positivity)).trans hp.area
  refine ⟨h2, ?_⟩
  rcases C47_length_safe (lib := lib) (sch := .linear) cosn hv (by simp) (by simp) n dist L c with
    h3 | ⟨o, c2, h3, h4, -⟩
  · rw [h3] at h; cases h
  · rw [h3] at h
    cases h
    rw [← (C21_linear_same_surface_conditional_edge hv h3).2]
    exact count_areas h4 fun t ht => h2 t ht

theorem rowP_fat : rowP.FatBy (1 / 16) := by
  obtain ⟨a1, a2, a3⟩ := rowP_area
  unfold Mesh.FatBy
  rw [rowP_ok.2.2.2]
  simp only [row, List.not_mem_nil, IsEmpty.forall_iff, implies_true, and_true, Tri.darts, a1, a2, a3,
    List.mem_cons, forall_eq_or_imp]
  refine ⟨⟨?_, ?_, ?_⟩, ⟨?_, ?_, ?_⟩, ⟨?_, ?_, ?_⟩⟩ <;>
    simp [Mesh.place, Mesh.pos, rowP, mk, meshOf, AMap.find?, EuclideanSpace.dist_eq, Real.sq_sqrt, Real.dist_eq] <;> norm_num

/-- the three triangles of `rowP` (with areas from 6 to 32) and any maximum area below 10 -/
example (c : Cond Filt CId) {A : ℝ} (hA : 0 < A) (hA' : A ≤ 10) : ∃ n out c',
    condGenerate someLib (condCellUpd .linear someLib realCos) (some (areaCompute heronArea A)) n c rowP = some (.ok out, c') ∧
    (0, 1, 2) ∉ out.tris ∧ out.FatBy (1 / 4096) ∧ ∀ t ∈ out.tris, A / 1024 ≤ out.areaOf t := by
  obtain ⟨n, out, c', h⟩ := C32_area_returns rowP_ok.1 hA someLib realCos c
  obtain ⟨a1, a2, a3⟩ := rowP_area
  have h1 := C87_shapes rowP_ok.1 hA (by norm_num) rowP_fat (h n le_rfl)
  have h2 := (C87_sizes rowP_ok.1 hA (by norm_num) rowP_fat (a := 6) (fun t ht => by
    rw [rowP_ok.2.2.2] at ht
    simp only [row, List.mem_cons, List.not_mem_nil, or_false] at ht
    rcases ht with rfl | rfl | rfl <;> simp only [a1, a2, a3] <;> norm_num) (h n le_rfl)).1
  have h3 := (C60_area_exact_linear rowP_ok.1 (h n le_rfl)).2
  refine ⟨n, out, c', h n le_rfl, ?_, by norm_num at h1; exact h1, fun t ht => ?_⟩
  · intro hc
    have hbig : A < rowP.areaOf (0, 1, 2) := by rw [a1]; linarith
    rw [rowP_ok.2.2.2] at h3
    exact ((h3 _ (by decide)).1 hc (0, 1, 2) (by decide) hbig (0, 1) (by decide)).1 (by decide)
  · have := (h2 t ht).1
    rw [min_eq_left (by linarith)] at this
    linarith

example (c : Cond Filt (Option Edge)) {L : ℝ} (hL : 0 < L) : ∃ n out c',
    condGenerate someLib (condEdgeUpd .linear someLib realCos) (some (lengthCompute dist L)) n c rowP = some (.ok out, c') ∧
    out.FatBy ((1 / 16) ^ 5) := by
  obtain ⟨n, out, c', h⟩ := C33_length_returns rowP_ok.1 hL someLib realCos c
  exact ⟨n, out, c', h n le_rfl, C87_shapes_edge rowP_ok.1 hL (by norm_num) rowP_fat (h n le_rfl)⟩

/-- in terms of angles, with `σ = 1 / 8` -/
example (c : Cond Filt CId) {A : ℝ} (hA : 0 < A) : ∃ n out c',
    condGenerate someLib (condCellUpd .linear someLib realCos) (some (areaCompute heronArea A)) n c rowP = some (.ok out, c') ∧
    out.AnglesBy ((1 / 8) ^ 6 / 4) := by
  obtain ⟨n, out, c', h⟩ := C32_area_returns rowP_ok.1 hA someLib realCos c
  have hf := rowP_fat.angles (by norm_num)
  norm_num at hf
  exact ⟨n, out, c', h n le_rfl, C87_angles rowP_ok.1 hA (by norm_num) (by norm_num) hf (h n le_rfl)⟩

end Verif
