import Verif.Proofs.FatFans
import Verif.Properties.Fat
/-
The number of triangles at a point in adaptive Linear refinements.
-/
namespace Verif
set_option linter.unusedSectionVars false
variable {E D : Type} [NormedAddCommGroup E] [InnerProductSpace ℝ E] {inp out : Mesh E D} {lib : QELib} {cosn : Nat → ℝ}

theorem mesh_start (hv : inp.Valid) {q : ℝ} (hf : inp.FatBy q) :
    (copyGeometry lib inp).valence = inp.valence ∧ ∀ t ∈ (copyGeometry lib inp).tris, ∀ e ∈ t.darts,
      q * sqd ((copyGeometry lib inp).place e.1) ((copyGeometry lib inp).place e.2) ≤ (copyGeometry lib inp).areaOf t := by
  unfold Mesh.valence Mesh.areaOf
  rw [copyGeometry_tris lib hv, place_copyGeometry (lib := lib) hv]
  exact ⟨rfl, fatBy_iff.1 hf⟩

theorem real_of_levels {a b K : ℕ} {x : ℝ} (h : a ≤ b * 2 ^ K) (hx : 0 < x) (hK : 2 ^ K * x ≤ 1) : a * x ≤ b := by
  have h1 : (a : ℝ) ≤ b * 2 ^ K := by exact_mod_cast h
  calc a * x ≤ b * 2 ^ K * x := mul_le_mul_of_nonneg_right h1 hx.le
    _ = b * (2 ^ K * x) := by ring
    _ ≤ b * 1 := mul_le_mul_of_nonneg_left hK (Nat.cast_nonneg b)
    _ = b := mul_one _

/-- C88. When the area of every input triangle is at least `q` times the square of each of its sides, the number of triangles
at a point of the output is at most `1 / q` times the number at that point in the input, or times 6 if that is more (as for all
points that are not in the input), however small the maximum area is.  Compare C68. -/
theorem C88_no_fans (hv : inp.Valid) {A q : ℝ} (hA : 0 < A) (hq : 0 < q) (hq1 : q ≤ 1) (hf : inp.FatBy q) {n : Nat}
    {c c' : Cond Filt CId}
    (h : condGenerate lib (condCellUpd .linear lib cosn) (some (areaCompute heronArea A)) n c inp = some (.ok out, c')) (v : PId) :
    out.valence v * q ≤ (max (inp.valence v) 6 : ℕ) := by
  obtain ⟨K, h1, h2⟩ := exists_levels hq hq1
  have key := condArea_induct_exact (sch := .linear) hv (by simp) (by simp) (by simp)
    (fun m => FanInv (FatAt q A) K inp.valence m) ?_ ?_ h
  · exact real_of_levels (key.valence_le v) hq h2
  · obtain ⟨h3, h4⟩ := mesh_start (lib := lib) hv hf
    rw [← h3]
    exact fanInv_start fun t ht => fatAt_of hq.le (h4 t ht)
  · rintro m out sel f f' hn - hsel hne hex - hrun H
    exact fan_step_area hq hA h1 hn.valid hsel hne hex hrun H

/-- C88, for the edge filter with the length criterion: with `q ^ 2` instead of `q`. -/
theorem C88_no_fans_edge (hv : inp.Valid) {L q : ℝ} (hL : 0 < L) (hq : 0 < q) (hq1 : q ≤ 1) (hf : inp.FatBy q) {n : Nat}
    {c c' : Cond Filt (Option Edge)}
    (h : condGenerate lib (condEdgeUpd .linear lib cosn) (some (lengthCompute dist L)) n c inp = some (.ok out, c')) (v : PId) :
    out.valence v * q ^ 2 ≤ (max (inp.valence v) 6 : ℕ) := by
  obtain ⟨K, h1, h2⟩ := exists_levels (x := q ^ 2) (by positivity) (pow_le_one₀ hq.le hq1)
  have key := condLength_induct_exact (sch := .linear) hv (by simp) (by simp)
    (fun m => FanInv (ShortAt q L) K inp.valence m) ?_ ?_ h
  · exact real_of_levels (key.valence_le v) (by positivity) h2
  · obtain ⟨h3, h4⟩ := mesh_start (lib := lib) hv hf
    rw [← h3]
    exact fanInv_start fun t ht => shortAt_of hq.le (h4 t ht)
  · rintro m out l f f' hi - hne hex hrun H
    exact fan_step_length hq hL h1 hi.needs.valid hi.selOK hne hex hrun H

/-- When no triangle is thin, `q = 1 / 8`, points have at most 48 triangles, if they had at most six. -/
theorem C88_well_shaped (hv : inp.Valid) {A : ℝ} (hA : 0 < A) (hf : inp.FatBy (1 / 8)) (h6 : ∀ v, inp.valence v ≤ 6) {n : Nat}
    {c c' : Cond Filt CId}
    (h : condGenerate lib (condCellUpd .linear lib cosn) (some (areaCompute heronArea A)) n c inp = some (.ok out, c')) (v : PId) :
    out.valence v ≤ 48 := by
  have h1 := C88_no_fans hv hA (by norm_num) (by norm_num) hf h v
  have h2 : ((max (inp.valence v) 6 : ℕ) : ℝ) ≤ 6 := by exact_mod_cast max_le (h6 v) le_rfl
  have h3 : (out.valence v : ℝ) ≤ 48 := by linarith
  exact_mod_cast h3

/-- the three triangles of `rowP`, which are selected in some iterations and not in others -/
example (c : Cond Filt CId) {A : ℝ} (hA : 0 < A) : ∃ n out c',
    condGenerate someLib (condCellUpd .linear someLib realCos) (some (areaCompute heronArea A)) n c rowP = some (.ok out, c') ∧
    ∀ v, out.valence v ≤ 96 := by
  obtain ⟨n, out, c', h⟩ := C32_area_returns rowP_ok.1 hA someLib realCos c
  refine ⟨n, out, c', h n le_rfl, fun v => ?_⟩
  have h1 := C88_no_fans rowP_ok.1 hA (by norm_num) (by norm_num) rowP_fat (h n le_rfl) v
  have h2 : rowP.valence v ≤ 6 := List.countP_le_length.trans (by rw [rowP_ok.2.2.2]; decide)
  have h3 : ((max (rowP.valence v) 6 : ℕ) : ℝ) ≤ 6 := by exact_mod_cast max_le h2 le_rfl
  have h4 : (out.valence v : ℝ) ≤ 96 := by linarith
  exact_mod_cast h4

example (c : Cond Filt (Option Edge)) {L : ℝ} (hL : 0 < L) : ∃ n out c',
    condGenerate someLib (condEdgeUpd .linear someLib realCos) (some (lengthCompute dist L)) n c rowP = some (.ok out, c') ∧
    ∀ v, out.valence v * (1 / 16 : ℝ) ^ 2 ≤ (max (rowP.valence v) 6 : ℕ) := by
  obtain ⟨n, out, c', h⟩ := C33_length_returns rowP_ok.1 hL someLib realCos c
  exact ⟨n, out, c', h n le_rfl, C88_no_fans_edge rowP_ok.1 hL (by norm_num) (by norm_num) rowP_fat (h n le_rfl)⟩

end Verif
