import Verif.Spec.Geometry
import Verif.Proofs.Children
import Mathlib.Analysis.Convex.Join
import Mathlib.Tactic.Ring
import Mathlib.Tactic.Linarith
import Mathlib.Tactic.Module
/-
Areas, lengths and filled triangles under the face split with midpoints.
-/
namespace Verif
open scoped InnerProductSpace
set_option linter.unusedSectionVars false
variable {E D : Type} [NormedAddCommGroup E] [InnerProductSpace ℝ E]

theorem heronArea_eq (p q r : E) : heronArea p q r = triArea p q r := by
  have hc : dist p q ^ 2 = ‖q - p‖ ^ 2 := by rw [dist_comm, dist_eq_norm]
  have hb : dist r p ^ 2 = ‖r - p‖ ^ 2 := by rw [dist_eq_norm]
  have ha : dist q r ^ 2 = ‖q - p‖ ^ 2 - 2 * ⟪q - p, r - p⟫_ℝ + ‖r - p‖ ^ 2 := by
    rw [dist_eq_norm, ← norm_sub_sq_real]
    congr 2
    abel
  unfold heronArea triArea
  simp only
  have h4 : (1 / 2 : ℝ) = Real.sqrt (1 / 4) := by
    rw [show (1 / 4 : ℝ) = (1 / 2) ^ 2 by norm_num, Real.sqrt_sq (by norm_num)]
  conv_rhs => rw [h4]
  rw [← Real.sqrt_mul (by norm_num)]
  congr 1
  generalize dist q r = a at *
  generalize dist r p = b at *
  generalize dist p q = c at *
  generalize ⟪q - p, r - p⟫_ℝ = i at *
  rw [← hc, ← hb] at *
  have : i = (c ^ 2 + b ^ 2 - a ^ 2) / 2 := by linarith
  subst this
  ring

theorem triArea_nonneg (p q r : E) : 0 ≤ triArea p q r := by
  unfold triArea; positivity

/-- the area of a triangle with corners in the plane of `u` and `v` -/
theorem gram_comb (u v : E) (x y z w : ℝ) :
    ‖x • u + y • v‖ ^ 2 * ‖z • u + w • v‖ ^ 2 - ⟪x • u + y • v, z • u + w • v⟫_ℝ ^ 2 =
      (x * w - y * z) ^ 2 * (‖u‖ ^ 2 * ‖v‖ ^ 2 - ⟪u, v⟫_ℝ ^ 2) := by
  simp only [norm_add_sq_real, norm_smul, inner_add_left, inner_add_right, real_inner_smul_left, real_inner_smul_right,
    real_inner_self_eq_norm_sq, mul_pow, Real.norm_eq_abs, sq_abs, real_inner_comm u v]
  ring

theorem triArea_comb {p q r p' q' r' : E} (x y z w : ℝ) (hq : q' - p' = x • (q - p) + y • (r - p))
    (hr : r' - p' = z • (q - p) + w • (r - p)) : triArea p' q' r' = |x * w - y * z| * triArea p q r := by
  unfold triArea
  rw [hq, hr, gram_comb, Real.sqrt_mul (sq_nonneg _), Real.sqrt_sq_eq_abs]
  ring

theorem triArea_rotate (p q r : E) : triArea q r p = triArea p q r := by
  rw [triArea_comb (p := p) (q := q) (r := r) (p' := q) (q' := r) (r' := p) (-1) 1 (-1) 0 (by module) (by module)]
  norm_num

section children
variable {μ : Edge → Option PId} {t : Tri} {g : PId → E}

/-- the new points of the edges of a triangle are their midpoints -/
def AtMid (μ : Edge → Option PId) (g : PId → E) (t : Tri) : Prop :=
  ∀ e ∈ t.darts, ∀ m, μ e = some m → g m = (1 / 2 : ℝ) • g e.1 + (1 / 2 : ℝ) • g e.2

/-- each child has a fixed share of the area -/
theorem children_area (h : AtMid μ g t) : ∃ w : List ℝ, w.sum = 1 ∧ (∀ x ∈ w, 1 / 4 ≤ x ∧ x ≤ 1) ∧
    ((∀ e ∈ t.darts, (μ e).isSome) → ∀ x ∈ w, x = 1 / 4) ∧
    (t.children μ).map (fun d => triArea (g d.1) (g d.2.1) (g d.2.2)) =
      w.map fun x => x * triArea (g t.1) (g t.2.1) (g t.2.2) := by
  obtain ⟨a, b, c⟩ := t
  have h0 := h (a, b) (by simp [Tri.darts])
  have h1 := h (b, c) (by simp [Tri.darts])
  have h2 := h (c, a) (by simp [Tri.darts])
  simp only [Tri.children]
  rcases e0 : μ (a, b) with _ | m0 <;> rcases e1 : μ (b, c) with _ | m1 <;> rcases e2 : μ (c, a) with _ | m2 <;>
    simp only [List.map_cons, List.map_nil]
  · exact ⟨[1], by norm_num, by norm_num, by simp [Tri.darts, e0, e1, e2], by simp⟩
  · refine ⟨[1/2, 1/2], by norm_num, by norm_num, by simp [Tri.darts, e0, e1, e2], ?_⟩
    have g2 := h2 _ e2
    simp only [List.map_cons, List.map_nil]
    rw [triArea_comb (p := g a) (q := g b) (r := g c) (p' := g m2) (q' := g a) (r' := g b) 0 (-1/2) 1 (-1/2)
        (by rw [g2]; module) (by rw [g2]; module),
      triArea_comb (p := g a) (q := g b) (r := g c) (p' := g m2) (q' := g b) (r' := g c) 1 (-1/2) 0 (1/2)
        (by rw [g2]; module) (by rw [g2]; module)]
    norm_num
  · refine ⟨[1/2, 1/2], by norm_num, by norm_num, by simp [Tri.darts, e0, e1, e2], ?_⟩
    have g1 := h1 _ e1
    simp only [List.map_cons, List.map_nil]
    rw [triArea_comb (p := g a) (q := g b) (r := g c) (p' := g m1) (q' := g c) (r' := g a) (-1/2) (1/2) (-1/2) (-1/2)
        (by rw [g1]; module) (by rw [g1]; module),
      triArea_comb (p := g a) (q := g b) (r := g c) (p' := g m1) (q' := g a) (r' := g b) (-1/2) (-1/2) (1/2) (-1/2)
        (by rw [g1]; module) (by rw [g1]; module)]
    norm_num
  · refine ⟨[1/2, 1/4, 1/4], by norm_num, by norm_num, by simp [Tri.darts, e0, e1, e2], ?_⟩
    have g1 := h1 _ e1
    have g2 := h2 _ e2
    simp only [List.map_cons, List.map_nil]
    rw [triArea_comb (p := g a) (q := g b) (r := g c) (p' := g a) (q' := g b) (r' := g m1) 1 0 (1/2) (1/2)
        (by module) (by rw [g1]; module),
      triArea_comb (p := g a) (q := g b) (r := g c) (p' := g a) (q' := g m1) (r' := g m2) (1/2) (1/2) 0 (1/2)
        (by rw [g1]; module) (by rw [g2]; module),
      triArea_comb (p := g a) (q := g b) (r := g c) (p' := g m1) (q' := g c) (r' := g m2) (-1/2) (1/2) (-1/2) 0
        (by rw [g1]; module) (by rw [g1, g2]; module)]
    norm_num
  · refine ⟨[1/2, 1/2], by norm_num, by norm_num, by simp [Tri.darts, e0, e1, e2], ?_⟩
    have g0 := h0 _ e0
    simp only [List.map_cons, List.map_nil]
    rw [triArea_comb (p := g a) (q := g b) (r := g c) (p' := g m0) (q' := g b) (r' := g c) (1/2) 0 (-1/2) 1
        (by rw [g0]; module) (by rw [g0]; module),
      triArea_comb (p := g a) (q := g b) (r := g c) (p' := g m0) (q' := g c) (r' := g a) (-1/2) 1 (-1/2) 0
        (by rw [g0]; module) (by rw [g0]; module)]
    norm_num
  · refine ⟨[1/2, 1/4, 1/4], by norm_num, by norm_num, by simp [Tri.darts, e0, e1, e2], ?_⟩
    have g0 := h0 _ e0
    have g2 := h2 _ e2
    simp only [List.map_cons, List.map_nil]
    rw [triArea_comb (p := g a) (q := g b) (r := g c) (p' := g b) (q' := g c) (r' := g m0) (-1) 1 (-1/2) 0
        (by module) (by rw [g0]; module),
      triArea_comb (p := g a) (q := g b) (r := g c) (p' := g c) (q' := g m2) (r' := g m0) 0 (-1/2) (1/2) (-1)
        (by rw [g2]; module) (by rw [g0]; module),
      triArea_comb (p := g a) (q := g b) (r := g c) (p' := g m2) (q' := g a) (r' := g m0) 0 (-1/2) (1/2) (-1/2)
        (by rw [g2]; module) (by rw [g0, g2]; module)]
    norm_num
  · refine ⟨[1/2, 1/4, 1/4], by norm_num, by norm_num, by simp [Tri.darts, e0, e1, e2], ?_⟩
    have g0 := h0 _ e0
    have g1 := h1 _ e1
    simp only [List.map_cons, List.map_nil]
    rw [triArea_comb (p := g a) (q := g b) (r := g c) (p' := g c) (q' := g a) (r' := g m0) 0 (-1) (1/2) (-1)
        (by module) (by rw [g0]; module),
      triArea_comb (p := g a) (q := g b) (r := g c) (p' := g c) (q' := g m0) (r' := g m1) (1/2) (-1) (1/2) (-1/2)
        (by rw [g0]; module) (by rw [g1]; module),
      triArea_comb (p := g a) (q := g b) (r := g c) (p' := g m0) (q' := g b) (r' := g m1) (1/2) 0 0 (1/2)
        (by rw [g0]; module) (by rw [g0, g1]; module)]
    norm_num
  · refine ⟨[1/4, 1/4, 1/4, 1/4], by norm_num, by norm_num, by simp [Tri.darts, e0, e1, e2], ?_⟩
    have g0 := h0 _ e0
    have g1 := h1 _ e1
    have g2 := h2 _ e2
    simp only [List.map_cons, List.map_nil]
    rw [triArea_comb (p := g a) (q := g b) (r := g c) (p' := g a) (q' := g m0) (r' := g m2) (1/2) 0 0 (1/2)
        (by rw [g0]; module) (by rw [g2]; module),
      triArea_comb (p := g a) (q := g b) (r := g c) (p' := g m0) (q' := g b) (r' := g m1) (1/2) 0 0 (1/2)
        (by rw [g0]; module) (by rw [g0, g1]; module),
      triArea_comb (p := g a) (q := g b) (r := g c) (p' := g m1) (q' := g c) (r' := g m2) (-1/2) (1/2) (-1/2) 0
        (by rw [g1]; module) (by rw [g1, g2]; module),
      triArea_comb (p := g a) (q := g b) (r := g c) (p' := g m0) (q' := g m1) (r' := g m2) 0 (1/2) (-1/2) (1/2)
        (by rw [g0, g1]; module) (by rw [g0, g2]; module)]
    norm_num

theorem children_area_sum (h : AtMid μ g t) :
    ((t.children μ).map fun d => triArea (g d.1) (g d.2.1) (g d.2.2)).sum = triArea (g t.1) (g t.2.1) (g t.2.2) := by
  obtain ⟨w, h1, -, -, h2⟩ := children_area h
  rw [h2, List.sum_map_mul_right]
  simp [h1]

theorem child_area_le (h : AtMid μ g t) {d : Tri} (hd : d ∈ t.children μ) :
    triArea (g d.1) (g d.2.1) (g d.2.2) ≤ triArea (g t.1) (g t.2.1) (g t.2.2) := by
  obtain ⟨w, -, h1, -, h2⟩ := children_area h
  have : triArea (g d.1) (g d.2.1) (g d.2.2) ∈ (t.children μ).map (fun d => triArea (g d.1) (g d.2.1) (g d.2.2)) :=
    List.mem_map.2 ⟨d, hd, rfl⟩
  rw [h2] at this
  obtain ⟨x, hx, he⟩ := List.mem_map.1 this
  rw [← he]
  have := triArea_nonneg (g t.1) (g t.2.1) (g t.2.2)
  nlinarith [(h1 x hx).2]

theorem child_area_ge (h : AtMid μ g t) {d : Tri} (hd : d ∈ t.children μ) :
    1 / 4 * triArea (g t.1) (g t.2.1) (g t.2.2) ≤ triArea (g d.1) (g d.2.1) (g d.2.2) := by
  obtain ⟨w, -, h1, -, h2⟩ := children_area h
  have : triArea (g d.1) (g d.2.1) (g d.2.2) ∈ (t.children μ).map (fun d => triArea (g d.1) (g d.2.1) (g d.2.2)) :=
    List.mem_map.2 ⟨d, hd, rfl⟩
  rw [h2] at this
  obtain ⟨x, hx, he⟩ := List.mem_map.1 this
  rw [← he]
  have := triArea_nonneg (g t.1) (g t.2.1) (g t.2.2)
  nlinarith [(h1 x hx).1]

theorem child_area_quarter (h : AtMid μ g t) (hs : ∀ e ∈ t.darts, (μ e).isSome) {d : Tri} (hd : d ∈ t.children μ) :
    triArea (g d.1) (g d.2.1) (g d.2.2) = 1 / 4 * triArea (g t.1) (g t.2.1) (g t.2.2) := by
  obtain ⟨w, -, -, h1, h2⟩ := children_area h
  have : triArea (g d.1) (g d.2.1) (g d.2.2) ∈ (t.children μ).map (fun d => triArea (g d.1) (g d.2.1) (g d.2.2)) :=
    List.mem_map.2 ⟨d, hd, rfl⟩
  rw [h2] at this
  obtain ⟨x, hx, he⟩ := List.mem_map.1 this
  rw [← he, h1 hs x hx]

end children

/-! ### filled triangles -/

theorem mem_hull3 {p q r x : E} : x ∈ convexHull ℝ {p, q, r} ↔
    ∃ α β γ : ℝ, 0 ≤ α ∧ 0 ≤ β ∧ 0 ≤ γ ∧ α + β + γ = 1 ∧ x = α • p + β • q + γ • r := by
  constructor
  · intro h
    rw [convexHull_insert (by simp), convexHull_pair] at h
    simp only [convexJoin_singleton_left, Set.mem_iUnion] at h
    obtain ⟨y, hy, hx⟩ := h
    obtain ⟨a, b, ha, hb, hab, rfl⟩ := hy
    obtain ⟨c, d, hc, hd, hcd, rfl⟩ := hx
    refine ⟨c, d * a, d * b, hc, mul_nonneg hd ha, mul_nonneg hd hb, ?_, by module⟩
    rw [add_assoc, ← mul_add, hab, mul_one, hcd]
  · rintro ⟨α, β, γ, ha, hb, hc, h, rfl⟩
    have hp : p ∈ convexHull ℝ {p, q, r} := subset_convexHull ℝ _ (by simp)
    have hq : q ∈ convexHull ℝ {p, q, r} := subset_convexHull ℝ _ (by simp)
    have hr : r ∈ convexHull ℝ {p, q, r} := subset_convexHull ℝ _ (by simp)
    have hC := convex_convexHull ℝ ({p, q, r} : Set E)
    rcases eq_or_lt_of_le (add_nonneg ha hb) with h0 | h0
    · have h1 : α = 0 := by linarith
      have h2 : β = 0 := by linarith
      have h3 : γ = 1 := by linarith
      subst h1; subst h2; subst h3
      simpa using hr
    · have h1 : (α / (α + β)) • p + (β / (α + β)) • q ∈ convexHull ℝ {p, q, r} :=
        hC hp hq (by positivity) (by positivity) (by rw [← add_div, div_self h0.ne'])
      have h2 := hC h1 hr (a := α + β) (b := γ) h0.le hc h
      rw [smul_add, smul_smul, smul_smul, mul_div_cancel₀ _ h0.ne', mul_div_cancel₀ _ h0.ne'] at h2
      exact h2

theorem hull3_rotate (p q r : E) : convexHull ℝ {q, r, p} = convexHull ℝ {p, q, r} := by
  congr 1
  ext x
  simp only [Set.mem_insert_iff, Set.mem_singleton_iff]
  tauto

/-- cutting a filled triangle along a median -/
theorem hull3_cut (p q r x : E) : x ∈ convexHull ℝ {p, q, r} ↔
    x ∈ convexHull ℝ {(1 / 2 : ℝ) • p + (1 / 2 : ℝ) • q, q, r} ∨ x ∈ convexHull ℝ {(1 / 2 : ℝ) • p + (1 / 2 : ℝ) • q, r, p} := by
  simp only [mem_hull3]
  constructor
  · rintro ⟨α, β, γ, ha, hb, hc, h, rfl⟩
    rcases le_total α β with hab | hab
    · exact Or.inl ⟨2 * α, β - α, γ, by linarith, by linarith, hc, by linarith, by module⟩
    · exact Or.inr ⟨2 * β, γ, α - β, by linarith, hc, by linarith, by linarith, by module⟩
  · rintro (⟨α, β, γ, ha, hb, hc, h, rfl⟩ | ⟨α, β, γ, ha, hb, hc, h, rfl⟩)
    · exact ⟨α / 2, β + α / 2, γ, by linarith, by linarith, hc, by linarith, by module⟩
    · exact ⟨γ + α / 2, α / 2, β, by linarith, by linarith, hb, by linarith, by module⟩

/-- cutting a filled triangle into four -/
theorem hull3_four (p q r x : E) : x ∈ convexHull ℝ {p, q, r} ↔
    x ∈ convexHull ℝ {p, (1 / 2 : ℝ) • p + (1 / 2 : ℝ) • q, (1 / 2 : ℝ) • r + (1 / 2 : ℝ) • p} ∨
    x ∈ convexHull ℝ {(1 / 2 : ℝ) • p + (1 / 2 : ℝ) • q, q, (1 / 2 : ℝ) • q + (1 / 2 : ℝ) • r} ∨
    x ∈ convexHull ℝ {(1 / 2 : ℝ) • q + (1 / 2 : ℝ) • r, r, (1 / 2 : ℝ) • r + (1 / 2 : ℝ) • p} ∨
    x ∈ convexHull ℝ {(1 / 2 : ℝ) • p + (1 / 2 : ℝ) • q, (1 / 2 : ℝ) • q + (1 / 2 : ℝ) • r,
      (1 / 2 : ℝ) • r + (1 / 2 : ℝ) • p} := by
  simp only [mem_hull3]
  constructor
  · rintro ⟨α, β, γ, ha, hb, hc, h, rfl⟩
    by_cases h1 : 1 / 2 ≤ α
    · exact Or.inl ⟨α - β - γ, 2 * β, 2 * γ, by linarith, by linarith, by linarith, by linarith, by module⟩
    · by_cases h2 : 1 / 2 ≤ β
      · exact Or.inr (Or.inl ⟨2 * α, β - α - γ, 2 * γ, by linarith, by linarith, by linarith, by linarith, by module⟩)
      · by_cases h3 : 1 / 2 ≤ γ
        · exact Or.inr (Or.inr (Or.inl ⟨2 * β, γ - α - β, 2 * α, by linarith, by linarith, by linarith, by linarith,
            by module⟩))
        · exact Or.inr (Or.inr (Or.inr ⟨α + β - γ, β + γ - α, γ + α - β, by linarith, by linarith, by linarith,
            by linarith, by module⟩))
  · rintro (⟨α, β, γ, ha, hb, hc, h, rfl⟩ | ⟨α, β, γ, ha, hb, hc, h, rfl⟩ | ⟨α, β, γ, ha, hb, hc, h, rfl⟩ |
      ⟨α, β, γ, ha, hb, hc, h, rfl⟩)
    · exact ⟨α + β / 2 + γ / 2, β / 2, γ / 2, by linarith, by linarith, by linarith, by linarith, by module⟩
    · exact ⟨α / 2, β + α / 2 + γ / 2, γ / 2, by linarith, by linarith, by linarith, by linarith, by module⟩
    · exact ⟨γ / 2, α / 2, β + α / 2 + γ / 2, by linarith, by linarith, by linarith, by linarith, by module⟩
    · exact ⟨α / 2 + γ / 2, α / 2 + β / 2, β / 2 + γ / 2, by linarith, by linarith, by linarith, by linarith, by module⟩

/-- the children of a triangle fill it -/
theorem children_hull {μ : Edge → Option PId} {t : Tri} {g : PId → E} (h : AtMid μ g t) (x : E) :
    x ∈ convexHull ℝ {g t.1, g t.2.1, g t.2.2} ↔ ∃ d ∈ t.children μ, x ∈ convexHull ℝ {g d.1, g d.2.1, g d.2.2} := by
  obtain ⟨a, b, c⟩ := t
  have h0 := h (a, b) (by simp [Tri.darts])
  have h1 := h (b, c) (by simp [Tri.darts])
  have h2 := h (c, a) (by simp [Tri.darts])
  simp only [Tri.children]
  rcases e0 : μ (a, b) with _ | m0 <;> rcases e1 : μ (b, c) with _ | m1 <;> rcases e2 : μ (c, a) with _ | m2 <;>
    simp only [List.mem_cons, List.not_mem_nil, or_false, exists_eq_or_imp, exists_eq_left]
  · rw [h2 _ e2, ← hull3_rotate (g a), ← hull3_rotate (g b), hull3_cut]
  · rw [h1 _ e1, ← hull3_rotate (g a), hull3_cut]
  · have A := hull3_cut (g b) (g c) (g a) x
    have B := hull3_cut (g c) (g a) (g m1) x
    rw [← h1 _ e1, hull3_rotate (g a) (g b) (g c)] at A
    rw [← h2 _ e2, hull3_rotate (g m1) (g c) (g a)] at B
    rw [A, B, hull3_rotate (g m1) (g a) (g b), hull3_rotate (g m2) (g a) (g m1), hull3_rotate (g m2) (g m1) (g c)]
    tauto
  · rw [h0 _ e0, hull3_cut]
  · have A := hull3_cut (g a) (g b) (g c) x
    have B := hull3_cut (g c) (g a) (g m0) x
    rw [← h0 _ e0] at A
    rw [← h2 _ e2, hull3_rotate (g m0) (g c) (g a)] at B
    rw [A, B, hull3_rotate (g m0) (g b) (g c), hull3_rotate (g m0) (g c) (g m2), hull3_rotate (g m2) (g m0) (g c)]
    tauto
  · have A := hull3_cut (g a) (g b) (g c) x
    have B := hull3_cut (g b) (g c) (g m0) x
    rw [← h0 _ e0] at A
    rw [← h1 _ e1, hull3_rotate (g m0) (g b) (g c)] at B
    rw [A, B, hull3_rotate (g m0) (g c) (g a), hull3_rotate (g m1) (g c) (g m0), hull3_rotate (g m1) (g m0) (g b)]
    tauto
  · rw [h0 _ e0, h1 _ e1, h2 _ e2, hull3_four]

/-! ### edge lengths -/

/-- squared distance -/
noncomputable def sqd (p q : E) : ℝ := ‖p - q‖ ^ 2

theorem sqd_comm (p q : E) : sqd p q = sqd q p := by unfold sqd; rw [norm_sub_rev]

theorem sqd_nonneg (p q : E) : 0 ≤ sqd p q := by unfold sqd; positivity

theorem sqd_half (p q : E) : sqd ((1 / 2 : ℝ) • p + (1 / 2 : ℝ) • q) p = sqd p q / 4 := by
  unfold sqd
  have : (1 / 2 : ℝ) • p + (1 / 2 : ℝ) • q - p = (-(1 / 2) : ℝ) • (p - q) := by module
  rw [this, norm_smul, mul_pow]
  norm_num
  ring

theorem sqd_half' (p q : E) : sqd ((1 / 2 : ℝ) • p + (1 / 2 : ℝ) • q) q = sqd p q / 4 := by
  rw [add_comm, sqd_half, sqd_comm]

/-- the length of a median -/
theorem sqd_median (p q r : E) :
    sqd ((1 / 2 : ℝ) • p + (1 / 2 : ℝ) • q) r = (2 * sqd p r + 2 * sqd q r - sqd p q) / 4 := by
  unfold sqd
  have h1 : (1 / 2 : ℝ) • p + (1 / 2 : ℝ) • q - r = (1 / 2 : ℝ) • ((p - r) + (q - r)) := by module
  have h2 : p - q = (p - r) - (q - r) := by abel
  rw [h1, h2]
  generalize p - r = u
  generalize q - r = v
  rw [norm_smul, mul_pow, norm_add_sq_real, norm_sub_sq_real]
  norm_num
  ring

theorem sqd_midline (p q r : E) :
    sqd ((1 / 2 : ℝ) • p + (1 / 2 : ℝ) • q) ((1 / 2 : ℝ) • q + (1 / 2 : ℝ) • r) = sqd p r / 4 := by
  unfold sqd
  have h1 : (1 / 2 : ℝ) • p + (1 / 2 : ℝ) • q - ((1 / 2 : ℝ) • q + (1 / 2 : ℝ) • r) = (1 / 2 : ℝ) • (p - r) := by module
  rw [h1, norm_smul, mul_pow]
  norm_num
  ring

/-- When the edges longer than `√l` are split at their midpoints, squared edge lengths up to `M` become squared edge
lengths up to `max l (M / 2 + l / 4)`. -/
theorem children_sqd {μ : Edge → Option PId} {t : Tri} {g : PId → E} (h : AtMid μ g t) {l M : ℝ} (hl : 0 ≤ l)
    (hs : ∀ e ∈ t.darts, (μ e).isSome = true ↔ l < sqd (g e.1) (g e.2)) (hM : ∀ e ∈ t.darts, sqd (g e.1) (g e.2) ≤ M)
    {d : Tri} (hd : d ∈ t.children μ) {e : Edge} (he : e ∈ d.darts) :
    sqd (g e.1) (g e.2) ≤ max l (M / 2 + l / 4) := by
  obtain ⟨a, b, c⟩ := t
  have h0 := h (a, b) (by simp [Tri.darts])
  have h1 := h (b, c) (by simp [Tri.darts])
  have h2 := h (c, a) (by simp [Tri.darts])
  have s0 := hs (a, b) (by simp [Tri.darts])
  have s1 := hs (b, c) (by simp [Tri.darts])
  have s2 := hs (c, a) (by simp [Tri.darts])
  have M0 := hM (a, b) (by simp [Tri.darts])
  have M1 := hM (b, c) (by simp [Tri.darts])
  have M2 := hM (c, a) (by simp [Tri.darts])
  simp only at h0 h1 h2 s0 s1 s2 M0 M1 M2
  have n0 := sqd_nonneg (g a) (g b)
  have n1 := sqd_nonneg (g b) (g c)
  have n2 := sqd_nonneg (g c) (g a)
  have q0 : ∀ m0, μ (a, b) = some m0 → sqd (g m0) (g a) = sqd (g a) (g b) / 4 ∧ sqd (g m0) (g b) = sqd (g a) (g b) / 4 ∧
      sqd (g m0) (g c) = (2 * sqd (g c) (g a) + 2 * sqd (g b) (g c) - sqd (g a) (g b)) / 4 := by
    intro m0 hm
    rw [h0 _ hm]
    exact ⟨sqd_half _ _, sqd_half' _ _, by rw [sqd_median, sqd_comm (g a) (g c)]⟩
  have q1 : ∀ m1, μ (b, c) = some m1 → sqd (g m1) (g b) = sqd (g b) (g c) / 4 ∧ sqd (g m1) (g c) = sqd (g b) (g c) / 4 ∧
      sqd (g m1) (g a) = (2 * sqd (g a) (g b) + 2 * sqd (g c) (g a) - sqd (g b) (g c)) / 4 := by
    intro m1 hm
    rw [h1 _ hm]
    exact ⟨sqd_half _ _, sqd_half' _ _, by rw [sqd_median, sqd_comm (g b) (g a)]⟩
  have q2 : ∀ m2, μ (c, a) = some m2 → sqd (g m2) (g c) = sqd (g c) (g a) / 4 ∧ sqd (g m2) (g a) = sqd (g c) (g a) / 4 ∧
      sqd (g m2) (g b) = (2 * sqd (g b) (g c) + 2 * sqd (g a) (g b) - sqd (g c) (g a)) / 4 := by
    intro m2 hm
    rw [h2 _ hm]
    exact ⟨sqd_half _ _, sqd_half' _ _, by rw [sqd_median, sqd_comm (g c) (g b)]⟩
  have q01 : ∀ m0, μ (a, b) = some m0 → ∀ m1, μ (b, c) = some m1 → sqd (g m0) (g m1) = sqd (g c) (g a) / 4 := by
    intro m0 hm m1 hm'
    rw [h0 _ hm, h1 _ hm', sqd_midline, sqd_comm]
  have q12 : ∀ m1, μ (b, c) = some m1 → ∀ m2, μ (c, a) = some m2 → sqd (g m1) (g m2) = sqd (g a) (g b) / 4 := by
    intro m1 hm m2 hm'
    rw [h1 _ hm, h2 _ hm', sqd_midline, sqd_comm]
  have q20 : ∀ m2, μ (c, a) = some m2 → ∀ m0, μ (a, b) = some m0 → sqd (g m2) (g m0) = sqd (g b) (g c) / 4 := by
    intro m2 hm m0 hm'
    rw [h2 _ hm, h0 _ hm', sqd_midline, sqd_comm]
  clear h0 h1 h2 h hs hM
  rw [le_max_iff]
  simp only [Tri.children] at hd
  rcases e0 : μ (a, b) with _ | m0 <;> rcases e1 : μ (b, c) with _ | m1 <;> rcases e2 : μ (c, a) with _ | m2 <;>
    simp only [e0, e1, e2, Option.isSome_none, Option.isSome_some, Bool.false_eq_true, false_iff, true_iff, not_lt] at hd s0 s1 s2 <;>
    simp only [List.mem_cons, List.not_mem_nil, or_false] at hd
  all_goals
    have r1 := fun m h => (q0 m h).1
    have r2 := fun m h => (q0 m h).2.1
    have r3 := fun m h => (q0 m h).2.2
    have r4 := fun m h => (q1 m h).1
    have r5 := fun m h => (q1 m h).2.1
    have r6 := fun m h => (q1 m h).2.2
    have r7 := fun m h => (q2 m h).1
    have r8 := fun m h => (q2 m h).2.1
    have r9 := fun m h => (q2 m h).2.2
    simp only [e0, e1, e2, Option.some.injEq, forall_eq', reduceCtorEq, IsEmpty.forall_iff, implies_true]
      at r1 r2 r3 r4 r5 r6 r7 r8 r9 q01 q12 q20
    clear q0 q1 q2
    rcases hd with rfl | rfl | rfl | rfl
  all_goals
    simp only [Tri.darts, List.mem_cons, List.not_mem_nil, or_false] at he
    rcases he with rfl | rfl | rfl
  all_goals
    simp only
    first
    | (left; linarith)
    | (right; linarith)
    | (rw [sqd_comm]; first | (left; linarith) | (right; linarith))

end Verif
