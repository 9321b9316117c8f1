import Verif.Spec.Normals
import Verif.Proofs.Volume
/-
The children of a triangle that is split at midpoints look to the same side.
-/
namespace Verif
set_option linter.unusedSectionVars false
set_option linter.unusedSimpArgs false
variable {E D : Type} [NormedAddCommGroup E] [InnerProductSpace ℝ E]

theorem LiesIn.refl (p q r : E) : LiesIn p q r p q r where
  inside := ⟨subset_convexHull ℝ _ (by simp), subset_convexHull ℝ _ (by simp), subset_convexHull ℝ _ (by simp)⟩
  normal := ⟨1, one_pos, le_rfl, fun V _ _ ω => (one_smul _ _).symm⟩

theorem LiesIn.trans {p q r p' q' r' p'' q'' r'' : E} (h : LiesIn p'' q'' r'' p' q' r') (h' : LiesIn p' q' r' p q r) :
    LiesIn p'' q'' r'' p q r := by
  have hsub : convexHull ℝ {p', q', r'} ⊆ convexHull ℝ {p, q, r} := by
    refine convexHull_min ?_ (convex_convexHull ℝ _)
    rintro x (rfl | rfl | rfl)
    exacts [h'.inside.1, h'.inside.2.1, h'.inside.2.2]
  obtain ⟨x, x0, x1, hx⟩ := h.normal
  obtain ⟨y, y0, y1, hy⟩ := h'.normal
  refine ⟨⟨hsub h.inside.1, hsub h.inside.2.1, hsub h.inside.2.2⟩, x * y, mul_pos x0 y0, mul_le_one₀ x1 y0.le y1, ?_⟩
  intro V _ _ ω
  rw [hx V ω, hy V ω, smul_smul]

/-- the vector area of a triangle whose corners are given by the corners of another one -/
theorem vectorArea_affine {V : Type} [AddCommGroup V] [Module ℝ V] (ω : E [⋀^Fin 2]→ₗ[ℝ] V) {p q r p' q' r' : E} {a b c d : ℝ}
    (h1 : q' - p' = a • (q - p) + b • (r - p)) (h2 : r' - p' = c • (q - p) + d • (r - p)) :
    vectorArea ω p' q' r' = (a * d - b * c) • vectorArea ω p q r := by
  unfold vectorArea
  rw [h1, h2, form2_add, form2_smul, form2_smul, form2_swap ω (q - p) (_ + _), form2_swap ω (r - p) (_ + _), form2_add, form2_add,
    form2_smul, form2_smul, form2_smul, form2_smul, form2_same, form2_same, form2_swap ω (r - p) (q - p)]
  module

theorem LiesIn.turn {p q r p' q' r' : E} (h : LiesIn p' q' r' q r p) : LiesIn p' q' r' p q r := by
  have hs : ({q, r, p} : Set E) = {p, q, r} := by ext x; simp only [Set.mem_insert_iff, Set.mem_singleton_iff]; tauto
  obtain ⟨h1, x, x0, x1, hx⟩ := h
  rw [hs] at h1
  exact ⟨h1, x, x0, x1, fun V _ _ ω => by rw [hx V ω, (additive_vectorArea ω).turn p q r]⟩

/-- the barycentric coordinates of a point of a triangle -/
structure Bary (p q r x : E) (a b c : ℝ) : Prop where
  nonneg : 0 ≤ a ∧ 0 ≤ b ∧ 0 ≤ c
  sum : a + b + c = 1
  eq : x = a • p + b • q + c • r

theorem Bary.mem {p q r x : E} {a b c : ℝ} (h : Bary p q r x a b c) : x ∈ convexHull ℝ {p, q, r} :=
  mem_hull3.2 ⟨a, b, c, h.nonneg.1, h.nonneg.2.1, h.nonneg.2.2, h.sum, h.eq⟩

/-- a triangle given by barycentric coordinates -/
theorem LiesIn.of_bary {p q r p' q' r' : E} {a0 a1 a2 b0 b1 b2 c0 c1 c2 : ℝ} (hp : Bary p q r p' a0 a1 a2)
    (hq : Bary p q r q' b0 b1 b2) (hr : Bary p q r r' c0 c1 c2)
    (h0 : 0 < (b1 - a1) * (c2 - a2) - (b2 - a2) * (c1 - a1))
    (h1 : (b1 - a1) * (c2 - a2) - (b2 - a2) * (c1 - a1) ≤ 1) : LiesIn p' q' r' p q r := by
  refine ⟨⟨hp.mem, hq.mem, hr.mem⟩, _, h0, h1, fun V _ _ ω => vectorArea_affine ω ?_ ?_⟩
  · have e1 : a0 = 1 - a1 - a2 := by linarith [hp.sum]
    have e2 : b0 = 1 - b1 - b2 := by linarith [hq.sum]
    rw [hp.eq, hq.eq, e1, e2]; module
  · have e1 : a0 = 1 - a1 - a2 := by linarith [hp.sum]
    have e2 : c0 = 1 - c1 - c2 := by linarith [hr.sum]
    rw [hp.eq, hr.eq, e1, e2]; module

theorem child_liesIn {μ : Edge → Option PId} {t d : Tri} {g : PId → E} (h : AtMid μ g t) (hd : d ∈ t.children μ) :
    LiesIn (g d.1) (g d.2.1) (g d.2.2) (g t.1) (g t.2.1) (g t.2.2) := by
  obtain ⟨a, b, c⟩ := t
  have h0 := h (a, b) (by simp [Tri.darts])
  have h1 := h (b, c) (by simp [Tri.darts])
  have h2 := h (c, a) (by simp [Tri.darts])
  have A : Bary (g a) (g b) (g c) (g a) 1 0 0 := ⟨by norm_num, by norm_num, by module⟩
  have B : Bary (g a) (g b) (g c) (g b) 0 1 0 := ⟨by norm_num, by norm_num, by module⟩
  have C : Bary (g a) (g b) (g c) (g c) 0 0 1 := ⟨by norm_num, by norm_num, by module⟩
  have M0 : ∀ m, μ (a, b) = some m → Bary (g a) (g b) (g c) (g m) (1 / 2) (1 / 2) 0 := fun m hm =>
    ⟨by norm_num, by norm_num, by rw [h0 m hm]; module⟩
  have M1 : ∀ m, μ (b, c) = some m → Bary (g a) (g b) (g c) (g m) 0 (1 / 2) (1 / 2) := fun m hm =>
    ⟨by norm_num, by norm_num, by rw [h1 m hm]; module⟩
  have M2 : ∀ m, μ (c, a) = some m → Bary (g a) (g b) (g c) (g m) (1 / 2) 0 (1 / 2) := fun m hm =>
    ⟨by norm_num, by norm_num, by rw [h2 m hm]; module⟩
  clear h h0 h1 h2
  rcases h0 : μ (a, b) with _ | m0 <;> rcases h1 : μ (b, c) with _ | m1 <;> rcases h2 : μ (c, a) with _ | m2 <;>
    simp only [Tri.children, h0, h1, h2, List.mem_cons, List.not_mem_nil, or_false] at hd
  all_goals first | have M0 := M0 _ h0 | clear M0
  all_goals first | have M1 := M1 _ h1 | clear M1
  all_goals first | have M2 := M2 _ h2 | clear M2
  all_goals
    obtain rfl | rfl | rfl | rfl := hd
  all_goals exact LiesIn.of_bary (by assumption) (by assumption) (by assumption) (by norm_num) (by norm_num)

end Verif
