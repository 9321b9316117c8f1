import Verif.Spec.Fat
import Verif.Proofs.CondExact
import Verif.Properties.CondExact
/-
The shapes of the triangles that adaptive Linear refinement makes.
-/
namespace Verif
set_option linter.unusedSectionVars false
open scoped InnerProductSpace
variable {E D : Type} [NormedAddCommGroup E] [InnerProductSpace ℝ E] {inp out m : Mesh E D} {lib : QELib} {cosn : Nat → ℝ}

theorem triArea_sq_le (p q r : E) : 4 * triArea p q r ^ 2 ≤ sqd p q * sqd p r := by
  unfold triArea sqd
  have h0 : ⟪q - p, r - p⟫_ℝ ^ 2 ≤ ‖q - p‖ ^ 2 * ‖r - p‖ ^ 2 := by
    rw [← mul_pow]
    exact sq_le_sq' (by linarith [neg_le_of_abs_le (abs_real_inner_le_norm (q - p) (r - p))]) (real_inner_le_norm _ _)
  rw [mul_pow, Real.sq_sqrt (by linarith), norm_sub_rev p q, norm_sub_rev p r]
  nlinarith [sq_nonneg ⟪q - p, r - p⟫_ℝ]

/-- a fat triangle has no short sides -/
theorem fat_side {m : Mesh E D} {t : Tri} {q : ℝ} (hq : 0 ≤ q)
    (h : ∀ e ∈ t.darts, q * sqd (m.place e.1) (m.place e.2) ≤ m.areaOf t) {e : Edge} (he : e ∈ t.darts) :
    4 * q * m.areaOf t ≤ sqd (m.place e.1) (m.place e.2) := by
  obtain ⟨a, b, c⟩ := t
  have key : ∀ S x y : ℝ, 0 ≤ S → 0 ≤ x → q * y ≤ S → 4 * S ^ 2 ≤ x * y → 4 * q * S ≤ x := by
    intro S x y hS hx h1 h2
    by_contra hc
    have hc := not_le.1 hc
    have hS' : 0 < S := by
      rcases hS.lt_or_eq with h | h
      · exact h
      · rw [← h] at hc; linarith
    have : 4 * q * S ^ 2 ≤ x * S := by nlinarith
    nlinarith
  have h1 := h (a, b) (by simp [Tri.darts])
  have h2 := h (b, c) (by simp [Tri.darts])
  have h3 := h (c, a) (by simp [Tri.darts])
  simp only at h1 h2 h3
  have hS : 0 ≤ m.areaOf (a, b, c) := triArea_nonneg _ _ _
  have s1 := triArea_sq_le (m.place a) (m.place b) (m.place c)
  have s2 := triArea_sq_le (m.place b) (m.place c) (m.place a)
  have s3 := triArea_sq_le (m.place c) (m.place a) (m.place b)
  rw [triArea_rotate] at s2
  rw [triArea_rotate, triArea_rotate] at s3
  rw [sqd_comm (m.place a) (m.place c)] at s1
  rw [sqd_comm (m.place b) (m.place a)] at s2
  rw [sqd_comm (m.place c) (m.place b)] at s3
  simp only [Tri.darts, List.mem_cons, List.not_mem_nil, or_false] at he
  rcases he with rfl | rfl | rfl
  · exact key _ _ _ hS (sqd_nonneg _ _) h3 s1
  · exact key _ _ _ hS (sqd_nonneg _ _) h1 s2
  · exact key _ _ _ hS (sqd_nonneg _ _) h2 s3

theorem fat_le {m : Mesh E D} {t : Tri} {q : ℝ} (hq : 0 ≤ q)
    (h : ∀ e ∈ t.darts, q * sqd (m.place e.1) (m.place e.2) ≤ m.areaOf t) : q ^ 2 * m.areaOf t ≤ m.areaOf t := by
  have h1 := fat_side hq h (e := (t.1, t.2.1)) (by simp [Tri.darts])
  have h2 := h (t.1, t.2.1) (by simp [Tri.darts])
  have hS : 0 ≤ m.areaOf t := triArea_nonneg _ _ _
  nlinarith

section children
variable {μ : Edge → Option PId} {t : Tri} {g : PId → E}

/-- no side of a part is longer than the longest side of the whole -/
theorem child_sqd_le (h : AtMid μ g t) {M : ℝ} (hM : ∀ e ∈ t.darts, sqd (g e.1) (g e.2) ≤ M)
    {d : Tri} (hd : d ∈ t.children μ) {e : Edge} (he : e ∈ d.darts) : sqd (g e.1) (g e.2) ≤ M := by
  obtain ⟨a, b, c⟩ := t
  have h0 := h (a, b) (by simp [Tri.darts])
  have h1 := h (b, c) (by simp [Tri.darts])
  have h2 := h (c, a) (by simp [Tri.darts])
  have M0 := hM (a, b) (by simp [Tri.darts])
  have M1 := hM (b, c) (by simp [Tri.darts])
  have M2 := hM (c, a) (by simp [Tri.darts])
  simp only at h0 h1 h2 M0 M1 M2
  have n0 := sqd_nonneg (g a) (g b)
  have n1 := sqd_nonneg (g b) (g c)
  have n2 := sqd_nonneg (g c) (g a)
  have q0 : ∀ m0, μ (a, b) = some m0 → sqd (g m0) (g a) = sqd (g a) (g b) / 4 ∧ sqd (g m0) (g b) = sqd (g a) (g b) / 4 ∧
      sqd (g m0) (g c) = (2 * sqd (g c) (g a) + 2 * sqd (g b) (g c) - sqd (g a) (g b)) / 4 := by
    intro m0 hm
    rw [h0 _ hm]
    exact ⟨sqd_half _ _, sqd_half' _ _, by rw [sqd_median, sqd_comm (g a) (g c)]⟩
  have q1 : ∀ m1, μ (b, c) = some m1 → sqd (g m1) (g b) = sqd (g b) (g c) / 4 ∧ sqd (g m1) (g c) = sqd (g b) (g c) / 4 ∧
      sqd (g m1) (g a) = (2 * sqd (g a) (g b) + 2 * sqd (g c) (g a) - sqd (g b) (g c)) / 4 := by
    intro m1 hm
    rw [h1 _ hm]
    exact ⟨sqd_half _ _, sqd_half' _ _, by rw [sqd_median, sqd_comm (g b) (g a)]⟩
  have q2 : ∀ m2, μ (c, a) = some m2 → sqd (g m2) (g c) = sqd (g c) (g a) / 4 ∧ sqd (g m2) (g a) = sqd (g c) (g a) / 4 ∧
      sqd (g m2) (g b) = (2 * sqd (g b) (g c) + 2 * sqd (g a) (g b) - sqd (g c) (g a)) / 4 := by
    intro m2 hm
    rw [h2 _ hm]
    exact ⟨sqd_half _ _, sqd_half' _ _, by rw [sqd_median, sqd_comm (g c) (g b)]⟩
  have q01 : ∀ m0, μ (a, b) = some m0 → ∀ m1, μ (b, c) = some m1 → sqd (g m0) (g m1) = sqd (g c) (g a) / 4 := by
    intro m0 hm m1 hm'
    rw [h0 _ hm, h1 _ hm', sqd_midline, sqd_comm]
  have q12 : ∀ m1, μ (b, c) = some m1 → ∀ m2, μ (c, a) = some m2 → sqd (g m1) (g m2) = sqd (g a) (g b) / 4 := by
    intro m1 hm m2 hm'
    rw [h1 _ hm, h2 _ hm', sqd_midline, sqd_comm]
  have q20 : ∀ m2, μ (c, a) = some m2 → ∀ m0, μ (a, b) = some m0 → sqd (g m2) (g m0) = sqd (g b) (g c) / 4 := by
    intro m2 hm m0 hm'
    rw [h2 _ hm, h0 _ hm', sqd_midline, sqd_comm]
  clear h0 h1 h2 h hM
  simp only [Tri.children] at hd
  rcases e0 : μ (a, b) with _ | m0 <;> rcases e1 : μ (b, c) with _ | m1 <;> rcases e2 : μ (c, a) with _ | m2 <;>
    simp only [e0, e1, e2] at hd <;>
    simp only [List.mem_cons, List.not_mem_nil, or_false] at hd
  all_goals
    have r1 := fun m h => (q0 m h).1
    have r2 := fun m h => (q0 m h).2.1
    have r3 := fun m h => (q0 m h).2.2
    have r4 := fun m h => (q1 m h).1
    have r5 := fun m h => (q1 m h).2.1
    have r6 := fun m h => (q1 m h).2.2
    have r7 := fun m h => (q2 m h).1
    have r8 := fun m h => (q2 m h).2.1
    have r9 := fun m h => (q2 m h).2.2
    simp only [e0, e1, e2, Option.some.injEq, forall_eq', reduceCtorEq, IsEmpty.forall_iff, implies_true]
      at r1 r2 r3 r4 r5 r6 r7 r8 r9 q01 q12 q20
    clear q0 q1 q2
    rcases hd with rfl | rfl | rfl | rfl
  all_goals
    simp only [Tri.darts, List.mem_cons, List.not_mem_nil, or_false] at he
    rcases he with rfl | rfl | rfl
  all_goals
    simp only
    first
    | linarith
    | (rw [sqd_comm]; linarith)

/-- if all sides are split, the parts have half the sides -/
theorem child_sqd_quarter (h : AtMid μ g t) (hs : ∀ e ∈ t.darts, (μ e).isSome) {d : Tri} (hd : d ∈ t.children μ) {e : Edge}
    (he : e ∈ d.darts) : ∃ e' ∈ t.darts, sqd (g e.1) (g e.2) = sqd (g e'.1) (g e'.2) / 4 := by
  obtain ⟨a, b, c⟩ := t
  obtain ⟨m0, e0⟩ := Option.isSome_iff_exists.1 (hs (a, b) (by simp [Tri.darts]))
  obtain ⟨m1, e1⟩ := Option.isSome_iff_exists.1 (hs (b, c) (by simp [Tri.darts]))
  obtain ⟨m2, e2⟩ := Option.isSome_iff_exists.1 (hs (c, a) (by simp [Tri.darts]))
  have h0 := h (a, b) (by simp [Tri.darts]) _ e0
  have h1 := h (b, c) (by simp [Tri.darts]) _ e1
  have h2 := h (c, a) (by simp [Tri.darts]) _ e2
  simp only at h0 h1 h2
  have p1 : sqd (g m0) (g a) = sqd (g a) (g b) / 4 := by rw [h0, sqd_half]
  have p2 : sqd (g m0) (g b) = sqd (g a) (g b) / 4 := by rw [h0, sqd_half']
  have p3 : sqd (g m1) (g b) = sqd (g b) (g c) / 4 := by rw [h1, sqd_half]
  have p4 : sqd (g m1) (g c) = sqd (g b) (g c) / 4 := by rw [h1, sqd_half']
  have p5 : sqd (g m2) (g c) = sqd (g c) (g a) / 4 := by rw [h2, sqd_half]
  have p6 : sqd (g m2) (g a) = sqd (g c) (g a) / 4 := by rw [h2, sqd_half']
  have p7 : sqd (g m0) (g m1) = sqd (g c) (g a) / 4 := by rw [h0, h1, sqd_midline, sqd_comm]
  have p8 : sqd (g m1) (g m2) = sqd (g a) (g b) / 4 := by rw [h1, h2, sqd_midline, sqd_comm]
  have p9 : sqd (g m2) (g m0) = sqd (g b) (g c) / 4 := by rw [h2, h0, sqd_midline, sqd_comm]
  simp only [Tri.children, e0, e1, e2, List.mem_cons, List.not_mem_nil, or_false] at hd
  simp only [Tri.darts, List.mem_cons, List.not_mem_nil, or_false, exists_eq_or_imp, exists_eq_left]
  clear h0 h1 h2 h hs
  rcases hd with rfl | rfl | rfl | rfl <;>
    simp only [Tri.darts, List.mem_cons, List.not_mem_nil, or_false] at he <;>
    rcases he with rfl | rfl | rfl <;> simp only <;>
    first
    | (left; assumption)
    | (right; left; assumption)
    | (right; right; assumption)
    | (left; rw [sqd_comm]; assumption)
    | (right; left; rw [sqd_comm]; assumption)
    | (right; right; rw [sqd_comm]; assumption)

/-- half of a split side -/
theorem outer_half (h : AtMid μ g t) {e : Edge} (he : e ∈ t.darts) {p q x : PId} (ho : OuterOf μ e p q) (hx : μ e = some x) :
    sqd (g p) (g q) = sqd (g e.1) (g e.2) / 4 := by
  have hm := h e he
  rcases ho with ⟨-, h1⟩ | ⟨rfl, h1⟩ | ⟨rfl, h1⟩
  · rw [hx] at h1; cases h1
  · rw [hm _ h1, sqd_comm, sqd_half]
  · rw [hm _ h1, sqd_half']

end children

/-- a part of a triangle that was not subdivided any more; `s` is the area of that triangle, and `j` the number of levels since -/
structure PieceBy (q A b : ℝ) (m : Mesh E D) (t : Tri) (s : ℝ) (j : ℕ) : Prop where
  small : m.areaOf t ≤ A
  le : s ≤ A
  ge : b ≤ s
  area : q ^ 2 * s ≤ m.areaOf t
  area' : s ≤ 4 ^ j * m.areaOf t
  side : ∀ e ∈ t.darts, q * sqd (m.place e.1) (m.place e.2) ≤ s
  side' : ∀ e ∈ t.darts, q * (4 ^ j * sqd (m.place e.1) (m.place e.2)) ≤ s ∨ ∀ u ∈ m.tris, e.sym ∈ u.darts → m.areaOf u ≤ A

/-- a triangle that is to be subdivided, or a part of one that is not -/
def FatOrPiece (q A b : ℝ) (m : Mesh E D) (t : Tri) : Prop :=
  (A < m.areaOf t ∧ ∀ e ∈ t.darts, q * sqd (m.place e.1) (m.place e.2) ≤ m.areaOf t) ∨ ∃ s j, PieceBy q A b m t s j

theorem fatOrPiece_of {q A b : ℝ} (hq : 0 ≤ q) {t : Tri} (hb : b ≤ m.areaOf t ∨ A < m.areaOf t)
    (h : ∀ e ∈ t.darts, q * sqd (m.place e.1) (m.place e.2) ≤ m.areaOf t) : FatOrPiece q A b m t := by
  by_cases hA : A < m.areaOf t
  · exact Or.inl ⟨hA, h⟩
  · have hA' := not_lt.1 hA
    refine Or.inr ⟨m.areaOf t, 0, hA', hA', hb.resolve_right hA, fat_le hq h, by simp, h, fun e he => Or.inl ?_⟩
    simpa using h e he

theorem fat_child {q A b : ℝ} (hq : 0 < q) (hA : 0 < A) (hb : b ≤ A / 4) {sel : List CId} {f f' : Filt} (hv : m.Valid)
    (hsel : m.SelOK sel) (hne : sel ≠ []) (hex : ∀ k, k ∈ sel ↔ m.TooLarge heronArea A k)
    (h : cellUpdate .linear lib cosn (f.setCells sel) m = (.ok out, f')) (H : ∀ t ∈ m.tris, FatOrPiece q A b m t) {t : Tri}
    (ht : t ∈ m.tris) {d : Tri} (hd : d ∈ t.children (m.edgePoint sel)) :
    ((A < m.areaOf t ∧ ∀ e ∈ t.darts, q * sqd (m.place e.1) (m.place e.2) ≤ m.areaOf t) →
      (∀ e ∈ t.darts, (m.edgePoint sel e).isSome) ∧ b ≤ out.areaOf d ∧
        ∀ e ∈ d.darts, q * sqd (out.place e.1) (out.place e.2) ≤ out.areaOf d) ∧
    ∀ s j, PieceBy q A b m t s j → PieceBy q A b out d s (j + 1) ∧
      ((∀ e ∈ t.darts, m.edgePoint sel e = none) ∨ 2 ^ (j + 1) * q < 1) := by
  have hn : Scheme.linear.Needs m := ⟨hv, by simp, by simp⟩
  have S : SplitAtMid m out (m.edgePoint sel) := linear_split hv (f := f.setCells sel) hsel h
  have hμ := (cellUpdate_result (by decide) hn (f := f.setCells sel) hsel h).1.label
  have hbig : ∀ s, s ∈ m.selected sel ↔ s ∈ m.tris ∧ A < m.areaOf s := by
    intro s
    rw [selected_big hv hne hex]
    exact and_congr_right fun hs => bigTri_iff hv hs
  have hg := hv.good
  have hside : ∀ t ∈ m.tris, ∀ e ∈ t.darts, sqd (out.place e.1) (out.place e.2) = sqd (m.place e.1) (m.place e.2) := by
    intro t ht e he
    rw [S.kept t ht _ (Tri.dart_fst he), S.kept t ht _ (Tri.dart_snd he)]
  constructor
  · rintro ⟨hA1, hf⟩
    have hs := selected_split ((hbig t).2 ⟨ht, hA1⟩)
    have ha := S.area_quarter ht hs hd
    refine ⟨hs, by linarith, fun e he => ?_⟩
    obtain ⟨e', he', h1⟩ := child_sqd_quarter (S.mid t ht) hs hd he
    have := hf e' he'
    rw [h1, hside t ht e' he', ha]
    linarith
  · intro s j hp
    have hnot : t ∉ m.selected sel := fun hc => absurd ((hbig t).1 hc).2 (not_lt.2 hp.small)
    have hsmall : out.areaOf d ≤ A := (S.area_le ht hd).trans hp.small
    have hquart : 1 / 4 * m.areaOf t ≤ out.areaOf d := by
      rw [← S.areaOf_parent ht]; exact child_area_ge (S.mid t ht) hd
    have h0 : 0 ≤ m.areaOf t := triArea_nonneg _ _ _
    have hpow : (0 : ℝ) < 4 ^ j := by positivity
    -- a split side
    have hsplit : ∀ e ∈ t.darts, (m.edgePoint sel e).isSome →
        q * (4 ^ j * sqd (m.place e.1) (m.place e.2)) ≤ s ∧ 4 * q * A < sqd (m.place e.1) (m.place e.2) := by
      intro e he hs
      obtain ⟨u, hu, heu⟩ : ∃ u ∈ m.selected sel, e.sym ∈ u.darts := by
        rcases (edgePoint_isSome _ _ _).1 hs with h1 | h1
        · obtain ⟨u, hu, heu⟩ := mem_dartsOf.1 h1
          have := hg.eq_of_dart ht ((hbig u).1 hu).1 he heu
          subst this
          exact absurd hu hnot
        · exact mem_dartsOf.1 h1
      obtain ⟨hu1, hu2⟩ := (hbig u).1 hu
      refine ⟨(hp.side' e he).resolve_right fun hc => absurd hu2 (not_lt.2 (hc u hu1 heu)), ?_⟩
      rcases H u hu1 with ⟨-, hf⟩ | ⟨s', j', hp'⟩
      · have := fat_side hq.le hf heu
        rw [Edge.sym_fst, Edge.sym_snd, sqd_comm] at this
        have h3 : 4 * q * A < 4 * q * m.areaOf u := by
          apply mul_lt_mul_of_pos_left hu2; linarith
        linarith
      · exact absurd hu2 (not_lt.2 hp'.small)
    have hstop : (∀ e ∈ t.darts, m.edgePoint sel e = none) ∨ q ^ 2 * 4 ^ j * 4 < 1 := by
      by_cases hall : ∀ e ∈ t.darts, m.edgePoint sel e = none
      · exact Or.inl hall
      · right
        push Not at hall
        obtain ⟨e, he, h1⟩ := hall
        obtain ⟨h2, h3⟩ := hsplit e he (Option.isSome_iff_ne_none.2 h1)
        have h4 : q * (4 ^ j * (4 * q * A)) < A := by
          have : q * (4 ^ j * (4 * q * A)) < q * (4 ^ j * sqd (m.place e.1) (m.place e.2)) :=
            mul_lt_mul_of_pos_left (mul_lt_mul_of_pos_left h3 hpow) hq
          linarith [hp.le]
        by_contra hc
        have := mul_le_mul_of_nonneg_right (not_lt.1 hc) hA.le
        nlinarith
    refine ⟨⟨hsmall, hp.le, hp.ge, ?_, ?_, ?_, ?_⟩, hstop.imp_right fun h5 => ?_⟩
    · rcases hstop with hall | h5
      · rw [children_none _ _ hall, List.mem_singleton] at hd
        subst hd
        have : out.areaOf d = m.areaOf d := S.areaOf_parent ht
        rw [this]; exact hp.area
      · have h6 := hp.area'
        have h7 : q ^ 2 * s ≤ q ^ 2 * (4 ^ j * m.areaOf t) := mul_le_mul_of_nonneg_left h6 (by positivity)
        nlinarith
    · have := hp.area'
      rw [pow_succ]
      nlinarith
    · intro e he
      have hM : ∀ e' ∈ t.darts, sqd (out.place e'.1) (out.place e'.2) ≤ s / q := by
        intro e' he'
        rw [hside t ht e' he', le_div_iff₀ hq, mul_comm]
        exact hp.side e' he'
      have := child_sqd_le (S.mid t ht) hM hd he
      rw [le_div_iff₀ hq] at this
      linarith
    · rintro ⟨x, y⟩ he
      rcases child_dart hg hμ ht hd he with ⟨e, he', ho⟩ | hi
      · rcases hμe : m.edgePoint sel e with _ | z
        · right
          intro u hu heu
          rw [S.tris] at hu
          obtain ⟨t', ht', hu⟩ := List.mem_flatMap.1 hu
          have h1 := child_across hg hμ ht ht' he' hu ho heu
          have h2 : t' ∉ m.selected sel := fun hc => by
            have := (edgePoint_isSome m sel e).2 (Or.inr (mem_dartsOf.2 ⟨t', hc, h1⟩))
            rw [hμe] at this; cases this
          refine (S.area_le ht' hu).trans (not_lt.1 fun hc => h2 ((hbig t').2 ⟨ht', hc⟩))
        · left
          have h1 := (hsplit e he' (by rw [hμe]; rfl)).1
          rw [outer_half (S.mid t ht) he' ho hμe, hside t ht e he', pow_succ]
          linarith
      · right
        intro u hu heu
        rw [S.tris] at hu
        obtain ⟨t', ht', hu⟩ := List.mem_flatMap.1 hu
        have : t = t' := by
          rcases child_dart hg hμ ht' hu heu with ⟨e', he', h2⟩ | h2
          · exact (outer_not_inner hμ ht' ht he' h2 hi.symm).elim
          · exact inner_unique hμ hg ht ht' hi.symm h2
        subst this
        exact (S.area_le ht hu).trans hp.small
    · have e : q ^ 2 * 4 ^ j * 4 = (2 ^ (j + 1) * q) ^ 2 := by
        rw [show (4 : ℝ) = 2 ^ 2 by norm_num, ← pow_mul, mul_comm 2 j, pow_mul]; ring
      rw [e] at h5
      exact (sq_lt_one_iff₀ (by positivity)).1 h5

theorem fat_step {q A b : ℝ} (hq : 0 < q) (hA : 0 < A) (hb : b ≤ A / 4) {sel : List CId} {f f' : Filt} (hv : m.Valid)
    (hsel : m.SelOK sel) (hne : sel ≠ []) (hex : ∀ k, k ∈ sel ↔ m.TooLarge heronArea A k)
    (h : cellUpdate .linear lib cosn (f.setCells sel) m = (.ok out, f')) (H : ∀ t ∈ m.tris, FatOrPiece q A b m t) :
    ∀ d ∈ out.tris, FatOrPiece q A b out d := by
  intro d hd
  rw [(linear_split hv (f := f.setCells sel) hsel h).tris] at hd
  obtain ⟨t, ht, hd⟩ := List.mem_flatMap.1 hd
  obtain ⟨h1, h2⟩ := fat_child hq hA hb hv hsel hne hex h H ht hd
  rcases H t ht with h3 | ⟨s, j, h3⟩
  · exact fatOrPiece_of hq.le (Or.inl (h1 h3).2.1) (h1 h3).2.2
  · exact Or.inr ⟨s, j + 1, (h2 s j h3).1⟩

/-- a part of a triangle that has a side that is not split any more; `s` is the area of that triangle, and `j` the number of
levels since -/
structure ShortBy (q L b : ℝ) (m : Mesh E D) (t : Tri) (s : ℝ) (j : ℕ) : Prop where
  ge : b ≤ s
  le : 4 * q * s ≤ L ^ 2
  area : q ^ 4 * s ≤ m.areaOf t
  area' : s ≤ 4 ^ j * m.areaOf t
  side : ∀ e ∈ t.darts, q * sqd (m.place e.1) (m.place e.2) ≤ s
  side' : ∀ e ∈ t.darts, sqd (m.place e.1) (m.place e.2) ≤ L ^ 2 ∨ q * (2 ^ j * (sqd (m.place e.1) (m.place e.2) - L ^ 2 / 2)) ≤ s

/-- a triangle with three sides to split, or a part of one without -/
def FatOrShort (q L b : ℝ) (m : Mesh E D) (t : Tri) : Prop :=
  ((∀ e ∈ t.darts, L ^ 2 < sqd (m.place e.1) (m.place e.2)) ∧
    ∀ e ∈ t.darts, q * sqd (m.place e.1) (m.place e.2) ≤ m.areaOf t) ∨ ∃ s j, ShortBy q L b m t s j

theorem fatOrShort_of {q L b : ℝ} (hq : 0 ≤ q) {t : Tri}
    (hb : b ≤ m.areaOf t ∨ ∀ e ∈ t.darts, L ^ 2 < sqd (m.place e.1) (m.place e.2))
    (h : ∀ e ∈ t.darts, q * sqd (m.place e.1) (m.place e.2) ≤ m.areaOf t) : FatOrShort q L b m t := by
  by_cases hA : ∀ e ∈ t.darts, L ^ 2 < sqd (m.place e.1) (m.place e.2)
  · exact Or.inl ⟨hA, h⟩
  · have hb' := hb.resolve_right hA
    push Not at hA
    obtain ⟨e0, he0, h0⟩ := hA
    have hS : 0 ≤ m.areaOf t := triArea_nonneg _ _ _
    have h1 := fat_le hq h
    refine Or.inr ⟨m.areaOf t, 0, hb', (fat_side hq h he0).trans h0, ?_, by simp, h, fun e he => Or.inr ?_⟩
    · have := mul_le_mul_of_nonneg_left h1 (sq_nonneg q)
      calc q ^ 4 * m.areaOf t = q ^ 2 * (q ^ 2 * m.areaOf t) := by ring
        _ ≤ _ := this.trans h1
    · have := h e he
      have := mul_nonneg hq (sq_nonneg L)
      rw [pow_zero]
      linarith

theorem fat_child_length {q L b : ℝ} (hq : 0 < q) (hL : 0 < L) (hb : b ≤ q * L ^ 2 / 4) {l : List Edge} {f f' : Filt}
    (hv : m.Valid) (hsel : m.EdgeSelOK (l.map some)) (hne : l ≠ []) (hex : ∀ e, e ∈ l ↔ e ∈ m.edges ∧ m.TooLong dist L e)
    (h : edgeUpdate .linear lib cosn (f.setEdges (l.map some)) m = (.ok out, f')) {t : Tri}
    (ht : t ∈ m.tris) {d : Tri} (hd : d ∈ t.children (m.listPoint (l.map some))) :
    (((∀ e ∈ t.darts, L ^ 2 < sqd (m.place e.1) (m.place e.2)) ∧
        ∀ e ∈ t.darts, q * sqd (m.place e.1) (m.place e.2) ≤ m.areaOf t) →
      (∀ e ∈ t.darts, (m.listPoint (l.map some) e).isSome) ∧ b ≤ out.areaOf d ∧
        ∀ e ∈ d.darts, q * sqd (out.place e.1) (out.place e.2) ≤ out.areaOf d) ∧
    ∀ s j, ShortBy q L b m t s j → ShortBy q L b out d s (j + 1) ∧
      ((∀ e ∈ t.darts, m.listPoint (l.map some) e = none) ∨ 2 ^ (j + 1) * q ^ 2 < 1) := by
  have S : SplitAtMid m out (m.listPoint (l.map some)) := linear_edge_split hv (f := f.setEdges (l.map some)) hsel h
  have hside : ∀ t ∈ m.tris, ∀ e ∈ t.darts, sqd (out.place e.1) (out.place e.2) = sqd (m.place e.1) (m.place e.2) := by
    intro t ht e he
    rw [S.kept t ht _ (Tri.dart_fst he), S.kept t ht _ (Tri.dart_snd he)]
  have hsplit : ∀ t ∈ m.tris, ∀ e ∈ t.darts,
      (m.listPoint (l.map some) e).isSome = true ↔ L ^ 2 < sqd (m.place e.1) (m.place e.2) := by
    intro t ht e he
    rw [length_split hv hne hex (hv.isEdge_of_dart (mem_dartsOf.2 ⟨t, ht, he⟩)), sqd_eq]
    exact (sq_lt_sq₀ hL.le dist_nonneg).symm
  constructor
  · rintro ⟨hA1, hf⟩
    have hs : ∀ e ∈ t.darts, (m.listPoint (l.map some) e).isSome := fun e he => (hsplit t ht e he).2 (hA1 e he)
    have ha := S.area_quarter ht hs hd
    refine ⟨hs, ?_, fun e he => ?_⟩
    · have h1 := hf (t.1, t.2.1) (by simp [Tri.darts])
      have h2 := hA1 (t.1, t.2.1) (by simp [Tri.darts])
      have h3 := mul_lt_mul_of_pos_left h2 hq
      rw [ha]
      linarith
    · obtain ⟨e', he', h1⟩ := child_sqd_quarter (S.mid t ht) hs hd he
      have := hf e' he'
      rw [h1, hside t ht e' he', ha]
      linarith
  · intro s j hp
    have hquart : 1 / 4 * m.areaOf t ≤ out.areaOf d := by
      rw [← S.areaOf_parent ht]; exact child_area_ge (S.mid t ht) hd
    have h0 : 0 ≤ m.areaOf t := triArea_nonneg _ _ _
    have hpow : (0 : ℝ) < 4 ^ j := by positivity
    have hpow' : (0 : ℝ) < 2 ^ j := by positivity
    have hstop : (∀ e ∈ t.darts, m.listPoint (l.map some) e = none) ∨ 2 ^ (j + 1) * q ^ 2 < 1 := by
      by_cases hall : ∀ e ∈ t.darts, m.listPoint (l.map some) e = none
      · exact Or.inl hall
      · right
        push Not at hall
        obtain ⟨e, he, h1⟩ := hall
        have h2 := (hsplit t ht e he).1 (Option.isSome_iff_ne_none.2 h1)
        have h3 := (hp.side' e he).resolve_left (not_le.2 h2)
        have h4 : q * (2 ^ j * (L ^ 2 / 2)) < s :=
          (mul_lt_mul_of_pos_left (mul_lt_mul_of_pos_left (by linarith) hpow') hq).trans_le h3
        have hs : 0 < s := lt_of_le_of_lt (by positivity) h4
        rw [pow_succ]
        by_contra hc
        have h6 := mul_le_mul_of_nonneg_right (not_lt.1 hc) hs.le
        have h7 := mul_le_mul_of_nonneg_left hp.le (show 0 ≤ q * 2 ^ j / 2 by positivity)
        nlinarith
    refine ⟨⟨hp.ge, hp.le, ?_, ?_, ?_, ?_⟩, hstop⟩
    · rcases hstop with hall | h5
      · rw [children_none _ _ hall, List.mem_singleton] at hd
        subst hd
        have : out.areaOf d = m.areaOf d := S.areaOf_parent ht
        rw [this]; exact hp.area
      · have h8 : 4 ^ j * q ^ 4 * 4 < 1 := by
          have : (4 : ℝ) ^ j * q ^ 4 * 4 = (2 ^ (j + 1) * q ^ 2) ^ 2 := by
            rw [show (4 : ℝ) = 2 ^ 2 by norm_num, ← pow_mul, mul_comm 2 j, pow_mul]; ring
          rw [this]
          exact pow_lt_one₀ (by positivity) h5 (by norm_num)
        have h9 : q ^ 4 * s ≤ q ^ 4 * (4 ^ j * m.areaOf t) := mul_le_mul_of_nonneg_left hp.area' (by positivity)
        nlinarith
    · have := hp.area'
      rw [pow_succ]
      nlinarith
    · intro e he
      have hM : ∀ e' ∈ t.darts, sqd (out.place e'.1) (out.place e'.2) ≤ s / q := by
        intro e' he'
        rw [hside t ht e' he', le_div_iff₀ hq, mul_comm]
        exact hp.side e' he'
      have := child_sqd_le (S.mid t ht) hM hd he
      rw [le_div_iff₀ hq] at this
      linarith
    · intro e he
      have key := children_sqd (S.mid t ht) (sq_nonneg L) (M := max (L ^ 2) (s / (q * 2 ^ j) + L ^ 2 / 2))
        (fun e he => by rw [hside t ht e he]; exact hsplit t ht e he) (fun e he => ?_) hd he
      · have hl := sq_nonneg L
        rcases le_max_iff.1 key with h1 | h1
        · exact Or.inl h1
        · rcases max_cases (L ^ 2) (s / (q * 2 ^ j) + L ^ 2 / 2) with ⟨h2, -⟩ | ⟨h2, -⟩
          · rw [h2] at h1
            left; linarith
          · rw [h2] at h1
            right
            have h3 : sqd (out.place e.1) (out.place e.2) - L ^ 2 / 2 ≤ s / (q * 2 ^ j) / 2 := by linarith
            rw [div_div, le_div_iff₀ (by positivity)] at h3
            rw [pow_succ]
            linarith
      · rw [hside t ht e he]
        rcases hp.side' e he with h1 | h1
        · exact le_max_of_le_left h1
        · apply le_max_of_le_right
          have h3 : sqd (m.place e.1) (m.place e.2) - L ^ 2 / 2 ≤ s / (q * 2 ^ j) := by
            rw [le_div_iff₀ (by positivity)]; linarith
          linarith

theorem fat_step_length {q L b : ℝ} (hq : 0 < q) (hL : 0 < L) (hb : b ≤ q * L ^ 2 / 4) {l : List Edge} {f f' : Filt}
    (hv : m.Valid) (hsel : m.EdgeSelOK (l.map some)) (hne : l ≠ []) (hex : ∀ e, e ∈ l ↔ e ∈ m.edges ∧ m.TooLong dist L e)
    (h : edgeUpdate .linear lib cosn (f.setEdges (l.map some)) m = (.ok out, f')) (H : ∀ t ∈ m.tris, FatOrShort q L b m t) :
    ∀ d ∈ out.tris, FatOrShort q L b out d := by
  intro d hd
  have S : SplitAtMid m out (m.listPoint (l.map some)) := linear_edge_split hv (f := f.setEdges (l.map some)) hsel h
  rw [S.tris] at hd
  obtain ⟨t, ht, hd⟩ := List.mem_flatMap.1 hd
  obtain ⟨h1, h2⟩ := fat_child_length hq hL hb hv hsel hne hex h ht hd
  rcases H t ht with h3 | ⟨s, j, h3⟩
  · exact fatOrShort_of hq.le (Or.inl (h1 h3).2.1) (h1 h3).2.2
  · exact Or.inr ⟨s, j + 1, (h2 s j h3).1⟩

section angles

theorem sin_area (p q r : E) :
    Real.sin (InnerProductGeometry.angle (q - p) (r - p)) * (dist p q * dist p r) = 2 * triArea p q r := by
  rw [dist_comm p q, dist_comm p r, dist_eq_norm, dist_eq_norm, InnerProductGeometry.sin_angle_mul_norm_mul_norm]
  unfold triArea
  rw [real_inner_self_eq_norm_sq, real_inner_self_eq_norm_sq]
  ring_nf

theorem Mesh.FatBy.angles {q : ℝ} (hq : q ≤ 1 / 2) (h : m.FatBy q) : m.AnglesBy (2 * q) := by
  have key : ∀ a b c, (a, b, c) ∈ m.tris → q * dist (m.place a) (m.place b) ^ 2 ≤ triArea (m.place a) (m.place b) (m.place c) ∧
      q * dist (m.place b) (m.place c) ^ 2 ≤ triArea (m.place a) (m.place b) (m.place c) ∧
      q * dist (m.place a) (m.place c) ^ 2 ≤ triArea (m.place a) (m.place b) (m.place c) := by
    intro a b c ht
    refine ⟨h _ ht (a, b) (by simp [Tri.darts]), h _ ht (b, c) (by simp [Tri.darts]), ?_⟩
    rw [dist_comm (m.place a)]
    exact h _ ht (c, a) (by simp [Tri.darts])
  intro a b c ht
  have key2 : q * dist (m.place a) (m.place b) ^ 2 ≤ triArea (m.place a) (m.place b) (m.place c) ∧
      q * dist (m.place a) (m.place c) ^ 2 ≤ triArea (m.place a) (m.place b) (m.place c) := by
    rcases ht with h1 | h1 | h1
    · exact ⟨(key _ _ _ h1).1, (key _ _ _ h1).2.2⟩
    · have := key _ _ _ h1
      rw [triArea_rotate, dist_comm (m.place b) (m.place a), dist_comm (m.place c) (m.place a)] at this
      exact ⟨this.2.2, this.2.1⟩
    · have := key _ _ _ h1
      rw [← triArea_rotate (m.place c), dist_comm (m.place c) (m.place a)] at this
      exact ⟨this.2.1, this.1⟩
  have e := sin_area (m.place a) (m.place b) (m.place c)
  obtain ⟨k1, k2⟩ := key2
  by_cases h0 : dist (m.place a) (m.place b) * dist (m.place a) (m.place c) = 0
  · have : Real.sin (InnerProductGeometry.angle (m.place b - m.place a) (m.place c - m.place a)) = 1 := by
      rcases mul_eq_zero.1 h0 with h1 | h1
      · rw [dist_eq_zero.1 h1, sub_self, InnerProductGeometry.angle_zero_left, Real.sin_pi_div_two]
      · rw [dist_eq_zero.1 h1, sub_self, InnerProductGeometry.angle_zero_right, Real.sin_pi_div_two]
    rw [this]; linarith
  · have hpos : 0 < dist (m.place a) (m.place b) * dist (m.place a) (m.place c) :=
      lt_of_le_of_ne (mul_nonneg dist_nonneg dist_nonneg) (Ne.symm h0)
    refine le_of_mul_le_mul_right ?_ hpos
    rw [e]
    have hS := triArea_nonneg (m.place a) (m.place b) (m.place c)
    by_cases hq0 : 0 ≤ q
    · nlinarith [mul_nonneg hq0 (sq_nonneg (dist (m.place a) (m.place b) - dist (m.place a) (m.place c)))]
    · nlinarith

theorem Mesh.AnglesBy.fat {σ : ℝ} (hσ : 0 < σ) (h : m.AnglesBy σ) : m.FatBy (σ ^ 2 / 2) := by
  have key : ∀ a b c, HasTri m.tris a b c →
      σ ^ 2 / 2 * dist (m.place a) (m.place b) ^ 2 ≤ triArea (m.place a) (m.place b) (m.place c) := by
    intro a b c ht
    have e1 := sin_area (m.place a) (m.place b) (m.place c)
    have e2 := sin_area (m.place b) (m.place c) (m.place a)
    have e3 := sin_area (m.place c) (m.place a) (m.place b)
    rw [triArea_rotate] at e2
    rw [triArea_rotate, triArea_rotate] at e3
    rw [dist_comm (m.place b) (m.place a)] at e2
    rw [dist_comm (m.place c) (m.place a), dist_comm (m.place c) (m.place b)] at e3
    have s1 := h _ _ _ ht
    have s2 := h _ _ _ ht.rot
    have l3 := Real.sin_le_one (InnerProductGeometry.angle (m.place a - m.place c) (m.place b - m.place c))
    have s3 := h _ _ _ ht.rot.rot
    have hS := triArea_nonneg (m.place a) (m.place b) (m.place c)
    have hx : 0 ≤ dist (m.place a) (m.place b) := dist_nonneg
    have hy : 0 ≤ dist (m.place b) (m.place c) := dist_nonneg
    have hz : 0 ≤ dist (m.place a) (m.place c) := dist_nonneg
    have hab : m.place a = m.place c → m.place b = m.place c → dist (m.place a) (m.place b) = 0 := by
      intro h1 h2; rw [h1, h2, dist_self]
    have hang : m.place a = m.place c → m.place b = m.place c := by
      intro h1
      by_contra h2
      have : Real.sin (InnerProductGeometry.angle (m.place c - m.place b) (m.place a - m.place b)) = 0 := by
        rw [h1, InnerProductGeometry.angle_self (by rw [sub_ne_zero]; exact Ne.symm h2), Real.sin_zero]
      linarith
    have hang' : m.place b = m.place c → m.place a = m.place c := by
      intro h1
      by_contra h2
      have : Real.sin (InnerProductGeometry.angle (m.place b - m.place a) (m.place c - m.place a)) = 0 := by
        rw [h1, InnerProductGeometry.angle_self (by rw [sub_ne_zero]; exact Ne.symm h2), Real.sin_zero]
      linarith
    generalize dist (m.place a) (m.place b) = x at *
    by_cases hac : m.place a = m.place c
    · rw [hab hac (hang hac)]
      simpa using hS
    · have hbc : m.place b ≠ m.place c := fun h => hac (hang' h)
      have hy' : 0 < dist (m.place b) (m.place c) := dist_pos.2 hbc
      have hz' : 0 < dist (m.place a) (m.place c) := dist_pos.2 hac
      generalize dist (m.place b) (m.place c) = y at *
      generalize dist (m.place a) (m.place c) = z at *
      generalize triArea (m.place a) (m.place b) (m.place c) = S at *
      have g1 : σ * (x * z) ≤ 2 * S := by rw [← e1]; exact mul_le_mul_of_nonneg_right s1 (mul_nonneg hx hz)
      have g2 : σ * (y * x) ≤ 2 * S := by rw [← e2]; exact mul_le_mul_of_nonneg_right s2 (mul_nonneg hy hx)
      have g3 : 2 * S ≤ z * y := by rw [← e3]; nlinarith [mul_pos hz' hy']
      have g4 : 0 < 2 * S := by
        rw [← e3]
        exact mul_pos (lt_of_lt_of_le hσ s3) (mul_pos hz' hy')
      have g5 : σ * (x * z) * (σ * (y * x)) ≤ 2 * S * (2 * S) :=
        mul_le_mul g1 g2 (mul_nonneg hσ.le (mul_nonneg hy hx)) g4.le
      have g6 : σ ^ 2 * x ^ 2 * (2 * S) ≤ 2 * S * (2 * S) := by
        have := mul_le_mul_of_nonneg_left g3 (show 0 ≤ σ ^ 2 * x ^ 2 by positivity)
        nlinarith
      have := le_of_mul_le_mul_right g6 g4
      linarith
  rintro ⟨a, b, c⟩ ht e he
  have ht' : HasTri m.tris a b c := Or.inl ht
  simp only [Tri.darts, List.mem_cons, List.not_mem_nil, or_false] at he
  rcases he with rfl | rfl | rfl
  · exact key a b c ht'
  · have := key b c a ht'.rot
    rwa [triArea_rotate] at this
  · have := key c a b ht'.rot.rot
    rwa [triArea_rotate, triArea_rotate] at this

theorem Mesh.AnglesBy.le_one {σ : ℝ} (h : m.AnglesBy σ) {t : Tri} (ht : t ∈ m.tris) : σ ≤ 1 :=
  (h t.1 t.2.1 t.2.2 (Or.inl ht)).trans (Real.sin_le_one _)

end angles

end Verif
