import Verif.Proofs.FatFans
import Verif.Properties.Fat
/-
The shapes of the triangles that adaptive Linear refinement by edge length makes: a bound that is proportional to the shapes
of the input.
-/
namespace Verif
set_option linter.unusedSectionVars false
variable {E D : Type} [NormedAddCommGroup E] [InnerProductSpace ℝ E] {inp out m : Mesh E D} {lib : QELib} {cosn : Nat → ℝ}

/-- the part of the median at `p` by which the triangle is out of balance: it is halved in each level in which the sides at `p`
are split and the side `x y` is not -/
noncomputable def medZ (L : ℝ) (p x y : E) : ℝ :=
  ‖p - ((1 / 2 : ℝ) • x + (1 / 2 : ℝ) • y)‖ - min (3 / 4 * L) (3 / 2 * L - dist x y)

theorem medZ_symm (L : ℝ) (p x y : E) : medZ L p y x = medZ L p x y := by
  unfold medZ
  rw [dist_comm y x, add_comm]

theorem dist_halves {p x y m1 m2 : E} (h1 : m1 = (1 / 2 : ℝ) • p + (1 / 2 : ℝ) • x) (h2 : m2 = (1 / 2 : ℝ) • p + (1 / 2 : ℝ) • y) :
    dist m1 m2 = dist x y / 2 := by
  rw [dist_eq_norm, dist_eq_norm, h1, h2,
    show (1 / 2 : ℝ) • p + (1 / 2 : ℝ) • x - ((1 / 2 : ℝ) • p + (1 / 2 : ℝ) • y) = (1 / 2 : ℝ) • (x - y) by module, norm_smul]
  norm_num
  ring

/-- the three kinds of parts -/
theorem medZ_top {L : ℝ} (hL : 0 < L) {p x y m1 m2 : E} (h1 : m1 = (1 / 2 : ℝ) • p + (1 / 2 : ℝ) • x)
    (h2 : m2 = (1 / 2 : ℝ) • p + (1 / 2 : ℝ) • y) (he : dist x y ≤ L) : medZ L p m1 m2 ≤ medZ L p x y / 2 := by
  unfold medZ
  rw [dist_halves h1 h2, h1, h2, show p - ((1 / 2 : ℝ) • ((1 / 2 : ℝ) • p + (1 / 2 : ℝ) • x) +
    (1 / 2 : ℝ) • ((1 / 2 : ℝ) • p + (1 / 2 : ℝ) • y)) = (1 / 2 : ℝ) • (p - ((1 / 2 : ℝ) • x + (1 / 2 : ℝ) • y)) by module, norm_smul]
  have h0 : 0 ≤ dist x y := dist_nonneg
  have e : ‖(1 / 2 : ℝ)‖ = 1 / 2 := by norm_num
  rw [e, min_eq_left (by linarith)]
  have := min_le_left (3 / 4 * L) (3 / 2 * L - dist x y)
  linarith

theorem medZ_low {L : ℝ} {p x y m2 : E} (h2 : m2 = (1 / 2 : ℝ) • p + (1 / 2 : ℝ) • y) (he : dist x y ≤ L) :
    medZ L m2 x y ≤ medZ L p x y / 2 := by
  unfold medZ
  have h0 : 0 ≤ dist x y := dist_nonneg
  have e : ‖(1 / 2 : ℝ)‖ = 1 / 2 := by norm_num
  have e' : ‖(-1 / 4 : ℝ)‖ = 1 / 4 := by norm_num
  have key : ‖m2 - ((1 / 2 : ℝ) • x + (1 / 2 : ℝ) • y)‖ ≤ 1 / 2 * ‖p - ((1 / 2 : ℝ) • x + (1 / 2 : ℝ) • y)‖ + 1 / 4 * dist x y := by
    rw [h2, show (1 / 2 : ℝ) • p + (1 / 2 : ℝ) • y - ((1 / 2 : ℝ) • x + (1 / 2 : ℝ) • y) =
      (1 / 2 : ℝ) • (p - ((1 / 2 : ℝ) • x + (1 / 2 : ℝ) • y)) + (-1 / 4 : ℝ) • (x - y) by module]
    refine (norm_add_le _ _).trans ?_
    rw [norm_smul, norm_smul, e, e', dist_eq_norm]
  have : dist x y / 2 ≤ min (3 / 4 * L) (3 / 2 * L - dist x y) := le_min (by linarith) (by linarith)
  linarith

theorem medZ_mid {L : ℝ} (hL : 0 < L) {p x y m1 m2 : E} (h1 : m1 = (1 / 2 : ℝ) • p + (1 / 2 : ℝ) • x)
    (h2 : m2 = (1 / 2 : ℝ) • p + (1 / 2 : ℝ) • y) (he : dist x y ≤ L) : medZ L x m1 m2 ≤ medZ L p x y / 2 := by
  unfold medZ
  rw [dist_halves h1 h2]
  have h0 : 0 ≤ dist x y := dist_nonneg
  have e : ‖(-1 / 2 : ℝ)‖ = 1 / 2 := by norm_num
  have e' : ‖(1 / 2 : ℝ)‖ = 1 / 2 := by norm_num
  have key : ‖x - ((1 / 2 : ℝ) • m1 + (1 / 2 : ℝ) • m2)‖ ≤ 1 / 2 * ‖p - ((1 / 2 : ℝ) • x + (1 / 2 : ℝ) • y)‖ + 1 / 2 * dist x y := by
    rw [h1, h2, show x - ((1 / 2 : ℝ) • ((1 / 2 : ℝ) • p + (1 / 2 : ℝ) • x) + (1 / 2 : ℝ) • ((1 / 2 : ℝ) • p + (1 / 2 : ℝ) • y)) =
      (-1 / 2 : ℝ) • (p - ((1 / 2 : ℝ) • x + (1 / 2 : ℝ) • y)) + (1 / 2 : ℝ) • (x - y) by module]
    refine (norm_add_le _ _).trans ?_
    rw [norm_smul, norm_smul, e, e', dist_eq_norm]
  rw [min_eq_left (a := 3 / 4 * L) (b := 3 / 2 * L - dist x y / 2) (by linarith)]
  have := min_le_right (3 / 4 * L) (3 / 2 * L - dist x y)
  linarith

/-- the sides at `p` are to be split, the side `x y` is not, for the `j`th time -/
structure TwoLong (q L : ℝ) (j : ℕ) (p x y : E) : Prop where
  base : dist x y ≤ L
  left : L < dist p x
  right : L < dist p y
  area : q * medZ L p x y ^ 2 ≤ triArea p x y
  times : 2 ^ j * q * medZ L p x y ≤ L / 2

/-- the area is at least `k` times the square of each side -/
def FatTri (k : ℝ) (a b c : E) : Prop :=
  k * dist a b ^ 2 ≤ triArea a b c ∧ k * dist b c ^ 2 ≤ triArea a b c ∧ k * dist c a ^ 2 ≤ triArea a b c

/-- no two sides are to be split -/
def NoTwo (L : ℝ) (a b c : E) : Prop :=
  ¬ (L < dist a b ∧ L < dist b c) ∧ ¬ (L < dist b c ∧ L < dist c a) ∧ ¬ (L < dist c a ∧ L < dist a b)

/-- What a triangle can look like `j` levels after it stopped to be like a triangle of the input. -/
def ShapeAt (q L : ℝ) (j : ℕ) (a b c : E) : Prop :=
  (FatTri q a b c ∧ j = 0) ∨ (TwoLong q L j a b c ∨ TwoLong q L j b c a ∨ TwoLong q L j c a b) ∨
  (NoTwo L a b c ∧ FatTri (q / 300) a b c ∧ (j = 0 ∨ 2 ^ j * q ≤ 6)) ∨
  (dist a b ≤ L ∧ dist b c ≤ L ∧ dist c a ≤ L) ∧ FatTri (q / 600) a b c

theorem FatTri.rot {k : ℝ} {a b c : E} (h : FatTri k a b c) : FatTri k b c a := by
  unfold FatTri
  rw [triArea_rotate]
  exact ⟨h.2.1, h.2.2, h.1⟩

theorem FatTri.mono {k k' : ℝ} (hk : k ≤ k') {a b c : E} (h : FatTri k' a b c) : FatTri k a b c :=
  ⟨(mul_le_mul_of_nonneg_right hk (sq_nonneg _)).trans h.1, (mul_le_mul_of_nonneg_right hk (sq_nonneg _)).trans h.2.1,
    (mul_le_mul_of_nonneg_right hk (sq_nonneg _)).trans h.2.2⟩

theorem NoTwo.rot {L : ℝ} {a b c : E} (h : NoTwo L a b c) : NoTwo L b c a := ⟨h.2.1, h.2.2, h.1⟩

theorem ShapeAt.rot {q L : ℝ} {j : ℕ} {a b c : E} (h : ShapeAt q L j a b c) : ShapeAt q L j b c a := by
  rcases h with ⟨h, e⟩ | (h | h | h) | ⟨h1, h2, h3⟩ | ⟨⟨h1, h2, h3⟩, h⟩
  · exact Or.inl ⟨h.rot, e⟩
  · exact Or.inr (Or.inl (Or.inr (Or.inr h)))
  · exact Or.inr (Or.inl (Or.inl h))
  · exact Or.inr (Or.inl (Or.inr (Or.inl h)))
  · exact Or.inr (Or.inr (Or.inl ⟨h1.rot, h2.rot, h3⟩))
  · exact Or.inr (Or.inr (Or.inr ⟨⟨h2, h3, h1⟩, h.rot⟩))

theorem median_sq (p x y : E) :
    ‖p - ((1 / 2 : ℝ) • x + (1 / 2 : ℝ) • y)‖ ^ 2 = (2 * dist p x ^ 2 + 2 * dist p y ^ 2 - dist x y ^ 2) / 4 := by
  have := sqd_median x y p
  rw [sqd_comm] at this
  unfold sqd at this
  rw [this, dist_comm p x, dist_comm p y, dist_eq_norm, dist_eq_norm, dist_eq_norm]

theorem medZ_ge {L : ℝ} (hL : 0 < L) {p x y : E} (he : dist x y ≤ L) (h1 : L < dist p x) (h2 : L < dist p y) :
    L / 6 ≤ medZ L p x y := by
  have h := median_sq p x y
  unfold medZ
  have h0 : 0 ≤ dist x y := dist_nonneg
  have hg := norm_nonneg (p - ((1 / 2 : ℝ) • x + (1 / 2 : ℝ) • y))
  generalize ‖p - ((1 / 2 : ℝ) • x + (1 / 2 : ℝ) • y)‖ = G at *
  generalize dist x y = e at *
  have k1 : L ^ 2 < dist p x ^ 2 := by gcongr
  have k2 : L ^ 2 < dist p y ^ 2 := by gcongr
  have hG : L ^ 2 - e ^ 2 / 4 < G ^ 2 := by rw [h]; linarith
  rcases le_total e (3 / 4 * L) with h3 | h3
  · rw [min_eq_left (by linarith)]
    have h4 : e ^ 2 ≤ (3 / 4 * L) ^ 2 := by gcongr
    have h5 : (11 / 12 * L) ^ 2 ≤ G ^ 2 := by nlinarith
    have := le_of_sq_le_sq h5 hg
    linarith
  · rw [min_eq_right (by linarith)]
    have h5 : (5 / 3 * L - e) ^ 2 ≤ G ^ 2 := by nlinarith [mul_nonneg (sub_nonneg.2 h3) (sub_nonneg.2 he)]
    have := le_of_sq_le_sq h5 hg
    linarith
  where
  le_of_sq_le_sq {a b : ℝ} (h : a ^ 2 ≤ b ^ 2) (hb : 0 ≤ b) : a ≤ b := (abs_le_of_sq_le_sq' h hb).2


theorem TwoLong.sides {q L : ℝ} (hL : 0 < L) {j : ℕ} {p x y : E} (h : TwoLong q L j p x y) :
    0 < medZ L p x y ∧ dist x y ≤ 17 / 2 * medZ L p x y ∧ dist p x ≤ 17 / 2 * medZ L p x y ∧ dist p y ≤ 17 / 2 * medZ L p x y := by
  have h1 := medZ_ge hL h.base h.left h.right
  have h2 : ‖p - ((1 / 2 : ℝ) • x + (1 / 2 : ℝ) • y)‖ ≤ medZ L p x y + 3 / 4 * L := by
    have := min_le_left (3 / 4 * L) (3 / 2 * L - dist x y)
    unfold medZ
    linarith
  have e : ‖(1 / 2 : ℝ)‖ = 1 / 2 := by norm_num
  have e' : ‖(-1 / 2 : ℝ)‖ = 1 / 2 := by norm_num
  have hb := h.base
  have key : ∀ z : E, ‖z‖ = 1 / 2 * dist x y → ‖p - ((1 / 2 : ℝ) • x + (1 / 2 : ℝ) • y) + z‖ ≤ 17 / 2 * medZ L p x y := by
    intro z hz
    refine (norm_add_le _ _).trans ?_
    rw [hz]
    linarith
  refine ⟨by linarith, by linarith, ?_, ?_⟩
  · have := key ((-1 / 2 : ℝ) • (x - y)) (by rw [norm_smul, e', dist_eq_norm])
    rwa [show p - ((1 / 2 : ℝ) • x + (1 / 2 : ℝ) • y) + (-1 / 2 : ℝ) • (x - y) = p - x by module, ← dist_eq_norm] at this
  · have := key ((1 / 2 : ℝ) • (x - y)) (by rw [norm_smul, e, dist_eq_norm])
    rwa [show p - ((1 / 2 : ℝ) • x + (1 / 2 : ℝ) • y) + (1 / 2 : ℝ) • (x - y) = p - y by module, ← dist_eq_norm] at this

theorem TwoLong.pow_le {q L : ℝ} (hq : 0 ≤ q) (hL : 0 < L) {j : ℕ} {p x y : E} (h : TwoLong q L j p x y) : 2 ^ j * q ≤ 3 := by
  have h1 := medZ_ge hL h.base h.left h.right
  have h2 : 2 ^ j * q * (L / 6) ≤ 2 ^ j * q * medZ L p x y := mul_le_mul_of_nonneg_left h1 (by positivity)
  have h3 := h2.trans h.times
  by_contra hc
  have := mul_lt_mul_of_pos_right (not_le.1 hc) hL
  linarith

/-- a part of a triangle two sides of which are split -/
theorem TwoLong.child {q L : ℝ} (hq : 0 ≤ q) (hL : 0 < L) {j : ℕ} {p x y p' x' y' : E} (h : TwoLong q L j p x y)
    (hb : dist x' y' ≤ L) (hz : medZ L p' x' y' ≤ medZ L p x y / 2) (hA : 1 / 4 * triArea p x y ≤ triArea p' x' y')
    (hs : ∀ M, dist x y ≤ M → dist p x ≤ M → dist p y ≤ M → dist x' y' ≤ M ∧ dist p' x' ≤ M ∧ dist p' y' ≤ M) :
    ShapeAt q L (j + 1) p' x' y' := by
  obtain ⟨h0, s1, s2, s3⟩ := h.sides hL
  obtain ⟨k1, k2, k3⟩ := hs _ s1 s2 s3
  by_cases h1 : L < dist p' x' ∧ L < dist p' y'
  · refine Or.inr (Or.inl (Or.inl ⟨hb, h1.1, h1.2, ?_, ?_⟩))
    · have h2 : 0 ≤ medZ L p' x' y' := le_trans (by positivity) (medZ_ge hL hb h1.1 h1.2)
      have h3 : medZ L p' x' y' ^ 2 ≤ (medZ L p x y / 2) ^ 2 := by gcongr
      have h4 := mul_le_mul_of_nonneg_left h3 hq
      have := h.area
      linarith
    · have h4 := mul_le_mul_of_nonneg_left hz (show 0 ≤ 2 ^ (j + 1) * q by positivity)
      have h5 := h.times
      rw [pow_succ] at h4 ⊢
      linarith
  · refine Or.inr (Or.inr (Or.inl ⟨⟨fun hc => absurd hb (not_le.2 hc.2), fun hc => absurd hb (not_le.2 hc.1), fun hc => h1 ⟨hc.2, ?_⟩⟩,
      ?_, Or.inr ?_⟩))
    · rw [dist_comm]; exact hc.1
    · have key : ∀ s, 0 ≤ s → s ≤ 17 / 2 * medZ L p x y → q / 300 * s ^ 2 ≤ triArea p' x' y' := by
        intro s hs0 hs1
        have h2 : s ^ 2 ≤ (17 / 2 * medZ L p x y) ^ 2 := by gcongr
        have h3 := mul_le_mul_of_nonneg_left h2 hq
        have h4 := h.area
        have h5 : 0 ≤ q * medZ L p x y ^ 2 := by positivity
        nlinarith
      refine ⟨key _ dist_nonneg k2, key _ dist_nonneg k1, key _ dist_nonneg ?_⟩
      rw [dist_comm]; exact k3
    · have := h.pow_le hq hL
      rw [pow_succ]
      linarith

theorem triArea_le_half (p x y : E) : triArea p x y ≤ 1 / 2 * (dist p x * dist p y) := by
  have h1 := triArea_sq_le p x y
  rw [sqd_eq, sqd_eq] at h1
  have h0 := triArea_nonneg p x y
  have h2 : triArea p x y ^ 2 ≤ (1 / 2 * (dist p x * dist p y)) ^ 2 := by nlinarith
  exact (abs_le_of_sq_le_sq' h2 (by positivity)).2

/-- a triangle like one of the input with two sides to split -/
theorem FatTri.two {q L : ℝ} (hq : 0 ≤ q) (hL : 0 < L) {p x y : E} (h : FatTri q p x y) (hb : dist x y ≤ L) (h1 : L < dist p x)
    (h2 : L < dist p y) : TwoLong q L 0 p x y := by
  obtain ⟨f1, f2, f3⟩ := h
  rw [dist_comm y p] at f3
  have hz := medZ_ge hL hb h1 h2
  have hm := median_sq p x y
  have hg := norm_nonneg (p - ((1 / 2 : ℝ) • x + (1 / 2 : ℝ) • y))
  have hle : medZ L p x y ≤ ‖p - ((1 / 2 : ℝ) • x + (1 / 2 : ℝ) • y)‖ := by
    unfold medZ
    have : 0 ≤ min (3 / 4 * L) (3 / 2 * L - dist x y) := le_min (by linarith) (by linarith)
    linarith
  have hz0 : 0 ≤ medZ L p x y := le_trans (by positivity) hz
  have hsq : medZ L p x y ^ 2 ≤ (dist p x ^ 2 + dist p y ^ 2) / 2 := by
    have : medZ L p x y ^ 2 ≤ ‖p - ((1 / 2 : ℝ) • x + (1 / 2 : ℝ) • y)‖ ^ 2 := by gcongr
    rw [hm] at this
    nlinarith [sq_nonneg (dist x y)]
  have harea : q * medZ L p x y ^ 2 ≤ triArea p x y := by
    have := mul_le_mul_of_nonneg_left hsq hq
    linarith
  refine ⟨hb, h1, h2, harea, ?_⟩
  have key : ∀ s, 0 < s → q * s ^ 2 ≤ triArea p x y → triArea p x y ≤ 1 / 2 * (s * dist x y) → q * s ≤ L / 2 := by
    intro s hs a1 a2
    have : s * (q * s) ≤ s * (L / 2) := by nlinarith
    exact le_of_mul_le_mul_left this hs
  have t1 : q * dist p x ≤ L / 2 := key _ (hL.trans h1) f1 (by
    have := triArea_le_half x y p
    rw [triArea_rotate, dist_comm x p] at this
    linarith)
  have t2 : q * dist p y ≤ L / 2 := key _ (hL.trans h2) f3 (by
    have := triArea_le_half y p x
    rw [triArea_rotate, triArea_rotate, dist_comm y p, dist_comm y x] at this
    linarith)
  have hmax : medZ L p x y ≤ max (dist p x) (dist p y) := by
    refine (abs_le_of_sq_le_sq' (hsq.trans ?_) (le_max_of_le_left dist_nonneg)).2
    have a1 : dist p x ^ 2 ≤ max (dist p x) (dist p y) ^ 2 := by gcongr; exact le_max_left _ _
    have a2 : dist p y ^ 2 ≤ max (dist p x) (dist p y) ^ 2 := by gcongr; exact le_max_right _ _
    linarith
  rw [pow_zero, one_mul]
  refine (mul_le_mul_of_nonneg_left hmax hq).trans ?_
  rcases max_cases (dist p x) (dist p y) with ⟨e, -⟩ | ⟨e, -⟩ <;> rw [e] <;> assumption

/-- which sides are to be split -/
theorem ShapeAt.cases {q L : ℝ} (hq : 0 ≤ q) (hL : 0 < L) {j : ℕ} {a b c : E} (h : ShapeAt q L j a b c) :
    (L < dist a b ∧ L < dist b c ∧ L < dist c a ∧ FatTri q a b c ∧ j = 0) ∨
    (TwoLong q L j a b c ∨ TwoLong q L j b c a ∨ TwoLong q L j c a b) ∨
    (NoTwo L a b c ∧ FatTri (q / 300) a b c ∧ (j = 0 ∨ 2 ^ j * q ≤ 6)) ∨
    (dist a b ≤ L ∧ dist b c ≤ L ∧ dist c a ≤ L) ∧ FatTri (q / 600) a b c := by
  rcases h with ⟨h, rfl⟩ | h
  · by_cases h1 : L < dist a b <;> by_cases h2 : L < dist b c <;> by_cases h3 : L < dist c a
    · exact Or.inl ⟨h1, h2, h3, h, rfl⟩
    · exact Or.inr (Or.inl (Or.inr (Or.inl (h.rot.two hq hL (not_lt.1 h3) h2 (by rw [dist_comm]; exact h1)))))
    · exact Or.inr (Or.inl (Or.inl (h.two hq hL (not_lt.1 h2) h1 (by rw [dist_comm]; exact h3))))
    rotate_left
    · exact Or.inr (Or.inl (Or.inr (Or.inr (h.rot.rot.two hq hL (not_lt.1 h1) h3 (by rw [dist_comm]; exact h2)))))
    all_goals
      refine Or.inr (Or.inr (Or.inl ⟨?_, h.mono (by linarith), Or.inl rfl⟩))
      unfold NoTwo
      simp only [h1, h2, h3, not_false_eq_true, and_self, and_false, and_true]
  · exact Or.inr h

theorem dist_mid {p x y m : E} (h : m = (1 / 2 : ℝ) • p + (1 / 2 : ℝ) • x) : dist m p = dist p x / 2 ∧ dist m x = dist p x / 2 ∧
    dist m y ^ 2 ≤ (dist p y ^ 2 + dist x y ^ 2) / 2 := by
  have e : ‖(-1 / 2 : ℝ)‖ = 1 / 2 := by norm_num
  have e' : ‖(1 / 2 : ℝ)‖ = 1 / 2 := by norm_num
  refine ⟨?_, ?_, ?_⟩
  · rw [dist_eq_norm, dist_eq_norm, h, show (1 / 2 : ℝ) • p + (1 / 2 : ℝ) • x - p = (-1 / 2 : ℝ) • (p - x) by module, norm_smul, e]
    ring
  · rw [dist_eq_norm, dist_eq_norm, h, show (1 / 2 : ℝ) • p + (1 / 2 : ℝ) • x - x = (1 / 2 : ℝ) • (p - x) by module, norm_smul, e']
    ring
  · have := median_sq y p x
    rw [← h, ← dist_eq_norm, dist_comm y m] at this
    rw [this, dist_comm y p, dist_comm y x]
    nlinarith [sq_nonneg (dist p x)]

/-- the parts of a triangle one side of which is split -/
theorem one_kids {q L : ℝ} (hq : 0 ≤ q) (hL : 0 < L) {p x y m : E} (h : m = (1 / 2 : ℝ) • p + (1 / 2 : ℝ) • x)
    (h1 : dist x y ≤ L) (h2 : dist y p ≤ L) (hf : FatTri (q / 300) p x y) (j : ℕ) :
    ShapeAt q L j m x y ∧ ShapeAt q L j m y p := by
  obtain ⟨d1, d2, d3⟩ := dist_mid (y := y) h
  obtain ⟨f1, f2, f3⟩ := hf
  have a1 : triArea m x y = 1 / 2 * triArea p x y := by
    rw [triArea_comb (p := p) (q := x) (r := y) (p' := m) (q' := x) (r' := y) (1 / 2) 0 (-1 / 2) 1 (by rw [h]; module)
      (by rw [h]; module)]
    norm_num
  have a2 : triArea m y p = 1 / 2 * triArea p x y := by
    rw [triArea_comb (p := p) (q := x) (r := y) (p' := m) (q' := y) (r' := p) (-1 / 2) 1 (-1 / 2) 0 (by rw [h]; module)
      (by rw [h]; module)]
    norm_num
  have h3 : dist p x ≤ 2 * L := by
    have := dist_triangle p y x
    rw [dist_comm p y, dist_comm y x] at this
    linarith
  have h4 : dist m y ≤ L := by
    rw [dist_comm p y] at d3
    have k1 : dist y p ^ 2 ≤ L ^ 2 := by gcongr
    have k2 : dist x y ^ 2 ≤ L ^ 2 := by gcongr
    exact (abs_le_of_sq_le_sq' (d3.trans (by linarith)) hL.le).2
  have f4 : q / 300 * dist m y ^ 2 ≤ triArea p x y := by
    have := mul_le_mul_of_nonneg_left d3 (show 0 ≤ q / 300 by positivity)
    rw [dist_comm p y] at this
    linarith
  have f5 : q / 300 * (dist p x / 2) ^ 2 ≤ triArea p x y := by
    have : q / 300 * (dist p x / 2) ^ 2 = (q / 300 * dist p x ^ 2) / 4 := by ring
    rw [this]
    have := triArea_nonneg p x y
    linarith
  have key : ∀ s, q / 300 * s ≤ triArea p x y → q / 600 * s ≤ 1 / 2 * triArea p x y := by
    intro s hs
    linarith
  refine ⟨Or.inr (Or.inr (Or.inr ⟨⟨by linarith, h1, by rw [dist_comm]; exact h4⟩, ?_⟩)),
    Or.inr (Or.inr (Or.inr ⟨⟨h4, h2, by rw [dist_comm, d1]; linarith⟩, ?_⟩))⟩
  · unfold FatTri
    rw [a1, d2, dist_comm y m]
    exact ⟨key _ f5, key _ f2, key _ f4⟩
  · unfold FatTri
    rw [a2, dist_comm p m, d1]
    exact ⟨key _ f4, key _ f3, key _ f5⟩

/-- the parts of a triangle two sides of which are split: the corner, and the other two for either diagonal -/
theorem two_kids {q L : ℝ} (hq : 0 ≤ q) (hL : 0 < L) {j : ℕ} {p x y m1 m2 : E} (h : TwoLong q L j p x y)
    (h1 : m1 = (1 / 2 : ℝ) • p + (1 / 2 : ℝ) • x) (h2 : m2 = (1 / 2 : ℝ) • p + (1 / 2 : ℝ) • y) :
    ShapeAt q L (j + 1) p m1 m2 ∧ (ShapeAt q L (j + 1) m2 x y ∧ ShapeAt q L (j + 1) x m2 m1) ∧
      ShapeAt q L (j + 1) m1 x y ∧ ShapeAt q L (j + 1) y m2 m1 := by
  have hb := h.base
  have hd := dist_halves h1 h2
  obtain ⟨d1, d2, d3⟩ := dist_mid (y := y) h1
  obtain ⟨c1, c2, c3⟩ := dist_mid (y := x) h2
  have h0 : 0 ≤ dist x y := dist_nonneg
  have h0' : 0 ≤ dist p x := dist_nonneg
  have h0'' : 0 ≤ dist p y := dist_nonneg
  have a1 : triArea p m1 m2 = 1 / 4 * triArea p x y := by
    rw [triArea_comb (p := p) (q := x) (r := y) (p' := p) (q' := m1) (r' := m2) (1 / 2) 0 0 (1 / 2) (by rw [h1]; module)
      (by rw [h2]; module)]
    norm_num
  have a2 : triArea m2 x y = 1 / 2 * triArea p x y := by
    rw [triArea_comb (p := p) (q := x) (r := y) (p' := m2) (q' := x) (r' := y) 1 (-1 / 2) 0 (1 / 2) (by rw [h2]; module)
      (by rw [h2]; module)]
    norm_num
  have a3 : triArea x m2 m1 = 1 / 4 * triArea p x y := by
    rw [triArea_comb (p := p) (q := x) (r := y) (p' := x) (q' := m2) (r' := m1) (-1) (1 / 2) (-1 / 2) 0 (by rw [h2]; module)
      (by rw [h1]; module)]
    norm_num
  have a4 : triArea m1 x y = 1 / 2 * triArea p x y := by
    rw [triArea_comb (p := p) (q := x) (r := y) (p' := m1) (q' := x) (r' := y) (1 / 2) 0 (-1 / 2) 1 (by rw [h1]; module)
      (by rw [h1]; module)]
    norm_num
  have a5 : triArea y m2 m1 = 1 / 4 * triArea p x y := by
    rw [triArea_comb (p := p) (q := x) (r := y) (p' := y) (q' := m2) (r' := m1) 0 (-1 / 2) (1 / 2) (-1) (by rw [h2]; module)
      (by rw [h1]; module)]
    norm_num
  have hA := triArea_nonneg p x y
  have hmed1 : ∀ M, dist x y ≤ M → dist p y ≤ M → dist m1 y ≤ M := by
    intro M k1 k2
    have k3 : dist p y ^ 2 ≤ M ^ 2 := by gcongr
    have k4 : dist x y ^ 2 ≤ M ^ 2 := by gcongr
    exact (abs_le_of_sq_le_sq' (d3.trans (by linarith)) (h0.trans k1)).2
  have hmed2 : ∀ M, dist x y ≤ M → dist p x ≤ M → dist m2 x ≤ M := by
    intro M k1 k2
    have k3 : dist p x ^ 2 ≤ M ^ 2 := by gcongr
    have k4 : dist y x ^ 2 ≤ M ^ 2 := by rw [dist_comm]; gcongr
    exact (abs_le_of_sq_le_sq' (c3.trans (by linarith)) (h0.trans k1)).2
  refine ⟨h.child hq hL (by linarith) (medZ_top hL h1 h2 hb) a1.ge (fun M k1 k2 k3 => ?_),
    ⟨h.child hq hL hb (medZ_low h2 hb) (by rw [a2]; linarith) (fun M k1 k2 k3 => ?_),
      h.child hq hL (by rw [dist_comm]; linarith) (by rw [medZ_symm]; exact medZ_mid hL h1 h2 hb) a3.ge (fun M k1 k2 k3 => ?_)⟩,
    h.child hq hL hb ?_ (by rw [a4]; linarith) (fun M k1 k2 k3 => ?_),
    h.child hq hL (by rw [dist_comm]; linarith) ?_ a5.ge (fun M k1 k2 k3 => ?_)⟩
  · rw [dist_comm p m1, dist_comm p m2]
    refine ⟨?_, ?_, ?_⟩ <;> linarith
  · exact ⟨k1, hmed2 M k1 k2, by linarith⟩
  · rw [dist_comm m2 m1, dist_comm x m2, dist_comm x m1]
    exact ⟨by linarith, hmed2 M k1 k2, by linarith⟩
  · rw [← medZ_symm, ← medZ_symm L p]
    exact medZ_low h1 (by rw [dist_comm]; exact hb)
  · exact ⟨k1, by linarith, hmed1 M k1 k3⟩
  · rw [← medZ_symm L p]
    exact medZ_mid hL h2 h1 (by rw [dist_comm]; exact hb)
  · rw [dist_comm m2 m1, dist_comm y m2, dist_comm y m1]
    exact ⟨by linarith, by linarith, hmed1 M k1 k3⟩


section children
variable {μ : Edge → Option PId} {t : Tri} {g : PId → E}

theorem shape_child {q L : ℝ} (hq : 0 ≤ q) (hL : 0 < L) {j : ℕ} (h : AtMid μ g t)
    (hs : ∀ e ∈ t.darts, (μ e).isSome = true ↔ L < dist (g e.1) (g e.2)) (H : ShapeAt q L j (g t.1) (g t.2.1) (g t.2.2))
    {d : Tri} (hd : d ∈ t.children μ) : ∃ j', ShapeAt q L j' (g d.1) (g d.2.1) (g d.2.2) ∧ j ≤ j' ∧
      ((∀ e ∈ t.darts, (μ e).isSome) ∨ (∀ e ∈ t.darts, μ e = none) ∨ (j = 0 ∨ 2 ^ j * q ≤ 6) ∧ j + 1 ≤ j') := by
  by_cases hnone : ∀ e ∈ t.darts, μ e = none
  · rw [children_none _ _ hnone, List.mem_singleton] at hd
    subst hd
    exact ⟨j, H, le_refl _, Or.inr (Or.inl hnone)⟩
  by_cases hall : ∀ e ∈ t.darts, (μ e).isSome
  · have h1 : FatTri q (g t.1) (g t.2.1) (g t.2.2) ∧ j = 0 := by
      have l1 := (hs (t.1, t.2.1) (by simp [Tri.darts])).1 (hall _ (by simp [Tri.darts]))
      have l2 := (hs (t.2.1, t.2.2) (by simp [Tri.darts])).1 (hall _ (by simp [Tri.darts]))
      have l3 := (hs (t.2.2, t.1) (by simp [Tri.darts])).1 (hall _ (by simp [Tri.darts]))
      simp only at l1 l2 l3
      rcases H with H | (H | H | H) | ⟨H, -⟩ | ⟨H, -⟩
      · exact H
      · exact absurd l2 (not_lt.2 H.base)
      · exact absurd l3 (not_lt.2 H.base)
      · exact absurd l1 (not_lt.2 H.base)
      · exact absurd ⟨l1, l2⟩ H.1
      · exact absurd l1 (not_lt.2 H.1)
    obtain ⟨⟨f1, f2, f3⟩, rfl⟩ := h1
    refine ⟨0, Or.inl ⟨?_, rfl⟩, le_refl _, Or.inl hall⟩
    have ha := child_area_quarter h hall hd
    have key : ∀ e ∈ d.darts, q * dist (g e.1) (g e.2) ^ 2 ≤ triArea (g d.1) (g d.2.1) (g d.2.2) := by
      intro e he
      obtain ⟨e', he', h1⟩ := child_sqd_quarter h hall hd he
      rw [sqd_eq, sqd_eq] at h1
      rw [h1, ha]
      simp only [Tri.darts, List.mem_cons, List.not_mem_nil, or_false] at he'
      rcases he' with rfl | rfl | rfl <;> simp only <;> linarith
    exact ⟨key (d.1, d.2.1) (by simp [Tri.darts]), key (d.2.1, d.2.2) (by simp [Tri.darts]), key (d.2.2, d.1) (by simp [Tri.darts])⟩
  obtain ⟨a, b, c⟩ := t
  have h0 := h (a, b) (by simp [Tri.darts])
  have h1 := h (b, c) (by simp [Tri.darts])
  have h2 := h (c, a) (by simp [Tri.darts])
  have s0 := hs (a, b) (by simp [Tri.darts])
  have s1 := hs (b, c) (by simp [Tri.darts])
  have s2 := hs (c, a) (by simp [Tri.darts])
  simp only at h0 h1 h2 s0 s1 s2 H
  have two : ∀ {p x y : E}, TwoLong q L j p x y → j = 0 ∨ 2 ^ j * q ≤ 6 := fun h =>
    Or.inr ((h.pow_le hq hL).trans (by norm_num))
  have swap : ∀ p x : E, (1 / 2 : ℝ) • p + (1 / 2 : ℝ) • x = (1 / 2 : ℝ) • x + (1 / 2 : ℝ) • p := fun p x => add_comm _ _
  simp only [Tri.children] at hd
  rcases e0 : μ (a, b) with _ | m0 <;> rcases e1 : μ (b, c) with _ | m1 <;> rcases e2 : μ (c, a) with _ | m2 <;>
    simp only [e0, e1, e2, List.mem_cons, List.not_mem_nil, or_false] at hd <;>
    simp only [e0, e1, e2, Option.isSome_none, Option.isSome_some, Bool.false_eq_true, false_iff, not_lt, true_iff] at s0 s1 s2
  · exact absurd (by simp [Tri.darts, e0, e1, e2]) hnone
  · have key : FatTri (q / 300) (g a) (g b) (g c) ∧ (j = 0 ∨ 2 ^ j * q ≤ 6) := by
      rcases H.cases hq hL with H | (H | H | H) | ⟨-, H⟩ | ⟨H, -⟩
      · exact absurd H.1 (not_lt.2 s0)
      · exact absurd H.left (not_lt.2 s0)
      · exact absurd H.left (not_lt.2 s1)
      · exact absurd H.right (not_lt.2 (by rw [dist_comm]; exact s1))
      · exact H
      · exact absurd s2 (not_lt.2 H.2.2)
    have k := one_kids hq hL (h2 _ e2) s0 s1 key.1.rot.rot (j + 1)
    rcases hd with rfl | rfl
    · exact ⟨j + 1, k.1, by omega, Or.inr (Or.inr ⟨key.2, le_refl _⟩)⟩
    · exact ⟨j + 1, k.2, by omega, Or.inr (Or.inr ⟨key.2, le_refl _⟩)⟩
  · have key : FatTri (q / 300) (g a) (g b) (g c) ∧ (j = 0 ∨ 2 ^ j * q ≤ 6) := by
      rcases H.cases hq hL with H | (H | H | H) | ⟨-, H⟩ | ⟨H, -⟩
      · exact absurd H.1 (not_lt.2 s0)
      · exact absurd H.left (not_lt.2 s0)
      · exact absurd H.right (not_lt.2 (by rw [dist_comm]; exact s0))
      · exact absurd H.left (not_lt.2 s2)
      · exact H
      · exact absurd s1 (not_lt.2 H.2.1)
    have k := one_kids hq hL (h1 _ e1) s2 s0 key.1.rot (j + 1)
    rcases hd with rfl | rfl
    · exact ⟨j + 1, k.1, by omega, Or.inr (Or.inr ⟨key.2, le_refl _⟩)⟩
    · exact ⟨j + 1, k.2, by omega, Or.inr (Or.inr ⟨key.2, le_refl _⟩)⟩
  · have key : TwoLong q L j (g c) (g a) (g b) := by
      rcases H.cases hq hL with H | (H | H | H) | ⟨H, -⟩ | ⟨H, -⟩
      · exact absurd H.1 (not_lt.2 s0)
      · exact absurd H.left (not_lt.2 s0)
      · exact absurd H.right (not_lt.2 (by rw [dist_comm]; exact s0))
      · exact H
      · exact absurd ⟨s1, s2⟩ H.2.1
      · exact absurd s1 (not_lt.2 H.2.1)
    obtain ⟨k1, ⟨k2, k3⟩, -⟩ := two_kids hq hL key (h2 _ e2) ((h1 _ e1).trans (swap _ _))
    rcases hd with rfl | rfl | rfl
    · exact ⟨j + 1, k2.rot, by omega, Or.inr (Or.inr ⟨two key, le_refl _⟩)⟩
    · exact ⟨j + 1, k3, by omega, Or.inr (Or.inr ⟨two key, le_refl _⟩)⟩
    · exact ⟨j + 1, k1.rot.rot, by omega, Or.inr (Or.inr ⟨two key, le_refl _⟩)⟩
  · have key : FatTri (q / 300) (g a) (g b) (g c) ∧ (j = 0 ∨ 2 ^ j * q ≤ 6) := by
      rcases H.cases hq hL with H | (H | H | H) | ⟨-, H⟩ | ⟨H, -⟩
      · exact absurd H.2.1 (not_lt.2 s1)
      · exact absurd H.right (not_lt.2 (by rw [dist_comm]; exact s2))
      · exact absurd H.left (not_lt.2 s1)
      · exact absurd H.left (not_lt.2 s2)
      · exact H
      · exact absurd s0 (not_lt.2 H.1)
    have k := one_kids hq hL (h0 _ e0) s1 s2 key.1 (j + 1)
    rcases hd with rfl | rfl
    · exact ⟨j + 1, k.1, by omega, Or.inr (Or.inr ⟨key.2, le_refl _⟩)⟩
    · exact ⟨j + 1, k.2, by omega, Or.inr (Or.inr ⟨key.2, le_refl _⟩)⟩
  · have key : TwoLong q L j (g a) (g b) (g c) := by
      rcases H.cases hq hL with H | (H | H | H) | ⟨H, -⟩ | ⟨H, -⟩
      · exact absurd H.2.1 (not_lt.2 s1)
      · exact H
      · exact absurd H.left (not_lt.2 s1)
      · exact absurd H.right (not_lt.2 (by rw [dist_comm]; exact s1))
      · exact absurd ⟨s2, s0⟩ H.2.2
      · exact absurd s0 (not_lt.2 H.1)
    obtain ⟨k1, -, k2, k3⟩ := two_kids hq hL key (h0 _ e0) ((h2 _ e2).trans (swap _ _))
    rcases hd with rfl | rfl | rfl
    · exact ⟨j + 1, k2.rot, by omega, Or.inr (Or.inr ⟨two key, le_refl _⟩)⟩
    · exact ⟨j + 1, k3, by omega, Or.inr (Or.inr ⟨two key, le_refl _⟩)⟩
    · exact ⟨j + 1, k1.rot.rot, by omega, Or.inr (Or.inr ⟨two key, le_refl _⟩)⟩
  · have key : TwoLong q L j (g b) (g c) (g a) := by
      rcases H.cases hq hL with H | (H | H | H) | ⟨H, -⟩ | ⟨H, -⟩
      · exact absurd H.2.2.1 (not_lt.2 s2)
      · exact absurd H.right (not_lt.2 (by rw [dist_comm]; exact s2))
      · exact H
      · exact absurd H.left (not_lt.2 s2)
      · exact absurd ⟨s0, s1⟩ H.1
      · exact absurd s0 (not_lt.2 H.1)
    obtain ⟨k1, ⟨k2, k3⟩, -⟩ := two_kids hq hL key (h1 _ e1) ((h0 _ e0).trans (swap _ _))
    rcases hd with rfl | rfl | rfl
    · exact ⟨j + 1, k2.rot, by omega, Or.inr (Or.inr ⟨two key, le_refl _⟩)⟩
    · exact ⟨j + 1, k3, by omega, Or.inr (Or.inr ⟨two key, le_refl _⟩)⟩
    · exact ⟨j + 1, k1.rot.rot, by omega, Or.inr (Or.inr ⟨two key, le_refl _⟩)⟩
  · exact absurd (by simp [Tri.darts, e0, e1, e2]) hall

/-- a part of a triangle that is split has half of a split side -/
theorem split_side_child (h : AtMid μ g t) {d : Tri} (hd : d ∈ t.children μ) :
    (∀ e ∈ t.darts, μ e = none) ∨ ∃ e ∈ t.darts, ∃ e' ∈ d.darts, (μ e).isSome ∧ dist (g e'.1) (g e'.2) = dist (g e.1) (g e.2) / 2 := by
  obtain ⟨a, b, c⟩ := t
  have h0 : ∀ m0, μ (a, b) = some m0 → dist (g m0) (g a) = dist (g a) (g b) / 2 ∧ dist (g m0) (g b) = dist (g a) (g b) / 2 := by
    intro m0 hm
    obtain ⟨k1, k2, -⟩ := dist_mid (y := g a) (h (a, b) (by simp [Tri.darts]) _ hm)
    exact ⟨k1, k2⟩
  have h1 : ∀ m1, μ (b, c) = some m1 → dist (g m1) (g b) = dist (g b) (g c) / 2 ∧ dist (g m1) (g c) = dist (g b) (g c) / 2 := by
    intro m1 hm
    obtain ⟨k1, k2, -⟩ := dist_mid (y := g a) (h (b, c) (by simp [Tri.darts]) _ hm)
    exact ⟨k1, k2⟩
  have h2 : ∀ m2, μ (c, a) = some m2 → dist (g m2) (g c) = dist (g c) (g a) / 2 ∧ dist (g m2) (g a) = dist (g c) (g a) / 2 := by
    intro m2 hm
    obtain ⟨k1, k2, -⟩ := dist_mid (y := g a) (h (c, a) (by simp [Tri.darts]) _ hm)
    exact ⟨k1, k2⟩
  have h01 : ∀ m0 m1, μ (a, b) = some m0 → μ (b, c) = some m1 → dist (g m0) (g m1) = dist (g c) (g a) / 2 := by
    intro m0 m1 hm hm'
    rw [dist_halves ((h (a, b) (by simp [Tri.darts]) _ hm).trans (add_comm _ _)) (h (b, c) (by simp [Tri.darts]) _ hm'), dist_comm]
  simp only [Tri.children] at hd
  simp only [Tri.darts, List.mem_cons, List.not_mem_nil, or_false, exists_eq_or_imp, exists_eq_left, forall_eq_or_imp, forall_eq]
  rcases e0 : μ (a, b) with _ | m0 <;> rcases e1 : μ (b, c) with _ | m1 <;> rcases e2 : μ (c, a) with _ | m2 <;>
    simp only [e0, e1, e2, List.mem_cons, List.not_mem_nil, or_false] at hd <;>
    simp only [e0, e1, e2, Option.some.injEq, forall_eq', reduceCtorEq, IsEmpty.forall_iff, implies_true, Option.isSome_none,
      Option.isSome_some, Bool.false_eq_true, false_and, true_and, and_self, and_false, false_or, or_false] at h0 h1 h2 h01 ⊢ <;>
    rcases hd with rfl | rfl | rfl | rfl <;>
    grind [dist_comm]

end children


end Verif
