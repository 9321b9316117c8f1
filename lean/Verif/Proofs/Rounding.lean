import Verif.Spec.Rounding
import Verif.Proofs.Stable
import Mathlib.Tactic.Linarith
import Mathlib.Tactic.Positivity
import Mathlib.Tactic.Ring
import Mathlib.Tactic.NormNum
/-
How the error grows through the stencils.  A pair is a machine position with the position that exact arithmetic gives.
-/
namespace Verif
set_option linter.unusedSectionVars false
variable {P V : Type} [Zero P] [Add P] [SMul ℝ P] [NormedAddCommGroup V] [NormedSpace ℝ V]

/-- after `k` operations the exact position is at most `M`, and the machine position is near it -/
structure Fits (ε : ℝ) (val : P → V) (k : Nat) (M a : ℝ) (x : P × V) : Prop where
  nonneg : 0 ≤ a
  size : ‖x.2‖ ≤ M
  near : ‖val x.1 - x.2‖ ≤ ((1 + ε) ^ k - 1) * M + (1 + ε) ^ k * a

variable {ε η B : ℝ} {val : P → V} {k k₁ k₂ N : Nat} {M M₁ M₂ a a₁ a₂ W : ℝ} {x y : P × V}

theorem Fits.pos (h : Fits ε val k M a x) : 0 ≤ M := le_trans (norm_nonneg _) h.size

theorem one_le_powers (he : 0 ≤ ε) (k : Nat) : 1 ≤ (1 + ε) ^ k := one_le_pow₀ (by linarith)

theorem Fits.mono (he : 0 ≤ ε) (h : Fits ε val k₁ M₁ a₁ x) (hk : k₁ ≤ k₂) (hM : M₁ ≤ M₂) (ha : a₁ ≤ a₂) :
    Fits ε val k₂ M₂ a₂ x := by
  have h1 := one_le_powers he k₁
  have h2 : (1 + ε) ^ k₁ ≤ (1 + ε) ^ k₂ := pow_le_pow_right₀ (by linarith) hk
  refine ⟨le_trans h.nonneg ha, le_trans h.size hM, le_trans h.near (add_le_add ?_ ?_)⟩
  · exact mul_le_mul (by linarith) hM h.pos (by linarith)
  · exact mul_le_mul h2 ha h.nonneg (by linarith)

theorem Fits.norm (h : Fits ε val k M a x) : ‖val x.1‖ ≤ (1 + ε) ^ k * (M + a) := by
  have h1 : val x.1 = x.2 + (val x.1 - x.2) := by abel
  rw [h1]
  refine le_trans (norm_add_le _ _) ?_
  have h2 := h.size
  have h3 := h.near
  nlinarith

theorem Fits.small (he : 0 ≤ ε) (hB : (1 + ε) ^ N * W ≤ B) (h : Fits ε val k M a x) (hk : k ≤ N) (hW : M + a ≤ W) :
    ‖val x.1‖ ≤ B := by
  refine le_trans h.norm (le_trans ?_ hB)
  have := one_le_powers he k
  refine mul_le_mul (pow_le_pow_right₀ (by linarith) hk) hW (add_nonneg h.pos h.nonneg) ?_
  have := one_le_powers he N
  linarith

theorem Rounded.fits_zero (hR : Rounded ε η B val) : Fits ε val 0 0 0 (0 : P × V) := by
  refine ⟨le_refl _, by simp, ?_⟩
  simp [hR.zero]

theorem Rounded.fits_add (hR : Rounded ε η B val) (hB : (1 + ε) ^ N * W ≤ B) (hx : Fits ε val k₁ M₁ a₁ x)
    (hy : Fits ε val k₂ M₂ a₂ y) (h1 : k₁ ≤ k) (h2 : k₂ ≤ k) (hk : k ≤ N) (w1 : M₁ + a₁ ≤ W) (w2 : M₂ + a₂ ≤ W) :
    Fits ε val (k + 1) (M₁ + M₂) (a₁ + a₂) (x + y) := by
  have he := hR.eps
  replace hx := hx.mono he h1 (le_refl _) (le_refl _)
  replace hy := hy.mono he h2 (le_refl _) (le_refl _)
  have bx := hx.small he hB hk w1
  have by' := hy.small he hB hk w2
  refine ⟨add_nonneg hx.nonneg hy.nonneg, le_trans (norm_add_le _ _) (add_le_add hx.size hy.size), ?_⟩
  have r := hR.add _ _ bx by'
  have s1 : ‖val x.1 + val y.1 - (x.2 + y.2)‖ ≤ ‖val x.1 - x.2‖ + ‖val y.1 - y.2‖ := by
    rw [add_sub_add_comm]; exact norm_add_le _ _
  have s2 : ‖val x.1 + val y.1‖ ≤ ‖val x.1 + val y.1 - (x.2 + y.2)‖ + (‖x.2‖ + ‖y.2‖) := by
    have : val x.1 + val y.1 = (val x.1 + val y.1 - (x.2 + y.2)) + (x.2 + y.2) := by abel
    refine le_trans (le_of_eq (congrArg _ this)) (le_trans (norm_add_le _ _) ?_)
    have := norm_add_le x.2 y.2
    linarith
  have s3 : ‖val (x + y).1 - (x + y).2‖ ≤ ‖val (x.1 + y.1) - (val x.1 + val y.1)‖ + ‖val x.1 + val y.1 - (x.2 + y.2)‖ := by
    have : val (x + y).1 - (x + y).2 = (val (x.1 + y.1) - (val x.1 + val y.1)) + (val x.1 + val y.1 - (x.2 + y.2)) := by
      simp only [Prod.fst_add, Prod.snd_add]; abel
    rw [this]; exact norm_add_le _ _
  have n1 := hx.near
  have n2 := hy.near
  have z1 := hx.size
  have z2 := hy.size
  rw [pow_succ]
  generalize (1 + ε) ^ k = h at n1 n2
  have s4 : ‖val x.1 + val y.1‖ ≤ (h - 1) * (M₁ + M₂) + h * (a₁ + a₂) + (M₁ + M₂) := by linarith
  have s5 := mul_le_mul_of_nonneg_left s4 he
  linarith

theorem Rounded.fits_smul (hR : Rounded ε η B val) (hB : (1 + ε) ^ N * W ≤ B) {c c' : ℝ} (hx : Fits ε val k M a x)
    (hk : k ≤ N) (w : M + a ≤ W) (hc : |c| = c') (h1 : c' ≤ 1) : Fits ε val (k + 1) (c' * M) (c' * a + η) (c • x) := by
  subst hc
  have he := hR.eps
  have hη := hR.eta
  have h0 := abs_nonneg c
  have r := hR.smul c _ h1 (hx.small he hB hk w)
  refine ⟨add_nonneg (mul_nonneg h0 hx.nonneg) hη, ?_, ?_⟩
  · change ‖c • x.2‖ ≤ _
    rw [norm_smul, Real.norm_eq_abs]
    exact mul_le_mul_of_nonneg_left hx.size h0
  rw [norm_smul, Real.norm_eq_abs] at r
  have s3 : ‖val (c • x).1 - (c • x).2‖ ≤ ‖val (c • x.1) - c • val x.1‖ + |c| * ‖val x.1 - x.2‖ := by
    have : val (c • x).1 - (c • x).2 = (val (c • x.1) - c • val x.1) + c • (val x.1 - x.2) := by
      simp only [Prod.smul_fst, Prod.smul_snd, smul_sub]; abel
    rw [this, ← Real.norm_eq_abs c, ← norm_smul]; exact norm_add_le _ _
  have n1 := hx.near
  have n2 := hx.norm
  have hp := one_le_powers he k
  rw [pow_succ]
  generalize (1 + ε) ^ k = h at *
  have s4 := mul_le_mul_of_nonneg_left (mul_le_mul_of_nonneg_left n2 h0) he
  have s5 := mul_le_mul_of_nonneg_left n1 h0
  have s6 : η ≤ h * (1 + ε) * η := by
    have : 1 ≤ h * (1 + ε) := by nlinarith
    nlinarith
  nlinarith

theorem Rounded.fits_sum (hR : Rounded ε η B val) (hB : (1 + ε) ^ N * W ≤ B) (hM : 0 ≤ M) (ha : 0 ≤ a) (l : List (P × V))
    (hl : ∀ q ∈ l, Fits ε val k M a q) (j : Nat) (hx : Fits ε val (k + j) (j * M) (j * a) x) (hk : k + j + l.length ≤ N)
    (w : ((j : ℝ) + l.length) * (M + a) ≤ W) :
    Fits ε val (k + j + l.length) (((j : ℝ) + l.length) * M) (((j : ℝ) + l.length) * a) (l.foldl (· + ·) x) := by
  induction l generalizing x j with
  | nil => simpa using hx
  | cons q l ih =>
    simp only [List.length_cons, Nat.cast_add, Nat.cast_one] at hk w ⊢
    have hn : (0 : ℝ) ≤ l.length := Nat.cast_nonneg _
    have hj : (0 : ℝ) ≤ j := Nat.cast_nonneg _
    have hs : 0 ≤ M + a := by linarith
    have t := hR.fits_add hB hx (hl q (by simp)) (le_refl _) (Nat.le_add_right k j) (by omega) (by nlinarith) (by nlinarith)
    have t' : Fits ε val (k + (j + 1)) (((j + 1 : Nat) : ℝ) * M) (((j + 1 : Nat) : ℝ) * a) (x + q) := by
      refine t.mono hR.eps (by omega) (le_of_eq ?_) (le_of_eq ?_) <;> push_cast <;> ring
    have := ih (fun q hq => hl q (by simp [hq])) (j + 1) t' (by omega) (by push_cast; linarith)
    refine this.mono hR.eps (by omega) (le_of_eq ?_) (le_of_eq ?_) <;> push_cast <;> ring

/-- one level -/
theorem Rounded.stable (hR : Rounded ε η B val) (sch : Scheme) {cosn : Nat → ℝ} (hc : sch = .loop → ∀ n, -1 ≤ cosn n ∧ cosn n ≤ 1)
    (d : Nat) (k : Nat) {M a : ℝ} (hM : 0 ≤ M) (ha : 0 ≤ a)
    (hB : (1 + ε) ^ (k + sch.roundings d) * (sch.widest d * (sch.growth * M + (sch.growth * a + sch.multiples * η))) ≤ B) :
    Stable sch cosn d {x : P × V | Fits ε val k M a x}
      {x | Fits ε val (k + sch.roundings d) (sch.growth * M) (sch.growth * a + sch.multiples * η) x} := by
  have he := hR.eps
  have hη := hR.eta
  have hd : (0 : ℝ) ≤ d := Nat.cast_nonneg _
  have hz := (hR.fits_zero (P := P) (V := V)).mono he (Nat.zero_le k) (le_refl _) (le_refl _)
  have hda := mul_nonneg hd ha
  have hdM := mul_nonneg hd hM
  have hdη := mul_nonneg hd hη
  refine ⟨?_, ?_, ?_, ?_, ?_, ?_, ?_⟩
  · intro p hp
    refine hp.mono he (by omega) ?_ ?_ <;> cases sch <;> simp only [Scheme.growth, Scheme.multiples] <;> linarith
  · intro hs p hp q hq
    have hW : 2 * (M + a) ≤ sch.widest d * (sch.growth * M + (sch.growth * a + sch.multiples * η)) := by
      rcases hs with rfl | rfl <;> simp only [Scheme.growth, Scheme.multiples, Scheme.widest] <;> nlinarith
    have hr : 2 ≤ sch.roundings d := by rcases hs with rfl | rfl <;> simp only [Scheme.roundings] <;> omega
    have t1 := hR.fits_add hB hp hq (le_refl _) (le_refl _) (by omega) (by linarith) (by linarith)
    have t2 := hR.fits_smul hB (c := 1 / 2) t1 (by omega) (by linarith) (abs_of_nonneg (by norm_num)) (by norm_num)
    refine t2.mono he (by omega) ?_ ?_ <;> rcases hs with rfl | rfl <;> simp only [Scheme.growth, Scheme.multiples] <;> linarith
  · rintro rfl p hp q hq r hr
    simp only [Scheme.growth, Scheme.multiples, Scheme.widest, Scheme.roundings] at hB ⊢
    have t1 := hR.fits_add hB hz hp (le_refl _) (le_refl _) (by omega) (by linarith) (by linarith)
    have t2 := hR.fits_add hB t1 hq (le_refl _) (by omega) (by omega) (by linarith) (by linarith)
    have t3 := hR.fits_add hB t2 hr (le_refl _) (by omega) (by omega) (by linarith) (by linarith)
    have t4 := hR.fits_smul hB (c := 1 / 3) t3 (by omega) (by linarith) (abs_of_nonneg (by norm_num)) (by norm_num)
    exact t4.mono he (by omega) (by linarith) (by linarith)
  · rintro rfl p hp q hq r hr s hs
    simp only [Scheme.growth, Scheme.multiples, Scheme.widest, Scheme.roundings] at hB ⊢
    generalize hW : ((d : ℝ) + 2) * (1 * M + (1 * a + 4 * η)) = W at hB
    have hW' : M + a + 4 * η ≤ W := by rw [← hW]; linarith
    have m1 := hR.fits_smul hB (c := 3 / 8) hp (by omega) (by linarith) (abs_of_nonneg (by norm_num)) (by norm_num)
    have m2 := hR.fits_smul hB (c := 3 / 8) hq (by omega) (by linarith) (abs_of_nonneg (by norm_num)) (by norm_num)
    have m3 := hR.fits_smul hB (c := 1 / 8) hr (by omega) (by linarith) (abs_of_nonneg (by norm_num)) (by norm_num)
    have m4 := hR.fits_smul hB (c := 1 / 8) hs (by omega) (by linarith) (abs_of_nonneg (by norm_num)) (by norm_num)
    have t1 := hR.fits_add hB hz m1 (Nat.le_succ k) (le_refl _) (by omega) (by linarith) (by linarith)
    have t2 := hR.fits_add hB t1 m2 (le_refl _) (by omega) (by omega) (by linarith) (by linarith)
    have t3 := hR.fits_add hB t2 m3 (le_refl _) (by omega) (by omega) (by linarith) (by linarith)
    have t4 := hR.fits_add hB t3 m4 (le_refl _) (by omega) (by omega) (by linarith) (by linarith)
    exact t4.mono he (by omega) (by linarith) (by linarith)
  · rintro rfl p0 h0 p1 h1 p2 h2 p3 h3 p4 h4 p5 h5 p6 h6 p7 h7
    simp only [Scheme.growth, Scheme.multiples, Scheme.widest, Scheme.roundings] at hB ⊢
    generalize hW : (3 / 2 : ℝ) * (3 / 2 * M + (3 / 2 * a + 8 * η)) = W at hB
    have hW' : 3 / 2 * M + (3 / 2 * a + 8 * η) ≤ W := by rw [← hW]; linarith
    clear hW hdM hda hdη hd hc
    have a1 : |(1 / 2 : ℝ)| = 1 / 2 := abs_of_nonneg (by norm_num)
    have a2 : |(1 / 8 : ℝ)| = 1 / 8 := abs_of_nonneg (by norm_num)
    have a3 : |(-1 / 16 : ℝ)| = 1 / 16 := by rw [abs_of_neg (by norm_num)]; norm_num
    have m0 := hR.fits_smul hB h0 (by omega) (by linarith) a1 (by norm_num)
    have m1 := hR.fits_smul hB h1 (by omega) (by linarith) a1 (by norm_num)
    have m2 := hR.fits_smul hB h2 (by omega) (by linarith) a2 (by norm_num)
    have m3 := hR.fits_smul hB h3 (by omega) (by linarith) a2 (by norm_num)
    have m4 := hR.fits_smul hB h4 (by omega) (by linarith) a3 (by norm_num)
    have m5 := hR.fits_smul hB h5 (by omega) (by linarith) a3 (by norm_num)
    have m6 := hR.fits_smul hB h6 (by omega) (by linarith) a3 (by norm_num)
    have m7 := hR.fits_smul hB h7 (by omega) (by linarith) a3 (by norm_num)
    have t0 := hR.fits_add hB hz m0 (Nat.le_succ k) (le_refl _) (by omega) (by linarith) (by linarith)
    have t1 := hR.fits_add hB t0 m1 (le_refl _) (by omega) (by omega) (by linarith) (by linarith)
    have t2 := hR.fits_add hB t1 m2 (le_refl _) (by omega) (by omega) (by linarith) (by linarith)
    have t3 := hR.fits_add hB t2 m3 (le_refl _) (by omega) (by omega) (by linarith) (by linarith)
    have t4 := hR.fits_add hB t3 m4 (le_refl _) (by omega) (by omega) (by linarith) (by linarith)
    have t5 := hR.fits_add hB t4 m5 (le_refl _) (by omega) (by omega) (by linarith) (by linarith)
    have t6 := hR.fits_add hB t5 m6 (le_refl _) (by omega) (by omega) (by linarith) (by linarith)
    have t7 := hR.fits_add hB t6 m7 (le_refl _) (by omega) (by omega) (by linarith) (by linarith)
    exact t7.mono he (by omega) (by linarith) (by linarith)
  · rintro rfl p hp l hl hne hlen
    simp only [Scheme.growth, Scheme.multiples, Scheme.widest, Scheme.roundings] at hB ⊢
    generalize hW : ((d : ℝ) + 2) * (1 * M + (1 * a + 4 * η)) = W at hB
    have hW' : M + a + 4 * η ≤ W := by rw [← hW]; linarith
    have hln : (l.length : ℝ) ≤ d := Nat.cast_le.2 hlen
    have hl1 : (1 : ℝ) ≤ l.length := Nat.one_le_cast.2 (List.length_pos_iff.2 hne)
    have hs : 0 ≤ M + a := by linarith
    have hW2 : (l.length : ℝ) * (M + a) ≤ W := by
      have := mul_le_mul_of_nonneg_right hln hs
      rw [← hW]; linarith
    obtain ⟨b1, b2⟩ := loopBeta_bounds (hc rfl) (n := l.length) (by simpa using hne)
    generalize loopBeta cosn l.length = β at b1 b2
    have b3 : β ≤ 1 := by nlinarith
    have hz0 := hz.mono he (Nat.le_add_right k 0) (M₂ := ((0 : Nat) : ℝ) * M) (a₂ := ((0 : Nat) : ℝ) * a) (by simp) (by simp)
    have s := hR.fits_sum hB hM ha l hl 0 hz0 (by omega) (by simpa using hW2)
    simp only [Nat.cast_zero, zero_add, Nat.add_zero] at s
    have m1 := hR.fits_smul hB hp (by omega) (by linarith) (abs_of_nonneg (a := 1 - l.length * β) (by linarith))
      (by nlinarith)
    have m2 := hR.fits_smul hB s (by omega) (by linarith) (abs_of_nonneg b1) b3
    have c1 : (1 - (l.length : ℝ) * β) * (M + a) ≤ M + a := by nlinarith [mul_nonneg (mul_nonneg (le_trans zero_le_one hl1) b1) hs]
    have c2 : (l.length : ℝ) * β * (M + a) ≤ M + a := by nlinarith
    have t := hR.fits_add hB m1 m2 (k := k + l.length + 1) (by omega) (le_refl _) (by omega) (by linarith) (by linarith)
    exact t.mono he (by omega) (by linarith) (by linarith)
  · rintro rfl p hp q hq r hr
    simp only [Scheme.growth, Scheme.multiples, Scheme.widest, Scheme.roundings] at hB ⊢
    generalize hW : ((d : ℝ) + 2) * (1 * M + (1 * a + 4 * η)) = W at hB
    have hW' : 2 * M + 2 * a + 4 * η ≤ W := by rw [← hW]; linarith
    have m1 := hR.fits_smul hB (c := 3 / 4) hp (by omega) (by linarith) (abs_of_nonneg (by norm_num)) (by norm_num)
    have t1 := hR.fits_add hB hz hq (le_refl _) (le_refl _) (by omega) (by linarith) (by linarith)
    have t2 := hR.fits_add hB t1 hr (le_refl _) (by omega) (by omega) (by linarith) (by linarith)
    have m2 := hR.fits_smul hB (c := 1 / 8) t2 (by omega) (by linarith) (abs_of_nonneg (by norm_num)) (by norm_num)
    have t3 := hR.fits_add hB m1 m2 (k := k + 3) (by omega) (by omega) (by omega) (by linarith) (by linarith)
    exact t3.mono he (by omega) (by linarith) (by linarith)

end Verif
