import Verif.Spec.Exact
import Verif.Proofs.Stable
import Mathlib.Tactic.Module
import Mathlib.Tactic.NormNum
import Mathlib.Tactic.Linarith
/-
Operations on a grid.
-/
namespace Verif
set_option linter.unusedSectionVars false
variable {P V : Type} [Zero P] [Add P] [SMul ℝ P] [NormedAddCommGroup V] [NormedSpace ℝ V]
variable {Λ : AddSubgroup V} {N n n' : Nat} {W M B B' : ℝ} {val : P → V}

theorem OnGrid.weight {v : V} (h : OnGrid Λ n v) (z : ℤ) (j : Nat) : OnGrid Λ (n + j) (((z : ℝ) / 2 ^ j) • v) := by
  unfold OnGrid at *
  have e : (2 : ℝ) ^ (n + j) • ((z : ℝ) / 2 ^ j) • v = z • ((2 : ℝ) ^ n • v) := by
    rw [← Int.cast_smul_eq_zsmul ℝ z, smul_smul, smul_smul]
    congr 1
    rw [pow_add]
    field_simp
  rw [e]
  exact Λ.zsmul_mem h z

theorem OnGrid.mono {v : V} (h : OnGrid Λ n v) (hn : n ≤ n') : OnGrid Λ n' v := by
  have := h.weight (2 ^ (n' - n)) (n' - n)
  rw [Nat.add_sub_cancel' hn] at this
  simpa using this

theorem OnGrid.add {v w : V} (h : OnGrid Λ n v) (h' : OnGrid Λ n w) : OnGrid Λ n (v + w) := by
  unfold OnGrid at *
  rw [smul_add]
  exact Λ.add_mem h h'

/-- a machine position together with its exact value, on the grid and of bounded size -/
structure ExactAt (Λ : AddSubgroup V) (val : P → V) (n : Nat) (B : ℝ) (x : P × V) : Prop where
  eq : val x.1 = x.2
  grid : OnGrid Λ n x.2
  size : ‖x.2‖ ≤ B

theorem ExactAt.mono {x : P × V} (h : ExactAt Λ val n B x) (hn : n ≤ n') (hB : B ≤ B') : ExactAt Λ val n' B' x :=
  ⟨h.eq, h.grid.mono hn, le_trans h.size hB⟩

variable (hE : ExactOn Λ N W val)
include hE

theorem ExactOn.at_zero (n : Nat) : ExactAt Λ val n 0 (0 : P × V) :=
  ⟨hE.zero, by unfold OnGrid; simp [Λ.zero_mem], by simp⟩

theorem ExactOn.at_add {x y : P × V} (hx : ExactAt Λ val n B x) (hy : ExactAt Λ val n B' y) (hn : n ≤ N) (hW : B + B' ≤ W) :
    ExactAt Λ val n (B + B') (x + y) := by
  have h1 : ‖x.2 + y.2‖ ≤ B + B' := le_trans (norm_add_le _ _) (add_le_add hx.size hy.size)
  have h2 := hx.grid.add hy.grid
  refine ⟨?_, h2, h1⟩
  have := hE.add x.1 y.1 (by rw [hx.eq, hy.eq]; exact h2.mono hn) (by rw [hx.eq, hy.eq]; exact le_trans h1 hW)
  rw [hx.eq, hy.eq] at this
  exact this

theorem ExactOn.at_smul {x : P × V} (hx : ExactAt Λ val n B x) {k : ℝ} (hk : k ∈ gridWeights) (z : ℤ) (j : Nat)
    (hz : k = (z : ℝ) / 2 ^ j) (hn : n + j ≤ N) (hW : |k| * B ≤ W) : ExactAt Λ val (n + j) (|k| * B) (k • x) := by
  have h1 : ‖k • x.2‖ ≤ |k| * B := by
    rw [norm_smul, Real.norm_eq_abs]
    exact mul_le_mul_of_nonneg_left hx.size (abs_nonneg _)
  have h2 := hx.grid.weight z j
  rw [← hz] at h2
  refine ⟨?_, h2, h1⟩
  have := hE.smul k hk x.1 (by rw [hx.eq]; exact h2.mono hn) (by rw [hx.eq]; exact le_trans h1 hW)
  rw [hx.eq] at this
  exact this

theorem ExactOn.at_half {x : P × V} (hx : ExactAt Λ val n B x) (hn : n + 1 ≤ N) (hW : 1 / 2 * B ≤ W) :
    ExactAt Λ val (n + 1) (1 / 2 * B) ((1 / 2 : ℝ) • x) := by
  have := hE.at_smul hx (k := 1 / 2) (by simp [gridWeights]) 1 1 (by norm_num) hn (by norm_num at *; exact hW)
  norm_num at this ⊢; exact this

theorem ExactOn.at_eighth {x : P × V} (hx : ExactAt Λ val n B x) (hn : n + 3 ≤ N) (hW : 1 / 8 * B ≤ W) :
    ExactAt Λ val (n + 3) (1 / 8 * B) ((1 / 8 : ℝ) • x) := by
  have := hE.at_smul hx (k := 1 / 8) (by simp [gridWeights]) 1 3 (by norm_num) hn (by norm_num at *; exact hW)
  norm_num at this ⊢; exact this

theorem ExactOn.at_three {x : P × V} (hx : ExactAt Λ val n B x) (hn : n + 3 ≤ N) (hW : 3 / 8 * B ≤ W) :
    ExactAt Λ val (n + 3) (3 / 8 * B) ((3 / 8 : ℝ) • x) := by
  have := hE.at_smul hx (k := 3 / 8) (by simp [gridWeights]) 3 3 (by norm_num) hn
    (by rw [abs_of_nonneg (by norm_num)]; exact hW)
  rwa [abs_of_nonneg (by norm_num)] at this

theorem ExactOn.at_most {x : P × V} (hx : ExactAt Λ val n B x) (hn : n + 3 ≤ N) (hW : 3 / 4 * B ≤ W) :
    ExactAt Λ val (n + 3) (3 / 4 * B) ((3 / 4 : ℝ) • x) := by
  have := hE.at_smul hx (k := 3 / 4) (by simp [gridWeights]) 3 2 (by norm_num) (by omega)
    (by rw [abs_of_nonneg (by norm_num)]; exact hW)
  rw [abs_of_nonneg (by norm_num)] at this
  exact this.mono (by omega) le_rfl

theorem ExactOn.at_minus {x : P × V} (hx : ExactAt Λ val n B x) (hn : n + 4 ≤ N) (hW : 1 / 16 * B ≤ W) :
    ExactAt Λ val (n + 4) (1 / 16 * B) ((-1 / 16 : ℝ) • x) := by
  have e : |(-1 / 16 : ℝ)| = 1 / 16 := by rw [abs_of_nonpos] <;> norm_num
  have := hE.at_smul hx (k := -1 / 16) (by simp [gridWeights]) (-1) 4 (by norm_num) hn (by rw [e]; exact hW)
  rwa [e] at this

/-- the stencils make no error, and refine the grid -/
theorem ExactOn.stable {sch : Scheme} (cosn : Nat → ℝ) (hs : sch ≠ .sqrt3) (hB : 0 ≤ B) (hn : n + sch.bits ≤ N)
    (hW : sch.widest 0 * B ≤ W) :
    Stable sch cosn 0 {x : P × V | ExactAt Λ val n B x} {x : P × V | ExactAt Λ val (n + sch.bits) (sch.growth * B) x} where
  keep p hp := hp.mono (Nat.le_add_right _ _) (by
    cases sch <;> simp only [Scheme.growth] <;> linarith)
  mid h a ha b hb := by
    have hg : sch.growth = 1 ∧ sch.widest 0 = 2 ∧ 1 ≤ sch.bits := by
      rcases h with rfl | rfl <;> simp [Scheme.growth, Scheme.widest, Scheme.bits]
    rw [hg.2.1] at hW
    have h1 := hE.at_add ha hb (by omega) (by linarith)
    have h2 := hE.at_half h1 (by omega) (by linarith)
    exact h2.mono (by omega) (by rw [hg.1]; linarith)
  third h := absurd h hs
  inner h a ha b hb c hc d hd := by
    subst h
    simp only [Scheme.bits, Scheme.widest, Nat.cast_zero] at hn hW
    have h1 := hE.at_add (hE.at_zero _) (hE.at_three ha hn (by linarith)) hn (by linarith)
    have h2 := hE.at_add h1 (hE.at_three hb hn (by linarith)) hn (by linarith)
    have h3 := hE.at_add h2 (hE.at_eighth hc hn (by linarith)) hn (by linarith)
    have h4 := hE.at_add h3 (hE.at_eighth hd hn (by linarith)) hn (by linarith)
    exact h4.mono le_rfl (by simp only [Scheme.growth]; linarith)
  eight h p0 h0 p1 h1 p2 h2 p3 h3 p4 h4 p5 h5 p6 h6 p7 h7 := by
    subst h
    simp only [Scheme.bits, Scheme.widest] at hn hW
    have k0 := hE.at_add (hE.at_zero _) ((hE.at_half h0 (by omega) (by linarith)).mono (by omega : n + 1 ≤ n + 4) le_rfl) hn (by linarith)
    have k1 := hE.at_add k0 ((hE.at_half h1 (by omega) (by linarith)).mono (by omega : n + 1 ≤ n + 4) le_rfl) hn (by linarith)
    have k2 := hE.at_add k1 ((hE.at_eighth h2 (by omega) (by linarith)).mono (by omega : n + 3 ≤ n + 4) le_rfl) hn (by linarith)
    have k3 := hE.at_add k2 ((hE.at_eighth h3 (by omega) (by linarith)).mono (by omega : n + 3 ≤ n + 4) le_rfl) hn (by linarith)
    have k4 := hE.at_add k3 (hE.at_minus h4 hn (by linarith)) hn (by linarith)
    have k5 := hE.at_add k4 (hE.at_minus h5 hn (by linarith)) hn (by linarith)
    have k6 := hE.at_add k5 (hE.at_minus h6 hn (by linarith)) hn (by linarith)
    have k7 := hE.at_add k6 (hE.at_minus h7 hn (by linarith)) hn (by linarith)
    exact k7.mono le_rfl (by simp only [Scheme.growth]; linarith)
  around _ p _ l _ hl hd := absurd (List.length_eq_zero_iff.1 (Nat.le_zero.1 hd)) hl
  along h p hp q hq r hr := by
    subst h
    simp only [Scheme.bits, Scheme.widest, Nat.cast_zero] at hn hW
    have h1 := hE.at_most hp hn (by linarith)
    have h2 := hE.at_add (hE.at_zero _) hq (by omega) (by linarith)
    have h3 := hE.at_add h2 hr (by omega) (by linarith)
    have h4 := hE.at_add h1 (hE.at_eighth h3 hn (by linarith)) hn (by linarith)
    exact h4.mono le_rfl (by simp only [Scheme.growth]; linarith)

end Verif
