import Verif.Spec.Rounding
/-
Machine arithmetic that is exact on a grid.
-/
namespace Verif
variable {P V : Type} [Zero P] [Add P] [SMul ℝ P] [NormedAddCommGroup V] [NormedSpace ℝ V]

/-- `v` is on the grid `Λ` refined `n` times, each time by a factor of 2 -/
def OnGrid (Λ : AddSubgroup V) (n : Nat) (v : V) : Prop := (2 : ℝ) ^ n • v ∈ Λ

/-- the weights of the stencils of Linear, Butterfly, and the new points of Loop -/
def gridWeights : Set ℝ := {1 / 2, 3 / 4, 3 / 8, 1 / 8, -1 / 16}

/-- `P` are machine positions, `val` their exact values.  An operation makes no error if its exact result is on the grid refined
`N` times and no larger than `W`.  (For numbers with `p` binary digits and the integers as the grid: if `2 ^ N * W < 2 ^ p`.)
Nothing is asked of the other operations. -/
structure ExactOn (Λ : AddSubgroup V) (N : Nat) (W : ℝ) (val : P → V) : Prop where
  zero : val 0 = 0
  add : ∀ p q, OnGrid Λ N (val p + val q) → ‖val p + val q‖ ≤ W → val (p + q) = val p + val q
  smul : ∀ k ∈ gridWeights, ∀ p, OnGrid Λ N (k • val p) → ‖k • val p‖ ≤ W → val (k • p) = k • val p

/-- how many times a level refines the grid -/
def Scheme.bits : Scheme → Nat
  | .linear => 1
  | .loop => 3
  | .butterfly => 4
  | .sqrt3 => 0

end Verif
