import Verif.Spec.Run
import Verif.Spec.Valence
import Mathlib.Analysis.Normed.Module.Basic
/-
Rounded arithmetic: positions are machine numbers, and every operation has a small error.
-/
namespace Verif

/-- `P` are machine positions, `val` their exact values.  As long as the operands are at most `B` (nothing overflows), a sum has
relative error `ε`, and a multiple by a weight between -1 and 1 has relative error `ε` (which includes the rounding of the
weight) and absolute error `η` (from numbers too small to be represented).  Nothing else is asked of the operations: the sum need
not be commutative, nor associative. -/
structure Rounded {P V : Type} [Zero P] [Add P] [SMul ℝ P] [NormedAddCommGroup V] [NormedSpace ℝ V] (ε η B : ℝ) (val : P → V) :
    Prop where
  eps : 0 ≤ ε
  eta : 0 ≤ η
  zero : val 0 = 0
  add : ∀ p q, ‖val p‖ ≤ B → ‖val q‖ ≤ B → ‖val (p + q) - (val p + val q)‖ ≤ ε * ‖val p + val q‖
  smul : ∀ (k : ℝ) p, |k| ≤ 1 → ‖val p‖ ≤ B → ‖val (k • p) - k • val p‖ ≤ ε * ‖k • val p‖ + η

/-- how many operations of one level follow one another (`d`: the most triangles around a point) -/
def Scheme.roundings : Scheme → Nat → Nat
  | .linear, _ => 2
  | .sqrt3, _ => 4
  | .butterfly, _ => 9
  | .loop, d => d + 5

/-- the sum of the sizes of the weights of the scheme: 1, or 3/2 for Butterfly, which has negative weights -/
noncomputable def Scheme.growth : Scheme → ℝ
  | .butterfly => 3 / 2
  | _ => 1

/-- how many multiples are added up for a point -/
noncomputable def Scheme.multiples : Scheme → ℝ
  | .loop => 4
  | .butterfly => 8
  | _ => 1

/-- how many times the size of the points the sums on the way can reach -/
noncomputable def Scheme.widest : Scheme → Nat → ℝ
  | .linear, _ => 2
  | .sqrt3, _ => 3
  | .butterfly, _ => 3 / 2
  | .loop, d => d + 2

/-- the size of the points after `L` levels, from points of size `M` -/
noncomputable def Scheme.sizeAfter (sch : Scheme) (M : ℝ) (L : Nat) : ℝ := sch.growth ^ L * M

/-- the absolute errors after `L` levels -/
noncomputable def Scheme.tinyAfter (sch : Scheme) (η : ℝ) (L : Nat) : ℝ := L * sch.multiples * sch.growth ^ L * η

/-- The bound of the error after `L` levels: to first order, `ε` times the number of operations times the size of the points,
plus the absolute errors. -/
noncomputable def Scheme.errorBound (sch : Scheme) (d : Nat) (ε η M : ℝ) (L : Nat) : ℝ :=
  ((1 + ε) ^ (L * sch.roundings d) - 1) * sch.sizeAfter M L + (1 + ε) ^ (L * sch.roundings d) * sch.tinyAfter η L

/-- nothing overflows in `L` levels -/
def Scheme.InRange (sch : Scheme) (d : Nat) (ε η B M : ℝ) (L : Nat) : Prop :=
  (1 + ε) ^ (L * sch.roundings d) * (sch.widest d * (sch.sizeAfter M L + sch.tinyAfter η L)) ≤ B

/-- No point gets more than `d` triangles in `L` levels.  Refining everything leaves the number of triangles at a point alone and
makes points with at most six.  Refining a selection can double the number at each level, next to the selection. -/
def Mesh.RoomFor {P D : Type} (m : Mesh P D) (sel : List CId) (L d : Nat) : Prop :=
  (sel = [] ∧ (L ≤ 1 ∨ 6 ≤ d) ∧ ∀ v, v < m.points.length → m.valence v ≤ d) ∨
  ∃ n, 3 ≤ n ∧ 2 ^ L * n ≤ 2 * d ∧ ∀ v, v < m.points.length → m.valence v ≤ n

end Verif
