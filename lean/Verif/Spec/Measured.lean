import Verif.Spec.Run
import Verif.Spec.Geometry
import Mathlib.Analysis.InnerProductSpace.Basic
/-
Midpoints and lengths in machine arithmetic.
-/
namespace Verif

/-- `P` are machine positions, `val` their exact values, `len` the computed distance.  As long as the values are at most `R`, a
computed midpoint differs from the exact one by at most `κ`, and so does a computed distance; the distance is the same in both
directions. -/
structure Measured {P V : Type} [Add P] [SMul ℝ P] [NormedAddCommGroup V] [InnerProductSpace ℝ V] (val : P → V)
    (len : P → P → ℝ) (R κ : ℝ) : Prop where
  mid : ∀ p q, ‖val p‖ ≤ R → ‖val q‖ ≤ R → ‖val ((1 / 2 : ℝ) • (p + q)) - (1 / 2 : ℝ) • (val p + val q)‖ ≤ κ
  near : ∀ p q, ‖val p‖ ≤ R → ‖val q‖ ≤ R → |len p q - dist (val p) (val q)| ≤ κ
  symm : ∀ p q, len p q = len q p

/-- The same for the sum of four points that makes a point of the Loop scheme, added in the order of the code. -/
structure MeasuredLoop {P V : Type} [Zero P] [Add P] [SMul ℝ P] [NormedAddCommGroup V] [InnerProductSpace ℝ V] (val : P → V)
    (len : P → P → ℝ) (R κ : ℝ) : Prop extends Measured val len R κ where
  four : ∀ p q r s, ‖val p‖ ≤ R → ‖val q‖ ≤ R → ‖val r‖ ≤ R → ‖val s‖ ≤ R →
    ‖val (0 + (3 / 8 : ℝ) • p + (3 / 8 : ℝ) • q + (1 / 8 : ℝ) • r + (1 / 8 : ℝ) • s) -
      ((3 / 8 : ℝ) • val p + (3 / 8 : ℝ) • val q + (1 / 8 : ℝ) • val r + (1 / 8 : ℝ) • val s)‖ ≤ κ

/-- Midpoints and lengths with `area`, the computed area of a triangle, which has errors up to `α`. -/
structure MeasuredArea {P V : Type} [Add P] [SMul ℝ P] [NormedAddCommGroup V] [InnerProductSpace ℝ V] (val : P → V)
    (area : P → P → P → ℝ) (R κ α : ℝ) : Prop where
  mid : ∀ p q, ‖val p‖ ≤ R → ‖val q‖ ≤ R → ‖val ((1 / 2 : ℝ) • (p + q)) - (1 / 2 : ℝ) • (val p + val q)‖ ≤ κ
  near : ∀ p q r, ‖val p‖ ≤ R → ‖val q‖ ≤ R → ‖val r‖ ≤ R → |area p q r - triArea (val p) (val q) (val r)| ≤ α

/-- No machine position lies between `p` and `q`: the computed midpoint is one of the two. -/
def Neighbours {P : Type} [Add P] [SMul ℝ P] (p q : P) : Prop :=
  ((1 / 2 : ℝ) • (p + q) = p ∨ (1 / 2 : ℝ) • (p + q) = q) ∧ ((1 / 2 : ℝ) • (q + p) = p ∨ (1 / 2 : ℝ) • (q + p) = q)

end Verif
