import Verif.Spec.Geometry
import Verif.Spec.Surface
/-
Triangles that get flatter and flatter over a side that stays.
-/
namespace Verif
variable {E : Type} [NormedAddCommGroup E] [InnerProductSpace ℝ E]

/-- The point on the way from the middle of `p`, `q` to `r` whose distance from the middle is `3 ^ -n` of the whole. -/
noncomputable def lowered (p q r : E) (n : Nat) : E :=
  (1 / 2 : ℝ) • (p + q) + ((1 / 3) ^ n : ℝ) • (r - (1 / 2 : ℝ) • (p + q))

end Verif
