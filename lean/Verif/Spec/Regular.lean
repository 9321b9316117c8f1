import Verif.Spec.Surface
import Mathlib.Algebra.BigOperators.Intervals
import Mathlib.Algebra.Module.Basic
import Mathlib.Algebra.Module.Prod
import Mathlib.Algebra.Field.Basic
/-
Regular parts of a surface, and polynomial surfaces over them.
-/
namespace Verif
variable {K P : Type} [Field K] [AddCommGroup P] [Module K P]

/-- The points have parameters in the plane; in parameters, two triangles with a common edge form a parallelogram.  (Around a
point with a closed fan there are then six triangles, unless they are degenerate.) -/
def Chart (T : List Tri) (lam : PId → K × K) : Prop :=
  ∀ x y z w, HasTri T x y z → HasTri T y x w → lam z + lam w = lam x + lam y

/-- the polynomial of degree `d` with the coefficients `c i j` in `P`, at the parameters `x` -/
def polyMap (d : Nat) (c : Nat → Nat → P) (x : K × K) : P :=
  ∑ i ∈ Finset.range (d + 1), ∑ j ∈ Finset.range (d + 1 - i), (x.1 ^ i * x.2 ^ j) • c i j

/-- the quadratic part of a polynomial -/
def quadPart (c : Nat → Nat → P) (x : K × K) : P := (x.1 ^ 2) • c 2 0 + (x.1 * x.2) • c 1 1 + (x.2 ^ 2) • c 0 2

/-- an eighth of the sum of the quadratic part over the sides of a triangle in the plane -/
def sideQuad (c : Nat → Nat → P) (x y z : K × K) : P :=
  (1 / 8 : K) • (quadPart c (y - x) + quadPart c (z - y) + quadPart c (x - z))

end Verif
