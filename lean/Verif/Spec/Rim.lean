import Verif.Spec.Affine
import Verif.Model.Schemes
import Mathlib.Algebra.Field.Defs
import Mathlib.Algebra.Module.Defs
/-
The boundary of a mesh as a curve in space, and what subdivision makes of it.
-/
namespace Verif
variable {P D : Type}

/-- Walking for ever along a boundary of `m`, the triangles being on the left, one meets the places `q`. (A boundary curve is
closed: the same places return.) -/
def Mesh.Rim (m : Mesh P D) (q : Int → P) : Prop :=
  ∃ v : Int → PId, ∀ i, m.IsBoundary (v i, v (i + 1)) ∧ m.pos (v i) = some (q i)

/-- the places `even i` and `odd i` in turn -/
def inTurn (even odd : Int → P) (i : Int) : P := if i % 2 = 0 then even (i / 2) else odd (i / 2)

section
variable (K : Type) [Field K] [AddCommGroup P] [Module K P]

/-- the polygon `q`, with the midpoints of its edges -/
def withMidpoints (q : Int → P) : Int → P := inTurn q fun i => (1 / 2 : K) • q i + (1 / 2 : K) • q (i + 1)

/-- one step towards the cubic B-spline with the control points `q` -/
def splineStep (q : Int → P) : Int → P :=
  inTurn (fun i => (3 / 4 : K) • q i + (1 / 8 : K) • q (i - 1) + (1 / 8 : K) • q (i + 1))
    fun i => (1 / 2 : K) • q i + (1 / 2 : K) • q (i + 1)

/-- what one uniform level makes of the places along the boundary (nothing is claimed of the butterfly) -/
def Scheme.rimStep : Scheme → (Int → P) → Int → P
  | .linear => withMidpoints K
  | .loop => splineStep K
  | .sqrt3 => id
  | .butterfly => id

end
end Verif
