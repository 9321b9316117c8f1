import Verif.Spec.Rim
import Verif.Spec.Geometry
import Mathlib.Algebra.BigOperators.Intervals
/-
The boundary of a mesh as a set of points, and the lengths of its curves.
-/
namespace Verif
variable {E D : Type} [NormedAddCommGroup E] [InnerProductSpace ℝ E]

/-- the points on the boundary edges -/
def Mesh.rimSet (m : Mesh E D) : Set E := {x | ∃ e, m.IsBoundary e ∧ x ∈ segment ℝ (m.place e.1) (m.place e.2)}

/-- after `n` steps the walk is where it was -/
def Returns (n : Nat) (q : Int → E) : Prop := ∀ i, q (i + n) = q i

/-- the length of the first `n` steps -/
noncomputable def walkLength (n : Nat) (q : Int → E) : ℝ := ∑ i ∈ Finset.range n, dist (q i) (q (i + 1))

/-- into how many edges a uniform level divides a boundary edge -/
def Scheme.halves : Scheme → Nat
  | .sqrt3 => 1
  | _ => 2

end Verif
