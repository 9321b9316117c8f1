import Verif.Spec.Geometry
import Verif.Spec.Surface
import Mathlib.Geometry.Euclidean.Angle.Unoriented.Basic
/-
How far triangles are from being degenerate.
-/
namespace Verif
variable {E D : Type} [NormedAddCommGroup E] [InnerProductSpace ℝ E]

/-- The area of every triangle is at least `q` times the square of each of its sides.  (An equilateral triangle has
`q = √3 / 4`; the thinner a triangle is, the smaller `q`.) -/
def Mesh.FatBy (m : Mesh E D) (q : ℝ) : Prop :=
  ∀ t ∈ m.tris, ∀ e ∈ t.darts, q * dist (m.place e.1) (m.place e.2) ^ 2 ≤ m.areaOf t

/-- The sine of every angle of every triangle is at least `σ`, so no angle is near 0 or near `π`. -/
def Mesh.AnglesBy (m : Mesh E D) (σ : ℝ) : Prop :=
  ∀ a b c, HasTri m.tris a b c → σ ≤ Real.sin (InnerProductGeometry.angle (m.place b - m.place a) (m.place c - m.place a))

end Verif
