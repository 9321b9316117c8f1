import Verif.Spec.FaceSplit
import Mathlib.Analysis.Convex.Hull
import Mathlib.Analysis.InnerProductSpace.Basic
/-
Lengths, areas and the surface as a set of points, in a real inner product space.
-/
namespace Verif
open scoped InnerProductSpace
variable {E D : Type} [NormedAddCommGroup E] [InnerProductSpace ℝ E]

/-- The area of the triangle `p q r`: half the area of the parallelogram spanned by `q - p` and `r - p`. -/
noncomputable def triArea (p q r : E) : ℝ :=
  1 / 2 * Real.sqrt (‖q - p‖ ^ 2 * ‖r - p‖ ^ 2 - ⟪q - p, r - p⟫_ℝ ^ 2)

/-- `TriangleHelper::ComputeArea` (ITK): Heron's formula. -/
noncomputable def heronArea (p q r : E) : ℝ :=
  let a := dist q r
  let b := dist r p
  let c := dist p q
  let s := 1 / 2 * (a + b + c)
  Real.sqrt (s * (s - a) * (s - b) * (s - c))

/-- the place of a point, when it exists -/
def Mesh.place (m : Mesh E D) (v : PId) : E := (m.pos v).getD 0

/-- the area of a triangle of a mesh -/
noncomputable def Mesh.areaOf (m : Mesh E D) (t : Tri) : ℝ := triArea (m.place t.1) (m.place t.2.1) (m.place t.2.2)

/-- the sum of the areas of the triangles -/
noncomputable def Mesh.totalArea (m : Mesh E D) : ℝ := (m.tris.map m.areaOf).sum

/-- the points of the surface: the union of the filled triangles -/
def Mesh.surface (m : Mesh E D) : Set E :=
  {x | ∃ t ∈ m.tris, x ∈ convexHull ℝ {m.place t.1, m.place t.2.1, m.place t.2.2}}

end Verif
