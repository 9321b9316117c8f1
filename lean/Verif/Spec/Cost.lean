import Verif.Spec.Geometry
/-
The size of a refinement.
-/
namespace Verif
open Classical in
/-- the sum of `4 a / A - 1` over the areas `a` of the triangles larger than `A` -/
noncomputable def Mesh.excess {E D : Type} [NormedAddCommGroup E] [InnerProductSpace ℝ E] (m : Mesh E D) (A : ℝ) : ℝ :=
  ((m.tris.filter fun t => decide (A < m.areaOf t)).map fun t => 4 * m.areaOf t / A - 1).sum

end Verif
