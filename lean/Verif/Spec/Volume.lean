import Verif.Spec.Geometry
import Verif.Spec.Topology
import Mathlib.LinearAlgebra.Alternating.Basic
/-
Quantities that are sums over the triangles of a mesh: area, vector area, volume, flux.
-/
namespace Verif
variable {E D M : Type} [NormedAddCommGroup E] [InnerProductSpace ℝ E]

/-- A quantity of triangles that does not depend on the first corner and that adds up when a triangle is cut in two at the
midpoint of a side. -/
structure Additive [Add M] (F : E → E → E → M) : Prop where
  turn : ∀ p q r, F p q r = F q r p
  halve : ∀ p q r m, m = (1 / 2 : ℝ) • p + (1 / 2 : ℝ) • q → F p q r = F p m r + F m q r

/-- the sum of a quantity over the triangles of a mesh -/
def Mesh.total [AddMonoid M] (F : E → E → E → M) (m : Mesh E D) : M :=
  (m.tris.map fun t => F (m.place t.1) (m.place t.2.1) (m.place t.2.2)).sum

/-- the signed volume of the tetrahedron with apex `o` and base `p q r`; `ω` is the volume form of the space -/
noncomputable def coneVolume (ω : E [⋀^Fin 3]→ₗ[ℝ] ℝ) (o p q r : E) : ℝ := 1 / 6 * ω ![p - o, q - o, r - o]

/-- the vector area of a triangle; `ω` is the vector product -/
noncomputable def vectorArea {V : Type} [AddCommGroup V] [Module ℝ V] (ω : E [⋀^Fin 2]→ₗ[ℝ] V) (p q r : E) : V :=
  (1 / 2 : ℝ) • ω ![q - p, r - p]

/-- the signed volume below a mesh, seen from `o`; the volume that a closed mesh encloses (`Mesh.Closed.volume_apex`: then
`o` does not matter) -/
noncomputable def Mesh.volume (ω : E [⋀^Fin 3]→ₗ[ℝ] ℝ) (o : E) (m : Mesh E D) : ℝ := m.total (coneVolume ω o)

end Verif
