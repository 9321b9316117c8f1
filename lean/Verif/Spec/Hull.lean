import Verif.Spec.Surface
import Mathlib.Analysis.Convex.Hull
/-
The convex hull of a mesh, for C20.
-/
namespace Verif

/-- the convex hull of the points of a mesh -/
def Mesh.hull (K : Type) [Field K] [LinearOrder K] {P D : Type} [AddCommGroup P] [Module K P] (m : Mesh P D) : Set P :=
  convexHull K {p | ∃ v, m.pos v = some p}

end Verif
