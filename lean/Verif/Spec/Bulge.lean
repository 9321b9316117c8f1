import Verif.Spec.Hull
import Mathlib.LinearAlgebra.AffineSpace.AffineMap
import Mathlib.Analysis.Normed.Module.Basic
/-
How far a surface reaches in a direction.
-/
namespace Verif

/-- In the direction measured by `φ` (a coordinate, say) the points of the mesh are between `lo` and `hi`. -/
def Mesh.Between {K P D : Type} [LE K] (m : Mesh P D) (φ : P → K) (lo hi : K) : Prop :=
  ∀ v p, m.pos v = some p → lo ≤ φ p ∧ φ p ≤ hi

/-- No point of `m` is further than `r` from the convex hull of the points of `m₀`. -/
def Mesh.NearHull {V D : Type} [NormedAddCommGroup V] [NormedSpace ℝ V] (m₀ m : Mesh V D) (r : ℝ) : Prop :=
  ∀ v p, m.pos v = some p → ∃ q ∈ m₀.hull ℝ, ‖p - q‖ ≤ r

end Verif
