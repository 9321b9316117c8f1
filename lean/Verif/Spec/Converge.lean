import Verif.Spec.Surface
import Verif.Spec.Affine
import Verif.Spec.Run
import Verif.Model.Schemes
import Mathlib.Analysis.Normed.Module.Basic
/-
Lengths of edges under refinement.
-/
namespace Verif
variable {V D : Type} [NormedAddCommGroup V]

/-- no edge is longer than `δ` -/
def Mesh.EdgesWithin (m : Mesh V D) (δ : ℝ) : Prop :=
  ∀ e p q, m.IsEdge e → m.pos e.1 = some p → m.pos e.2 = some q → ‖p - q‖ ≤ δ

/-- an upper bound for the longest edge after a uniform level, relative to the longest edge before -/
noncomputable def Scheme.shrink : Scheme → ℝ
  | .linear => 1 / 2
  | .loop => 7 / 8
  | .butterfly => 7 / 8
  | .sqrt3 => 2 / 3

/-- how far a uniform level moves the points of the input, at most, relative to the longest edge -/
noncomputable def Scheme.drift : Scheme → ℝ
  | .loop => 5 / 8
  | _ => 0

/-- The meshes on which a uniform level makes the edges shorter: the mesh is one that the filter needs anyway; with Loop the
boundary does not touch itself; with Butterfly and SquareThree there is no boundary (SquareThree never shortens the edges of
the boundary, by C18). -/
structure Scheme.Shrinks {P : Type} (sch : Scheme) (m : Mesh P D) : Prop where
  needs : sch.Needs m
  simple : sch = .loop → m.SimpleBoundary
  closed : sch = .butterfly ∨ sch = .sqrt3 → m.Closed

end Verif
