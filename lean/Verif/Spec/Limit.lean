import Verif.Spec.Surface
import Mathlib.Analysis.SpecialFunctions.Trigonometric.Basic
/-
Where the points of a mesh go under repeated Loop subdivision.
-/
namespace Verif
variable {P D V : Type} [AddCommGroup V] [Module ℝ V]

/-- `N` are the neighbours of `v`, and all edges of `v` lie between two triangles. -/
structure Mesh.InnerAt (m : Mesh P D) (v : PId) (N : List PId) : Prop where
  nodup : N.Nodup
  all : ∀ w, w ∈ N ↔ m.IsEdge (v, w)
  inner : ∀ w ∈ N, (∃ c, HasTri m.tris v w c) ∧ ∃ c, HasTri m.tris w v c

/-- `v a` and `v b` are the edges of `v` on the boundary. -/
structure Mesh.RimAt (m : Mesh P D) (v a b : PId) : Prop where
  ne : a ≠ b
  only : ∀ w, (w = a ∨ w = b) ↔ m.IsEdge (v, w) ∧ ((∀ c, ¬ HasTri m.tris v w c) ∨ ∀ c, ¬ HasTri m.tris w v c)

/-- `w 0, …, w (k - 1)` are the neighbours of `v` in the order in which the triangles go round `v`. -/
structure Mesh.RoundAt (m : Mesh P D) (v : PId) (k : Nat) (w : Nat → PId) : Prop where
  tri : ∀ i, HasTri m.tris v (w i) (w (i + 1))
  round : ∀ i, w (i + k) = w i

/-- For a point with `k` neighbours: the part of its distance from its limit that is left after a level. -/
noncomputable def loopRate (k : Nat) : ℝ := (3 / 8 + Real.cos (2 * Real.pi / k) / 4) ^ 2

/-- The limit of an inner point `p` whose `k` neighbours add up to `s`. -/
noncomputable def loopLimit (k : Nat) (p s : V) : V :=
  (1 / (1 - loopRate k)) • ((3 / 8 : ℝ) • p + ((5 / 8 - loopRate k) / k) • s)

/-- The limit of a point `p` of the boundary with the neighbours `a` and `b` along the boundary. -/
noncomputable def loopRimLimit (p a b : V) : V := (2 / 3 : ℝ) • p + (1 / 6 : ℝ) • a + (1 / 6 : ℝ) • b

end Verif
