import Verif.Spec.Limit
/-
What is left of a mesh in its refinement.
-/
namespace Verif
variable {P D V : Type} [AddCommGroup V] [Module ℝ V]

/-- The same points under the same ids, and the same triangles in the same order. -/
def SameDrawing (m m' : Mesh P D) : Prop := m'.points = m.points ∧ m'.tris = m.tris

/-- The same points under the same ids, and the same triangles, listed in whatever order and from whatever corner on. -/
def SameUnordered (m m' : Mesh P D) : Prop := m'.points = m.points ∧ ∀ a b c, HasTri m'.tris a b c ↔ HasTri m.tris a b c

/-- Where an inner point was before a level of Loop, if it has `k` neighbours and is at `p` now, and its neighbours now add up
to `s`. -/
noncomputable def loopUndo (k : Nat) (p s : V) : V :=
  (1 / loopRate k) • ((5 / 8 : ℝ) • p - ((5 / 8 - loopRate k) / k) • s)

/-- Where a point of the boundary was, if it is at `p` now, and its neighbours along the boundary are at `a` and `b`. -/
noncomputable def loopRimUndo (p a b : V) : V := (2 : ℝ) • p - (1 / 2 : ℝ) • a - (1 / 2 : ℝ) • b

end Verif
