import Verif.Spec.FaceSplit
/-
Boundary and Euler characteristic.
-/
namespace Verif
variable {P D : Type}

/-- a boundary edge, directed as in its triangle: there is a triangle on its left and none on its right -/
def Mesh.IsBoundary (m : Mesh P D) (e : Edge) : Prop := e ∈ dartsOf m.tris ∧ e.sym ∉ dartsOf m.tris

/-- no boundary -/
def Mesh.Closed (m : Mesh P D) : Prop := ∀ e, ¬ m.IsBoundary e

/-- `e'` is the edge `e`, if `e` has no new point, or one of its halves -/
def IsPiece (μ : Edge → Option PId) (e e' : Edge) : Prop :=
  (μ e = none ∧ e' = e) ∨ ∃ m, μ e = some m ∧ (e' = (e.1, m) ∨ e' = (m, e.2))

/-- points - edges + cells -/
def Mesh.euler (m : Mesh P D) : Int := m.points.length - m.edges.length + m.cells.length

end Verif
