import Verif.Spec.Iterative
/-
When one run refines more than another.
-/
namespace Verif
variable {P D : Type}

/-- every cell that the one selection names is named by the other one too (no ids: the whole mesh) -/
def Mesh.SelectsMore (m : Mesh P D) (s s' : List CId) : Prop := ∀ t ∈ m.selected s, t ∈ m.selected s'

/-- every edge that the one list names is named by the other one too, in either direction (no list: all edges) -/
def Mesh.SplitsMore (m : Mesh P D) (s s' : List (Option Edge)) : Prop :=
  ∀ e ∈ m.selectedEdges s, e ∈ m.selectedEdges s' ∨ e.sym ∈ m.selectedEdges s'

/-- `m'` has all points of `m`, different ones for different ones -/
def Mesh.PointsAmong (m m' : Mesh P D) : Prop :=
  ∃ ρ : PId → PId, (∀ v w p q, m.pos v = some p → m.pos w = some q → ρ v = ρ w → v = w) ∧
    ∀ v p, m.pos v = some p → m'.pos (ρ v) = some p

/-- `m'` is not smaller than `m` -/
structure Mesh.NotSmaller (m m' : Mesh P D) : Prop where
  points : m.points.length ≤ m'.points.length
  edges : m.edges.length ≤ m'.edges.length
  cells : m.cells.length ≤ m'.cells.length

end Verif
