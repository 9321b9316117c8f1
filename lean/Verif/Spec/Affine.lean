import Verif.Spec.Topology
/-
Moving the points of a mesh.
-/
namespace Verif
variable {P P' D : Type}

/-- the mesh with its points moved by `φ` -/
def Mesh.mapPoints (φ : P → P') (m : Mesh P D) : Mesh P' D where
  points := m.points.map fun kp => (kp.1, φ kp.2)
  cells := m.cells
  cellData := m.cellData
  hasEdgeCells := m.hasEdgeCells
  edges := m.edges
  left := m.left
  ring := m.ring
  pointData := m.pointData

/-- The boundary does not touch itself: no two boundary edges leave, or enter, the same point. -/
def Mesh.SimpleBoundary (m : Mesh P D) : Prop :=
  ∀ e e', m.IsBoundary e → m.IsBoundary e' → (e.1 = e'.1 → e = e') ∧ (e.2 = e'.2 → e = e')

end Verif
