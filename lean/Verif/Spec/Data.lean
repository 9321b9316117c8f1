import Verif.Model.Mesh
/-
The data on the cells of a mesh, and the mesh without it.
-/
namespace Verif
variable {P D E : Type}

/-- the mesh with all its data (on cells and at points) replaced by what `g` makes of them, maybe of another type -/
def Mesh.mapData (g : D → E) (m : Mesh P D) : Mesh P E where
  points := m.points
  cells := m.cells
  cellData := m.cellData.map fun a => a.map fun kd => (kd.1, g kd.2)
  hasEdgeCells := m.hasEdgeCells
  edges := m.edges
  left := m.left
  ring := m.ring
  pointData := m.pointData.map fun a => a.map fun kd => (kd.1, g kd.2)

/-- the mesh without data -/
def Mesh.noData (m : Mesh P D) : Mesh P Unit where
  points := m.points
  cells := m.cells
  cellData := none
  hasEdgeCells := m.hasEdgeCells
  edges := m.edges
  left := m.left
  ring := m.ring
  pointData := none

end Verif
