import Verif.Spec.Affine
/-
A mesh without the coordinates of its points.
-/
namespace Verif
variable {P D : Type}

/-- the mesh with all coordinates forgotten: point ids, cells, cell data, edges, left faces and rings remain -/
def Mesh.shape (m : Mesh P D) : Mesh Unit D := m.mapPoints fun _ => ()

end Verif
