import Verif.Model.Mesh
/-
The data at the points of a mesh.
-/
namespace Verif
variable {P D : Type}

/-- the data at point `v`, if there is some -/
def Mesh.pointDataAt (m : Mesh P D) (v : PId) : Option D := m.pointData.bind fun d => d.find? v

/-- the mesh with other data at its points -/
def Mesh.withPointData (m : Mesh P D) (d : Option (AMap D)) : Mesh P D := { m with pointData := d }

end Verif
