import Verif.Spec.Affine
import Verif.Spec.Run
import Verif.Model.Drivers
/-
Specification of what the user sees of a mesh, apart from the links that the mesh library keeps between the edges.
-/
namespace Verif
variable {P D : Type}

/-- the mesh without its links: points, cells, data, edges and left faces are those of `m` -/
def Mesh.forgetRings (m : Mesh P D) : Mesh P D := { m with ring := ⟨fun _ => none, fun _ => none, fun _ => none⟩ }

/-- the meshes differ in their links at most -/
def SameButRings (m m' : Mesh P D) : Prop := m'.forgetRings = m.forgetRings

/-- two outcomes that differ in the links of the mesh at most: the same failure, or the same mesh -/
def SameOutcome (r r' : Except Fail (Mesh P D)) : Prop := r'.map Mesh.forgetRings = r.map Mesh.forgetRings

/-- filter objects with the same settings (the table of edge points is cleared by every run) -/
structure SameSettings (f g : Filt) : Prop where
  cells : g.cells = f.cells
  edgeSel : g.edgeSel = f.edgeSel
  uniform : g.uniform = f.uniform

/-- the links are determined by the rest of the mesh wherever the Butterfly rule reads them -/
def Scheme.RingsForced (sch : Scheme) (m : Mesh P D) : Prop := sch = .butterfly → m.SimpleBoundary

end Verif
