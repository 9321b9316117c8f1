import Verif.Spec.Surface
import Mathlib.LinearAlgebra.AffineSpace.AffineSubspace.Basic
/-
Flat meshes.
-/
namespace Verif
variable {K P D : Type} [Field K] [AddCommGroup P] [Module K P]

/-- all points lie in `S`: in a point, on a line, in a plane -/
def Mesh.FlatIn (m : Mesh P D) (S : AffineSubspace K P) : Prop := ∀ v p, m.pos v = some p → p ∈ S

/-- twice the area of a triangle of the plane, seen from above; negative if its corners run clockwise -/
def signedArea (p q r : K × K × K) : K := (q.1 - p.1) * (r.2.1 - p.2.1) - (q.2.1 - p.2.1) * (r.1 - p.1)

/-- twice the area of a mesh over the plane -/
def Mesh.signedArea (m : Mesh (K × K × K) D) : K :=
  (m.tris.map fun t => Verif.signedArea ((m.pos t.1).getD 0) ((m.pos t.2.1).getD 0) ((m.pos t.2.2).getD 0)).sum

end Verif
