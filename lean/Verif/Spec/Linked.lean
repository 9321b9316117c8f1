import Verif.Spec.FaceSplit
import Mathlib.Logic.Relation
/-
The pieces a mesh falls into.
-/
namespace Verif
variable {P D : Type}

/-- `w` can be reached from `v` through triangles with common points -/
def Mesh.Linked (m : Mesh P D) : PId → PId → Prop :=
  Relation.ReflTransGen fun v w => ∃ t ∈ m.tris, v ∈ t.verts ∧ w ∈ t.verts

/-- `out` falls into the same pieces as `inp`: the points of `inp` are linked in `out` as they are in `inp`, and each triangle
of `out` belongs to the piece of a triangle of `inp` -/
structure SamePieces (inp out : Mesh P D) : Prop where
  linked : ∀ v w, v < inp.points.length → w < inp.points.length → (out.Linked v w ↔ inp.Linked v w)
  of_old : ∀ d ∈ out.tris, ∃ t ∈ inp.tris, ∀ v ∈ t.verts, ∀ x ∈ d.verts, out.Linked v x

end Verif
