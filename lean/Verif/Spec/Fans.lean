import Verif.Spec.Valence
import Verif.Spec.FaceSplit
/-
Triangles beside the part of a mesh that is refined.
-/
namespace Verif
variable {P D : Type}

/-- the edge belongs to a cell that is subdivided -/
def Mesh.SelEdge (m : Mesh P D) (sel : List CId) (e : Edge) : Prop :=
  e ∈ dartsOf (m.selected sel) ∨ e.sym ∈ dartsOf (m.selected sel)

instance (m : Mesh P D) (sel : List CId) (e : Edge) : Decidable (m.SelEdge sel e) :=
  inferInstanceAs (Decidable (_ ∨ _))

/-- the side opposite the corner `v` belongs to a cell that is subdivided -/
def Mesh.Opposite (m : Mesh P D) (sel : List CId) (v : PId) (t : Tri) : Prop :=
  v ∈ t.verts ∧ ∃ e ∈ t.darts, v ≠ e.1 ∧ v ≠ e.2 ∧ m.SelEdge sel e

instance (m : Mesh P D) (sel : List CId) (v : PId) (t : Tri) : Decidable (m.Opposite sel v t) :=
  inferInstanceAs (Decidable (_ ∧ _))

/-- the number of triangles at `v` whose side opposite `v` belongs to a cell that is subdivided -/
def Mesh.beside (m : Mesh P D) (sel : List CId) (v : PId) : Nat := m.tris.countP fun t => m.Opposite sel v t

/-- `v` is a corner of a triangle, but not of one that is subdivided -/
def Mesh.Outside (m : Mesh P D) (sel : List CId) (v : PId) : Prop :=
  (∃ t ∈ m.tris, v ∈ t.verts) ∧ ∀ t ∈ m.selected sel, v ∉ t.verts

end Verif
