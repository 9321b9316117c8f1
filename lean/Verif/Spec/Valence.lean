import Verif.Spec.Topology
/-
How many triangles meet at a point.
-/
namespace Verif
variable {P D : Type}

/-- the number of triangles with the corner `v` -/
def Mesh.valence (m : Mesh P D) (v : PId) : Nat := m.tris.countP fun t => v ∈ t.verts

/-- a boundary edge leaves `v` -/
def Mesh.OnBoundary (m : Mesh P D) (v : PId) : Prop := ∃ w, m.IsBoundary (v, w)

/-- `v` is a regular point: six triangles around it, or three at the boundary -/
def Mesh.Regular (m : Mesh P D) (v : PId) : Prop :=
  (m.OnBoundary v ∧ m.valence v = 3) ∨ (¬ m.OnBoundary v ∧ m.valence v = 6)

end Verif
