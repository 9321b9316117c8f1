import Verif.Spec.Mixed
import Mathlib.Order.Defs.LinearOrder
/-
What the criteria look for.
-/
namespace Verif
variable {K P D : Type} [LinearOrder K]

/-- cell `k` is a triangle whose area is larger than `A` -/
def Mesh.TooLarge (m : Mesh P D) (area : P → P → P → K) (A : K) (k : CId) : Prop :=
  ∃ (t : Tri) (pa pb pc : P), (k, some t.cell) ∈ m.cells ∧ m.pos t.1 = some pa ∧ m.pos t.2.1 = some pb ∧
    m.pos t.2.2 = some pc ∧ A < area pa pb pc

/-- the ends of `e` are further apart than `L` -/
def Mesh.TooLong (m : Mesh P D) (len : P → P → K) (L : K) (e : Edge) : Prop :=
  ∃ p q : P, m.pos e.1 = some p ∧ m.pos e.2 = some q ∧ L < len p q

/-- the corners of the triangles exist -/
def Mesh.CornersExist (m : Mesh P D) : Prop := ∀ t ∈ m.tris, ∀ v ∈ t.verts, (m.pos v).isSome

/-- the ends of the edges exist -/
def Mesh.EndsExist (m : Mesh P D) : Prop := ∀ e ∈ m.edges, (m.pos e.1).isSome ∧ (m.pos e.2).isSome

end Verif
