import Verif.Spec.Criteria
/-
Triangles that are too large.
-/
namespace Verif
variable {K P D : Type} [LinearOrder K]

/-- the triangle has more than the area `A` -/
def Mesh.BigTri (m : Mesh P D) (area : P → P → P → K) (A : K) (t : Tri) : Prop :=
  ∃ pa pb pc : P, m.pos t.1 = some pa ∧ m.pos t.2.1 = some pb ∧ m.pos t.2.2 = some pc ∧ A < area pa pb pc

end Verif
