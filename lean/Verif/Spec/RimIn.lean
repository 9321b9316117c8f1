import Verif.Spec.Topology
import Mathlib.Logic.Relation
/-
The places of a boundary curve, for C80.
-/
namespace Verif
variable {P D : Type}

/-- `v` and `w` are the ends of a boundary edge -/
def Mesh.RimLink (m : Mesh P D) (v w : PId) : Prop := m.IsBoundary (v, w) ∨ m.IsBoundary (w, v)

/-- one comes from `v` to `w` along the boundary -/
def Mesh.SameRim (m : Mesh P D) : PId → PId → Prop := Relation.ReflTransGen m.RimLink

/-- `v` is on the boundary, and all points of its boundary curve lie in `C` -/
def Mesh.RimIn (m : Mesh P D) (C : Set P) (v : PId) : Prop :=
  (∃ w, m.RimLink v w) ∧ ∀ w p, m.SameRim v w → m.pos w = some p → p ∈ C

end Verif
