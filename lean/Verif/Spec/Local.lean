import Verif.Spec.FaceSplit
/-
Specification for locality: triangles away from the selected ones.
-/
namespace Verif
variable {P D : Type}

/-- `t` has no edge in common with any triangle of `S` -/
def Tri.Apart (t : Tri) (S : List Tri) : Prop := ∀ s ∈ S, ∀ e ∈ s.darts, e ∉ t.darts ∧ e.sym ∉ t.darts

/-- some cell of the mesh is the triangle `t` and has the data `d` -/
def Mesh.HasCell (m : Mesh P D) (t : Tri) (d : Option D) : Prop := ∃ k, (k, some t.cell) ∈ m.cells ∧ m.dataAt k = d

end Verif
