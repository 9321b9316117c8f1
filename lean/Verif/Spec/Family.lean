import Verif.Spec.Labels
/-
Which output cells are the pieces of which input cell, told by their places in the container.
-/
namespace Verif
variable {E P D : Type} [NormedAddCommGroup E] [InnerProductSpace ℝ E]

/-- the `k`-th triangle of the list is the cell with the id `k` -/
def Mesh.ById (m : Mesh P D) : Prop :=
  ∀ k x, m.labelled[k]? = some x ↔ (k, some x.2.cell) ∈ m.cells ∧ x.1 = m.dataAt k

/-- `par` assigns to each output cell an input cell with the same data, in the same order, and every input cell has pieces -/
structure Mesh.Family (par : Nat → Nat) (inp out : Mesh P D) : Prop where
  parent : ∀ k x, out.labelled[k]? = some x → ∃ y, inp.labelled[par k]? = some y ∧ x.1 = y.1
  onto : ∀ i y, inp.labelled[i]? = some y → ∃ k x, out.labelled[k]? = some x ∧ par k = i
  mono : ∀ k k', k ≤ k' → par k ≤ par k'

/-- the filled triangle -/
def Mesh.filledTri (m : Mesh E D) (t : Tri) : Set E := convexHull ℝ {m.place t.1, m.place t.2.1, m.place t.2.2}

/-- every input triangle is exactly the union of the output triangles assigned to it -/
def Mesh.MadeOf (par : Nat → Nat) (inp out : Mesh E D) : Prop :=
  ∀ i y, inp.labelled[i]? = some y → ∀ x : E, x ∈ inp.filledTri y.2 ↔
    ∃ k z, out.labelled[k]? = some z ∧ par k = i ∧ x ∈ out.filledTri z.2

end Verif
