import Verif.Spec.Volume
/-
Cell data as labels of parts of a surface, or as densities on it.
-/
namespace Verif
variable {E P D M : Type} [NormedAddCommGroup E] [InnerProductSpace ℝ E]

/-- the triangles in container order, each with the data of its cell -/
def Mesh.labelled (m : Mesh P D) : List (Option D × Tri) :=
  m.cells.filterMap fun c => (Cell.tri? c.2).map fun t => (m.dataAt c.1, t)

/-- the part of the surface with the label `d`: the union of the filled triangles whose cells have the data `d`
(`none`: those without data) -/
def Mesh.region (m : Mesh E D) (d : Option D) : Set E :=
  {x | ∃ t, (d, t) ∈ m.labelled ∧ x ∈ convexHull ℝ {m.place t.1, m.place t.2.1, m.place t.2.2}}

/-- the sum of a quantity of triangles that depends on the data too; for instance the area of the cells with a certain label, or
the area times the data, for data that is a density -/
def Mesh.totalBy [AddMonoid M] (F : Option D → E → E → E → M) (m : Mesh E D) : M :=
  (m.labelled.map fun x => F x.1 (m.place x.2.1) (m.place x.2.2.1) (m.place x.2.2.2)).sum

end Verif
