import Verif.Spec.Run
/-
Meshes that may contain cells that are not triangles.
-/
namespace Verif
variable {P D : Type}

/-- every cell is a triangle -/
def Mesh.AllTriangles (m : Mesh P D) : Prop := ∀ c ∈ m.cells, (Cell.tri? c.2).isSome

/-- A mesh whose cells are polygons of any kind: no null cells, the edges of a triangle are recorded and know their face,
and edges end at existing points.  (Every valid triangle mesh is of this kind.) -/
structure Mesh.Mixed (m : Mesh P D) : Prop where
  cells_some : ∀ c ∈ m.cells, c.2.isSome
  tri_edge : ∀ t ∈ m.tris, ∀ e ∈ t.darts, m.IsEdge e ∧ m.leftSet e = true
  edge_pos : ∀ e, m.IsEdge e → (m.pos e.1).isSome

/-- What a run of a filter asks of a mesh that need not consist of triangles: the schemes that navigate it need the ring
laws, and Loop needs every point to have an edge. -/
structure Scheme.MixedNeeds (sch : Scheme) (m : Mesh P D) : Prop where
  mixed : m.Mixed
  ring : sch = .loop ∨ sch = .butterfly → m.RingOK
  noIsolated : sch = .loop → ∀ v, (m.pos v).isSome → ∃ w, m.IsEdge (v, w)

end Verif
