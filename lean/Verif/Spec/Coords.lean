import Verif.Spec.Sqrt3
/-
Meshes up to the numbering of their points.
-/
namespace Verif
variable {P D : Type}

/-- the triangles of a mesh as triples of positions, in container order -/
def Mesh.coordTris (m : Mesh P D) : List (Option P × Option P × Option P) :=
  m.tris.map fun t => (m.pos t.1, m.pos t.2.1, m.pos t.2.2)

/-- a triangle with other point ids -/
def Tri.rename (ρ : PId → PId) (t : Tri) : Tri := (ρ t.1, ρ t.2.1, ρ t.2.2)

/-- a directed edge with other point ids -/
def Edge.rename (ρ : PId → PId) (e : Edge) : Edge := (ρ e.1, ρ e.2)

/-- `m'` has the cells of `m` under other point ids: cell by cell the same triangles at the same places.  Points of `m`
that belong to no triangle need not be in `m'`, and the other way round. -/
structure Renamed (ρ : PId → PId) (m m' : Mesh P D) : Prop where
  cells : m'.cells = m.cells.map fun c => (c.1, c.2.map fun x => ⟨x.type, x.pts.map ρ⟩)
  inj : ∀ t ∈ m.tris, ∀ t' ∈ m.tris, ∀ v ∈ t.verts, ∀ w ∈ t'.verts, ρ v = ρ w → v = w
  pos : ∀ t ∈ m.tris, ∀ v ∈ t.verts, m'.pos (ρ v) = m.pos v

/-- the rings of `m'` are those of `m` under other point ids -/
def RingRenamed (ρ : PId → PId) (m m' : Mesh P D) : Prop :=
  ∀ e, m.IsEdge e → m'.ring.onext (Edge.rename ρ e) = (m.ring.onext e).map (Edge.rename ρ)

/-- ids below `n` renamed by `ρ`, the ids from `n` on moved to `n'` and beyond -/
def extendId (n n' : Nat) (ρ : PId → PId) (v : PId) : PId := if v < n then ρ v else n' + (v - n)

/-- the point belongs to no triangle -/
def Mesh.Isolated (m : Mesh P D) (v : PId) : Prop := v < m.points.length ∧ ∀ t ∈ m.tris, v ∉ t.verts

end Verif
