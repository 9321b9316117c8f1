import Verif.Model.Mesh
/-
Specification of valid triangle surfaces.  Nothing here refers to the filters.
-/
namespace Verif

/-- A triangle: its three point ids in order. -/
abbrev Tri := PId × PId × PId

namespace Tri

/-- the three directed edges of a triangle -/
def darts (t : Tri) : List Edge := [(t.1, t.2.1), (t.2.1, t.2.2), (t.2.2, t.1)]

/-- the three points of a triangle -/
def verts (t : Tri) : List PId := [t.1, t.2.1, t.2.2]

/-- the cell that stores the triangle -/
def cell (t : Tri) : Cell := ⟨.polygon, [t.1, t.2.1, t.2.2]⟩

end Tri

/-- all directed edges of a list of triangles -/
def dartsOf (T : List Tri) : List Edge := T.flatMap Tri.darts

/-- the triangle with corners `x y z` in this cyclic order is in the list -/
def HasTri (T : List Tri) (x y z : PId) : Prop := (x, y, z) ∈ T ∨ (y, z, x) ∈ T ∨ (z, x, y) ∈ T

/-- The triangles form an oriented surface, possibly with boundary. -/
structure GoodTris (T : List Tri) : Prop where
  /-- three different corners -/
  nondeg : ∀ t ∈ T, t.1 ≠ t.2.1 ∧ t.2.1 ≠ t.2.2 ∧ t.2.2 ≠ t.1
  /-- every directed edge belongs to at most one triangle: edge-manifold and consistently oriented -/
  oriented : (dartsOf T).Nodup
  /-- no two triangles on the same three points -/
  simplicial : ∀ t ∈ T, ∀ t' ∈ T, (∀ v, v ∈ t.verts → v ∈ t'.verts) → t = t'
  /-- around each point `v`: write the triangles at `v` as arrows `x ⟶ y` for `v x y`.  If a non-empty set `A` of
  arrows is such that each of them has a successor and a predecessor in `A` (a closed fan around `v`), then `A` is
  everything at `v`. -/
  fans : ∀ (v : PId) (A : PId → PId → Prop), (∀ x y, A x y → HasTri T v x y) → (∃ x y, A x y) →
    (∀ x y, A x y → (∃ w, A w x) ∧ ∃ w, A y w) → ∀ x y, HasTri T v x y → A x y

/-- the point ids of a triangle cell -/
def Cell.tri? : Option Cell → Option Tri
  | some ⟨.polygon, [a, b, c]⟩ => some (a, b, c)
  | _ => none

namespace Mesh
variable {P D : Type}

/-- the triangles of a mesh in container order -/
def tris (m : Mesh P D) : List Tri := m.cells.filterMap fun c => Cell.tri? c.2

/-- the coordinates of a point -/
def pos (m : Mesh P D) (v : PId) : Option P := m.points.find? v

/-- the data of a cell -/
def dataAt (m : Mesh P D) (k : CId) : Option D := m.cellData.bind fun d => d.find? k

/-- A valid triangle mesh: points numbered `0 … n-1`, cells that are triangles on existing points, forming an
oriented surface, and edge records that are exactly the edges of these triangles. -/
structure Valid (m : Mesh P D) : Prop where
  points_dense : m.points.map Prod.fst = List.range m.points.length
  cells_sorted : (m.cells.map Prod.fst).Pairwise (· < ·)
  cells_tri : ∀ c ∈ m.cells, ∃ t : Tri, c.2 = some t.cell ∧ ∀ v ∈ t.verts, v < m.points.length
  good : GoodTris m.tris
  left_iff : ∀ e k, m.left e = some k ↔ ∃ t : Tri, (k, some t.cell) ∈ m.cells ∧ e ∈ t.darts
  edges_iff : ∀ e, (e ∈ m.edges ∨ e.sym ∈ m.edges) ↔ (e ∈ dartsOf m.tris ∨ e.sym ∈ dartsOf m.tris)
  edges_once : m.edges.Pairwise fun e e' => e ≠ e' ∧ e ≠ e'.sym
  has_edge_cells : m.hasEdgeCells = true

/-- every point belongs to a triangle -/
def NoIsolated (m : Mesh P D) : Prop := ∀ v, v < m.points.length → ∃ t ∈ m.tris, v ∈ t.verts

/-- `e` is an edge of the mesh, in one direction or the other -/
def IsEdge (m : Mesh P D) (e : Edge) : Prop := e ∈ m.edges ∨ e.sym ∈ m.edges

/-- `k`-fold `Onext` -/
def onextIter (m : Mesh P D) : Nat → Edge → Option Edge
  | 0, e => some e
  | k + 1, e => (m.onextIter k e).bind m.ring.onext

/-- The quad-edge ring laws: `Onext` and `Oprev` are inverse to each other on the edges leaving a point, `Onext` visits
all of them, it turns around the corners of faces, and each point that has edges stores one of its edges. -/
structure RingOK (m : Mesh P D) : Prop where
  onext_some : ∀ e, m.IsEdge e → ∃ e', m.ring.onext e = some e' ∧ m.IsEdge e' ∧ e'.1 = e.1
  oprev_iff : ∀ e e', m.IsEdge e → m.IsEdge e' → (m.ring.oprev e' = some e ↔ m.ring.onext e = some e')
  one_ring : ∀ e e', m.IsEdge e → m.IsEdge e' → e.1 = e'.1 → ∃ k, m.onextIter k e = some e'
  face : ∀ x y z, HasTri m.tris x y z → m.ring.onext (x, y) = some (x, z)
  point_edge : ∀ v e, m.ring.pointEdge v = some e → m.IsEdge e ∧ e.1 = v
  point_edge_some : ∀ e, m.IsEdge e → (m.ring.pointEdge e.1).isSome

end Mesh

/-- The library links rings that obey the laws, for every valid mesh. -/
def QELib.Lawful (lib : QELib) : Prop :=
  ∀ (P D : Type) (m : Mesh P D), m.Valid →
    Mesh.RingOK { m with ring := lib.link m.edges m.left m.cells }

end Verif
