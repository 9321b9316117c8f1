import Verif.Spec.Coords
import Mathlib.Algebra.Module.Defs
import Mathlib.Algebra.Field.Defs
/-
Meshes whose point ids have gaps, as left behind by deletions.
-/
namespace Verif
variable {P D : Type}

/-- A valid triangle mesh (`Mesh.Valid`) but for the numbering of its points: any increasing sequence of ids. -/
structure Mesh.GapValid (m : Mesh P D) : Prop where
  points_sorted : (m.points.map Prod.fst).Pairwise (· < ·)
  cells_sorted : (m.cells.map Prod.fst).Pairwise (· < ·)
  cells_tri : ∀ c ∈ m.cells, ∃ t : Tri, c.2 = some t.cell ∧ ∀ v ∈ t.verts, (m.pos v).isSome
  good : GoodTris m.tris
  left_iff : ∀ e k, m.left e = some k ↔ ∃ t : Tri, (k, some t.cell) ∈ m.cells ∧ e ∈ t.darts
  edges_iff : ∀ e, (e ∈ m.edges ∨ e.sym ∈ m.edges) ↔ (e ∈ dartsOf m.tris ∨ e.sym ∈ dartsOf m.tris)
  edges_once : m.edges.Pairwise fun e e' => e ≠ e' ∧ e ≠ e'.sym
  has_edge_cells : m.hasEdgeCells = true

/-- the point ids together with the first `n` numbers, `n` the number of points, are the numbers below `N` -/
def Mesh.GapsBelow (m : Mesh P D) (N : Nat) : Prop := ∀ v, v < N ↔ v < m.points.length ∨ (m.pos v).isSome

/-- the mesh with the ids below `N` that are not taken put at the origin -/
def Mesh.fill [Zero P] (m : Mesh P D) (N : Nat) : Mesh P D :=
  { m with points := (List.range N).map fun v => (v, (m.pos v).getD 0) }

/-- `N` is the number of different ids among the point ids and the first `n` numbers, and `v` is the smallest point id that
is not below `N` -/
structure Mesh.Clash (m : Mesh P D) (N v : Nat) : Prop where
  count : N = m.points.length + (m.points.filter fun kp => decide (m.points.length ≤ kp.1)).length
  mem : (m.pos v).isSome
  le : N ≤ v
  least : ∀ w, N ≤ w → w < v → m.pos w = none

/-- `p` is the middle of the edge -/
def Mesh.IsMiddle (K : Type) [Field K] [Zero P] [Add P] [SMul K P] (m : Mesh P D) (e : Edge) (p : P) : Prop :=
  ∃ a b, m.pos e.1 = some a ∧ m.pos e.2 = some b ∧ p = (1 / 2 : K) • (a + b)

/-- `p` is the centroid of the triangle -/
def Mesh.IsCentroid (K : Type) [Field K] [Zero P] [Add P] [SMul K P] (m : Mesh P D) (t : Tri) (p : P) : Prop :=
  ∃ a b c, m.pos t.1 = some a ∧ m.pos t.2.1 = some b ∧ m.pos t.2.2 = some c ∧ p = (1 / 3 : K) • (a + b + c)

end Verif
