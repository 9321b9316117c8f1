import Verif.Spec.Shape
import Verif.Spec.Run
/-
How far the filters look: distances along the edges of the input mesh, and the input points an output point belongs to.
-/
namespace Verif
variable {P D : Type}

/-- there is a path of at most `k` edges from `v` to `w` -/
def Mesh.Within (m : Mesh P D) : Nat → PId → PId → Prop
  | 0, v, w => v = w
  | k + 1, v, w => v = w ∨ ∃ u, m.IsEdge (v, u) ∧ m.Within k u w

/-- how many edges a scheme looks around the points it works on: Linear and SquareThree not at all, Loop at the neighbours,
Butterfly at the neighbours of the neighbours -/
def Scheme.reach : Scheme → Nat
  | .linear => 0
  | .loop => 1
  | .butterfly => 2
  | .sqrt3 => 0

/-- The input points that the point `v` belongs to when `μ` names the new points on the edges: an original point to itself, a
new point to the two ends of its edge. -/
def Mesh.BelongsTo (m : Mesh P D) (μ : Edge → Option PId) (v u : PId) : Prop :=
  (v < m.points.length ∧ u = v) ∨ ∃ e, μ e = some v ∧ (u = e.1 ∨ u = e.2)

/-- For SquareThree a new point belongs to the three corners of its triangle: the selected triangles get the ids
`n, n+1, …`. -/
def Mesh.CentreOf (m : Mesh P D) (sel : List CId) (v u : PId) : Prop :=
  (v < m.points.length ∧ u = v) ∨ ∃ i t, (m.selected sel)[i]? = some t ∧ v = m.points.length + i ∧ u ∈ t.verts

/-- the input points that the output point `v` of one run belongs to -/
def Scheme.Anchor (sch : Scheme) (m : Mesh P D) (sel : List CId) (v u : PId) : Prop :=
  match sch with
  | .sqrt3 => m.CentreOf sel v u
  | _ => m.BelongsTo (m.edgePoint sel) v u

/-- By how much the reach grows with every level.  (SquareThree flips edges: a triangle of the output lies in two triangles of
the input.) -/
def Scheme.spread : Scheme → Nat
  | .sqrt3 => 1
  | sch => sch.reach

/-- the two meshes are the same apart from positions, and agree on the positions of the points in `A` -/
structure AgreeOn (A : PId → Prop) (m m' : Mesh P D) : Prop where
  shape : m'.shape = m.shape
  pos : ∀ w, A w → m'.pos w = m.pos w

/-- the mesh with the point `w` moved to `p` -/
def Mesh.moved (m : Mesh P D) (w : PId) (p : P) : Mesh P D :=
  { m with points := m.points.map fun x => if x.1 = w then (w, p) else x }

end Verif
