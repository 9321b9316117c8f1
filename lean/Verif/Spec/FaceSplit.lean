import Verif.Spec.Surface
/-
Specification of the face split: how a triangle is cut when some of its edges carry a new point.
-/
namespace Verif

/-- The triangles that replace the triangle `a b c` when `μ e` is the new point on edge `e`, if there is one.
No new point: the triangle.  One: two triangles.  Two: three.  Three: the three corners and the middle triangle. -/
def Tri.children (μ : Edge → Option PId) (t : Tri) : List Tri :=
  let a := t.1
  let b := t.2.1
  let c := t.2.2
  match μ (a, b), μ (b, c), μ (c, a) with
  | none, none, none => [(a, b, c)]
  | some m0, none, none => [(m0, b, c), (m0, c, a)]
  | none, some m1, none => [(m1, c, a), (m1, a, b)]
  | none, none, some m2 => [(m2, a, b), (m2, b, c)]
  | some m0, some m1, none => [(c, a, m0), (c, m0, m1), (m0, b, m1)]
  | some m0, none, some m2 => [(b, c, m0), (c, m2, m0), (m2, a, m0)]
  | none, some m1, some m2 => [(a, b, m1), (a, m1, m2), (m1, c, m2)]
  | some m0, some m1, some m2 => [(a, m0, m2), (m0, b, m1), (m1, c, m2), (m0, m1, m2)]

/-- `μ` names new points for some edges: both directions of an edge have the same name, different edges have
different names, and names are not points of the triangles. -/
structure Labelling (T : List Tri) (μ : Edge → Option PId) : Prop where
  sym : ∀ e : Edge, μ e.sym = μ e
  fresh : ∀ e m, μ e = some m → ∀ t ∈ T, m ∉ t.verts
  inj : ∀ (e e' : Edge) m, μ e = some m → μ e' = some m → e' = e ∨ e' = e.sym

/-- The new point of edge `e` when the edges `es` receive the new points `n, n+1, …` in this order. -/
def labelOf (n : Nat) (es : List Edge) (e : Edge) : Option PId :=
  (es.findIdx? (fun e' => e' == e || e' == e.sym)).map (n + ·)

variable {P D : Type}

/-- the triangle stored under a cell id -/
def Mesh.triAt (m : Mesh P D) (k : CId) : Option Tri := (m.cells.find? k).bind Cell.tri?

/-- the triangles that a cell filter with selection `sel` subdivides: all of them when nothing is selected -/
def Mesh.selected (m : Mesh P D) (sel : List CId) : List Tri :=
  if sel.isEmpty then m.tris else sel.filterMap m.triAt

/-- every selected id is the id of a cell -/
def Mesh.SelOK (m : Mesh P D) (sel : List CId) : Prop := ∀ k ∈ sel, k ∈ m.cells.map Prod.fst

/-- the edges that an edge filter with the list `sel` splits: all of them when the list is empty -/
def Mesh.selectedEdges (m : Mesh P D) (sel : List (Option Edge)) : List Edge :=
  if sel.isEmpty then m.edges else sel.filterMap id

/-- every listed edge is an edge of the mesh -/
def Mesh.EdgeSelOK (m : Mesh P D) (sel : List (Option Edge)) : Prop := ∀ e, some e ∈ sel → m.IsEdge e

/-- append an edge unless it is listed already, in either direction -/
def addEdgeTo (E : List Edge) (e : Edge) : List Edge :=
  if E.contains e || E.contains e.sym then E else E ++ [e]

/-- the edges of a list of triangles, each once, in the order in which they are first met -/
def edgeList (T : List Tri) : List Edge := (dartsOf T).foldl addEdgeTo []

/-- The point that a cell filter with selection `sel` inserts on edge `e`, if any: the edges of the subdivided triangles
receive the ids `n, n+1, …`, `n` being the number of input points. -/
def Mesh.edgePoint (m : Mesh P D) (sel : List CId) : Edge → Option PId :=
  labelOf m.points.length (edgeList (m.selected sel))

/-- new points for a list given in reverse order -/
def lastLabelRev (n : Nat) : List Edge → Edge → Option PId
  | [], _ => none
  | e' :: r, e => if e' = e ∨ e' = e.sym then some (n + r.length) else lastLabelRev n r e

/-- the new point of an edge when each entry of a list gets a point, later entries overriding earlier ones -/
def lastLabel (n : Nat) (es : List Edge) : Edge → Option PId := lastLabelRev n es.reverse

/-- The point that an edge filter with the list `sel` inserts on edge `e`, if any. -/
def Mesh.listPoint (m : Mesh P D) (sel : List (Option Edge)) : Edge → Option PId :=
  lastLabel m.points.length (m.selectedEdges sel)

/-- no edge is listed twice, in either direction -/
def DistinctEdges (es : List Edge) : Prop := es.Pairwise fun e e' => e ≠ e' ∧ e ≠ e'.sym

end Verif
