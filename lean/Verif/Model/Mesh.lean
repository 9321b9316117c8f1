import Verif.Model.Basic
/-
The part of `itk::QuadEdgeMesh` that the filters of /repo use.  ITK is a dependency and its source is not in /repo;
this file is the *contract* of that dependency and belongs to the trusted base (see DESIGN.md).
-/
namespace Verif

abbrev PId := Nat
abbrev CId := Nat

/-- `QEType *`: a directed edge.  A QuadEdgeMesh never holds two edges between the same two points, so that a
non-null pointer handed out by the mesh is identified by (origin, destination). -/
abbrev Edge := PId × PId

/-- `QEType::GetSym()` -/
def Edge.sym (e : Edge) : Edge := (e.2, e.1)

/-- What `cell->GetType()` distinguishes in /repo. -/
inductive CellType where
  | polygon
  | other
  deriving DecidableEq, Repr

/-- A cell: `GetType()` and the ids between `PointIdsBegin()` and `PointIdsEnd()`. -/
structure Cell where
  type : CellType
  pts : List PId
  deriving DecidableEq, Repr

/-- The quad-edge ring structure: `GetOnext`, its inverse, and the edge stored in each point
(`QuadEdgeMeshPoint::GetEdge`, null for an isolated point). -/
structure Ring where
  onext : Edge → Option Edge
  oprev : Edge → Option Edge
  pointEdge : PId → Option Edge

/-- A QuadEdgeMesh.
* `points`   : `GetPoints()`
* `cells`    : `GetCells()` (the faces; a null cell pointer is `none`)
* `cellData` : `GetCellData()` (null container is `none`)
* `hasEdgeCells` : `GetEdgeCells()` is non-null
* `edges`    : the edge cells in container order, each given by `EdgeCellType::GetQEGeom()`
* `left`     : `QEType::GetLeft()` when `IsLeftSet()`
* `ring`     : the quad-edge rings
* `pointData` : `GetPointData()` (null container is `none`; its values are opaque to the filters, as those of `cellData`) -/
structure Mesh (P D : Type) where
  points : AMap P
  cells : AMap (Option Cell)
  cellData : Option (AMap D)
  hasEdgeCells : Bool
  edges : List Edge
  left : Edge → Option CId
  ring : Ring
  pointData : Option (AMap D) := none

namespace Mesh
variable {P D : Type}

/-- an output mesh as `ProcessObject::PrepareOutputs` (→ `QuadEdgeMesh::Initialize`) leaves it before `GenerateData` -/
def empty : Mesh P D where
  points := []
  cells := []
  cellData := none
  hasEdgeCells := true
  edges := []
  left := fun _ => none
  ring := ⟨fun _ => none, fun _ => none, fun _ => none⟩
  pointData := none

/-- there is an edge between the two end points of `e` -/
def hasEdge (m : Mesh P D) (e : Edge) : Bool :=
  m.edges.contains e || m.edges.contains e.sym

/-- `QuadEdgeMesh::FindEdge(pid0, pid1)`; null is `none` -/
def findEdge (m : Mesh P D) (x y : PId) : Option Edge :=
  if m.hasEdge (x, y) then some (x, y) else none

/-- `IsLeftSet()` -/
def leftSet (m : Mesh P D) (e : Edge) : Bool := (m.left e).isSome
/-- `IsRightSet()` -/
def rightSet (m : Mesh P D) (e : Edge) : Bool := (m.left e.sym).isSome
/-- `IsInternal()`: a face on both sides -/
def isInternal (m : Mesh P D) (e : Edge) : Bool := m.leftSet e && m.rightSet e
/-- `IsAtBorder()`: a face on exactly one side -/
def isAtBorder (m : Mesh P D) (e : Edge) : Bool := m.leftSet e != m.rightSet e

/-- `GetLnext()`; in the quad-edge algebra `Lnext = Sym; Oprev` -/
def lnext (m : Mesh P D) (e : Edge) : Option Edge := m.ring.oprev e.sym
/-- `GetLprev()`; `Lprev = Onext; Sym` -/
def lprev (m : Mesh P D) (e : Edge) : Option Edge := (m.ring.onext e).map Edge.sym
/-- `GetRprev()`; `Rprev = Sym; Onext` -/
def rprev (m : Mesh P D) (e : Edge) : Option Edge := m.ring.onext e.sym
/-- `GetRnext()`; `Rnext = Oprev; Sym` -/
def rnext (m : Mesh P D) (e : Edge) : Option Edge := (m.ring.oprev e).map Edge.sym

/-- `PointSet::GetPoint(id, &p)` (and `GetPoints()->ElementAt(id)`): an absent id leaves `p` unset. -/
def getPoint (m : Mesh P D) (id : PId) : Except Fail P :=
  match m.points.find? id with
  | some p => .ok p
  | none => .error (.ub .uninitRead)

/-- `edge->IsOriginInternal()` for the edge stored at point `v`, when there is one: `v` has edges and all of them
have a face on both sides, so that `AddEdge` finds "no room for a new edge in the Onext ring". -/
def closedAt (m : Mesh P D) (v : PId) : Bool :=
  let at_v := m.edges.filter (fun e => e.1 == v || e.2 == v)
  !at_v.isEmpty && at_v.all m.isInternal

/-- find-or-`AddEdge(x, y)`; the flag is false when `AddEdge` returned null -/
def ensureEdge (m : Mesh P D) (e : Edge) : Mesh P D × Bool :=
  if m.hasEdge e then (m, true)
  else if m.closedAt e.1 || m.closedAt e.2 then (m, false)
  else ({ m with edges := m.edges ++ [e] }, true)

/-- `QuadEdgeMesh::AddFace(entry)` for the triangle `a b c`: new cell id, cell inserted, left face set. -/
def pushFace (m : Mesh P D) (a b c : PId) : Mesh P D :=
  let fid := m.cells.nextKey
  { m with
    cells := m.cells.set fid (some ⟨.polygon, [a, b, c]⟩)
    left := fun e => if e = (a, b) ∨ e = (b, c) ∨ e = (c, a) then some fid else m.left e }

/-- `QuadEdgeMesh::AddFaceTriangle(a, b, c)`: null (`none`) when two ids coincide, when a point is missing, when one
of the three directed edges already has a left face, or when an edge has to be created at a point that is already
surrounded by faces (in that last case the edges created before it stay).  Otherwise the edge `a → b` with the new
face on its left. -/
def addFaceTriangle (m : Mesh P D) (a b c : PId) : Mesh P D × Option Edge :=
  if a = b ∨ b = c ∨ c = a then (m, none)
  else if !((m.points.find? a).isSome && (m.points.find? b).isSome && (m.points.find? c).isSome) then (m, none)
  else if m.leftSet (a, b) || m.leftSet (b, c) || m.leftSet (c, a) then (m, none)
  else
    match m.ensureEdge (a, b) with
    | (m1, false) => (m1, none)
    | (m1, true) =>
      match m1.ensureEdge (b, c) with
      | (m2, false) => (m2, none)
      | (m2, true) =>
        match m2.ensureEdge (c, a) with
        | (m3, false) => (m3, none)
        | (m3, true) => (m3.pushFace a b c, some (a, b))

/-- `Mesh::SetCellData(id, data)` -/
def setCellData (m : Mesh P D) (id : CId) (d : D) : Mesh P D :=
  { m with cellData := some ((m.cellData.getD []).set id d) }

/-- `PointSet::SetPoint(id, p)` -/
def setPoint (m : Mesh P D) (id : PId) (p : P) : Mesh P D :=
  { m with points := m.points.set id p }

end Mesh

/-- How ITK orders the edges around each point while faces are added (`Splice`, `ReorderOnextRingBeforeAddFace`) is
not modelled step by step.  It is a parameter: the rings that a mesh with given edges and faces ends up with.  Every
theorem that navigates a mesh produced by a filter states which law it needs of this parameter. -/
structure QELib where
  link : (edges : List Edge) → (left : Edge → Option CId) → (cells : AMap (Option Cell)) → Ring

end Verif
