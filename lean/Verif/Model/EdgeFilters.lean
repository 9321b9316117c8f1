import Verif.Model.Schemes
/-
The edge filters: itkTriangleEdgeCellSubdivisionQuadEdgeMeshFilter.{h,hxx} and its Linear, Loop and
ModifiedButterfly subclasses.  `GenerateOutputCells` is inherited from the cell filter.
-/
namespace Verif
variable {K P Q D : Type} [Field K] [Zero P] [Add P] [SMul K P]

/-- `AddNewEdgePoints` of the three edge schemes: itkLinearTriangleEdgeCell….hxx:26-45, itkLoopTriangleEdgeCell….hxx:28-101,
itkModifiedButterflyTriangleEdgeCell….hxx:26-120.  There is no test whether the edge already has a point. -/
def addNewEdgePoint (np : Edge → Except Fail P) (e : Edge) : M P D Unit :=
  Prog.bind (Prog.lift (np e)) fun p =>
  Prog.bind numberOfPoints fun n =>
  Prog.bind (setEpi e n) fun _ =>
  Prog.bind (setEpi e.sym n) fun _ =>
  modifyOut fun o => o.setPoint n p

/-- midpoint of the two end points, itkLinearTriangleEdgeCell….hxx:30-36 -/
def linearPoint (K : Type) {P D : Type} [Field K] [Zero P] [Add P] [SMul K P]
    (inp : Mesh P D) (e : Edge) : Except Fail P := do
  let p0 ← inp.getPoint e.1
  let p1 ← inp.getPoint e.2
  .ok (midPoint K p0 p1)

/-- `TriangleEdgeCell…::GenerateOutputPoints`, itkTriangleEdgeCell….hxx:48-91.  (An entry of the edge cells container
is always an `EdgeCellType`, so that the `dynamic_cast` at line 69 succeeds.) -/
def edgeOutputPoints (copy : M Q D Unit) (addNew : Edge → M Q D Unit) (inp : Mesh P D) : M Q D Unit :=
  Prog.bind copy fun _ =>
  Prog.bind (modifyFilt fun f => { f with epi := fun _ => none }) fun _ =>
  Prog.bind (modifyFilt fun f => { f with uniform := f.edgeSel.isEmpty }) fun _ =>
  fun s =>
    if s.filt.uniform then
      if inp.hasEdgeCells then Prog.forEach addNew inp.edges s
      else (.error (.exc .noEdges), s)
    else
      Prog.forEach (fun oe =>
        match oe with
        | some e => addNew e
        | none => Prog.pure ()) s.filt.edgeSel s

/-- The walk of itkLoopTriangleEdgeCell….hxx:116-132 around one point.  `q0`, `q1` are `qter0`, `qter1`.  It ends when
`qter1` is back at `edge` or when `qter0` is a selected edge; `copyFlag` is true in both cases, since line 127 comes
after the `break`. -/
def loopEdgeWalk (m : Mesh P D) (sel : List (Option Edge)) (start : Edge) : Nat → Edge → Option Edge → Except Fail Bool
  | 0, _, _ => .error .hang
  | n + 1, q0, q1 =>
    if q1 = some start then .ok true
    else if sel.contains (some q0) then .ok true
    else
      match q1 with
      | none => .error (.ub .nullDeref)
      | some q => loopEdgeWalk m sel start n q (m.ring.onext q)

/-- The point `AverageOriginOfEdge` would write, itkLoopTriangleEdgeCell….hxx:150-199 (same weights as
`SmoothingPoint`, around `edge->GetOrigin()`). -/
def averageOrigin (cosn : Nat → K) (inp : Mesh P D) (e : Edge) : Except Fail P := do
  let ipt ← inp.getPoint e.1
  let r ← ringAt inp e
  let opt ← sumDest inp r
  let border := r.filter inp.isAtBorder
  let bpt ← sumDest inp border
  if border.length ≠ 0 then .ok ((3 / 4 : K) • ipt + (1 / 8 : K) • bpt)
  else
    let beta := loopBeta cosn r.length
    .ok ((1 - (r.length : K) * beta) • ipt + beta • opt)

/-- The value written for one point, itkLoopTriangleEdgeCell….hxx:116-143. -/
def loopEdgeValue (cosn : Nat → K) (inp : Mesh P D) (sel : List (Option Edge)) (pid : PId) (p : P) : Except Fail P :=
  match inp.ring.pointEdge pid with
  | none => .error (.ub .nullDeref)
  | some e => do
    let copyFlag ← loopEdgeWalk inp sel e (2 * inp.edges.length + 1) e (inp.ring.onext e)
    if copyFlag then .ok p else averageOrigin cosn inp e

/-- `LoopTriangleEdgeCell…::CopyInputMeshToOutputMeshPoints`, itkLoopTriangleEdgeCell….hxx:105-146.  (The `else`
branch writes at `edge->GetOrigin()`, which is the point itself.) -/
def loopEdgeCopy (cosn : Nat → K) (inp : Mesh P D) : M P D Unit :=
  Prog.bind (modifyOut fun o => { o with points := o.points.reserve inp.points.length 0 }) fun _ =>
  fun s => writePoints (loopEdgeValue cosn inp s.filt.edgeSel) inp.points s

inductive EdgeScheme where
  | linear
  | loop
  | butterfly
  deriving DecidableEq, Repr

/-- `GenerateData` of each edge filter -/
def edgeGenerate (sch : EdgeScheme) (cosn : Nat → K) (inp : Mesh P D) : M P D Unit :=
  match sch with
  | .linear =>
    generateData (edgeOutputPoints (copyPoints inp) (addNewEdgePoint (linearPoint K inp)) inp)
      (generateOutputCells inp)
  | .loop =>
    generateData (edgeOutputPoints (loopEdgeCopy cosn inp) (addNewEdgePoint (loopPoint K inp)) inp)
      (generateOutputCells inp)
  | .butterfly =>
    generateData (edgeOutputPoints (copyPoints inp) (addNewEdgePoint (butterflyPoint K inp)) inp)
      (generateOutputCells inp)

/-- `filter->SetInput(inp); filter->Update();` for an edge filter with members `f` -/
def edgeUpdate (sch : EdgeScheme) (lib : QELib) (cosn : Nat → K) (f : Filt) (inp : Mesh P D) :
    Except Fail (Mesh P D) × Filt :=
  runFilter lib (edgeGenerate sch cosn inp) f

end Verif
