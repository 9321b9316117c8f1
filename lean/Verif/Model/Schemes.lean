import Verif.Model.CellFilter
/-
The four cell schemes: Linear, Loop, ModifiedButterfly, SquareThree (`…TriangleCellSubdivisionQuadEdgeMeshFilter`).
-/
namespace Verif
variable {K P Q D : Type} [Field K] [Zero P] [Add P] [SMul K P]

/-- `Point::SetToMidPoint` (ITK): `(a[i] + b[i]) / 2` -/
def midPoint (K : Type) {P : Type} [Field K] [Zero P] [Add P] [SMul K P] (a b : P) : P := (1 / 2 : K) • (a + b)

/-- `this->GetOutput()->GetPoint(id, &p)` -/
def getOutPoint (id : PId) : M P D P := fun s => (s.out.getPoint id, s)

/-- One iteration `ii` of the loop over the three edges shared by the three face-split schemes:
itkLinearTriangleCell….hxx:50-69, itkLoopTriangleCell….hxx:53-123, itkModifiedButterflyTriangleCell….hxx:53-144.
`np` computes the new point, `n` is the local `numberOfPoints`.  For a null edge `IndexExists` is false and the edge
is then dereferenced (Linear: line 64; Loop: line 61; Butterfly: line 67). -/
def addEdgePoint (inp : Mesh P D) (np : Edge → Except Fail Q) (x y : PId) (n : PId) : M Q D PId :=
  match inp.findEdge x y with
  | none => Prog.fail (.ub .nullDeref)
  | some e => fun s =>
    if (s.filt.epi e).isSome then (.ok n, s)
    else
      (Prog.bind (Prog.lift (np e)) fun p =>
       Prog.bind (setEpi e n) fun _ =>
       Prog.bind (setEpi e.sym n) fun _ =>
       Prog.bind (modifyOut fun o => o.setPoint n p) fun _ =>
       Prog.pure (n + 1)) s

/-- `output->GetNumberOfPoints()` -/
def numberOfPoints : M P D Nat := fun s => (.ok s.out.points.length, s)

/-- the guard at the head of every `AddNewCellPoints`; a null cell is dereferenced -/
def requireTriangle (c : Option Cell) : M P D (PId × PId × PId) :=
  match c with
  | none => Prog.fail (.ub .nullDeref)
  | some c =>
    match asTriangle (some c) with
    | some t => Prog.pure t
    | none => Prog.fail (.exc .notTriangle)

/-- `LinearTriangleCell…::AddNewCellPoints`, itkLinearTriangleCell….hxx:26-70 -/
def linearAddNew (K : Type) {P D : Type} [Field K] [Zero P] [Add P] [SMul K P]
    (inp : Mesh P D) (cell : Option Cell) : M P D Unit :=
  Prog.bind (requireTriangle cell) fun t =>
  Prog.bind numberOfPoints fun n =>
  Prog.bind (getOutPoint t.1) fun pa =>
  Prog.bind (getOutPoint t.2.1) fun pb =>
  Prog.bind (getOutPoint t.2.2) fun pc =>
  Prog.bind (addEdgePoint inp (fun _ => .ok (midPoint K pa pb)) t.1 t.2.1 n) fun n =>
  Prog.bind (addEdgePoint inp (fun _ => .ok (midPoint K pb pc)) t.2.1 t.2.2 n) fun n =>
  Prog.bind (addEdgePoint inp (fun _ => .ok (midPoint K pc pa)) t.2.2 t.1 n) fun _ =>
  Prog.pure ()

/-- `if (e) input->GetPoint(e->GetDestination(), &p) else p.Fill(0)` -/
def destOrZero (inp : Mesh P D) (e : Option Edge) : Except Fail P :=
  match e with
  | none => .ok 0
  | some e => inp.getPoint e.2

/-- The new point of the Loop scheme for edge `e`: itkLoopTriangleCell….hxx:61-120 and, with
`e->GetOrigin()`, `e->GetDestination()` in place of the two ids, itkLoopTriangleEdgeCell….hxx:33-99. -/
def loopPoint (K : Type) {P D : Type} [Field K] [Zero P] [Add P] [SMul K P]
    (inp : Mesh P D) (e : Edge) : Except Fail P :=
  if inp.isInternal e then do
    let p0 ← inp.getPoint e.1
    let p1 ← inp.getPoint e.2
    let p2 ← destOrZero inp (inp.lnext e)
    let p3 ← destOrZero inp (inp.rprev e)
    .ok (0 + (3 / 8 : K) • p0 + (3 / 8 : K) • p1 + (1 / 8 : K) • p2 + (1 / 8 : K) • p3)
  else if inp.isAtBorder e then do
    let p0 ← inp.getPoint e.1
    let p1 ← inp.getPoint e.2
    .ok (midPoint K p0 p1)
  else .error (.exc .wireEdge)

/-- The three edges of a triangle, with the new point computed from the input mesh. -/
def addThree (inp : Mesh P D) (np : Edge → Except Fail Q) (cell : Option Cell) : M Q D Unit :=
  Prog.bind (requireTriangle cell) fun t =>
  Prog.bind numberOfPoints fun n =>
  Prog.bind (addEdgePoint inp np t.1 t.2.1 n) fun n =>
  Prog.bind (addEdgePoint inp np t.2.1 t.2.2 n) fun n =>
  Prog.bind (addEdgePoint inp np t.2.2 t.1 n) fun _ =>
  Prog.pure ()

/-- `LoopTriangleCell…::AddNewCellPoints`, itkLoopTriangleCell….hxx:28-124 -/
def loopAddNew (K : Type) {P D : Type} [Field K] [Zero P] [Add P] [SMul K P]
    (inp : Mesh P D) (cell : Option Cell) : M P D Unit := addThree inp (loopPoint K inp) cell

/-- The new point of the butterfly scheme for edge `e`: itkModifiedButterflyTriangleCell….hxx:61-134 and
itkModifiedButterflyTriangleEdgeCell….hxx:32-108. -/
def butterflyPoint (K : Type) {P D : Type} [Field K] [Zero P] [Add P] [SMul K P]
    (inp : Mesh P D) (e : Edge) : Except Fail P := do
  let p0 ← inp.getPoint e.1
  let p1 ← inp.getPoint e.2
  let p2 ← destOrZero inp (inp.lnext e)
  let p4 ← destOrZero inp ((inp.lnext e).bind inp.rprev)
  let p3 ← destOrZero inp (inp.rprev e)
  let p5 ← destOrZero inp ((inp.rprev e).bind inp.lnext)
  let p6 ← destOrZero inp ((inp.lprev e).bind inp.rprev)
  let p7 ← destOrZero inp ((inp.rnext e).bind inp.lnext)
  .ok (0 + (1 / 2 : K) • p0 + (1 / 2 : K) • p1 + (1 / 8 : K) • p2 + (1 / 8 : K) • p3
    + (-1 / 16 : K) • p4 + (-1 / 16 : K) • p5 + (-1 / 16 : K) • p6 + (-1 / 16 : K) • p7)

/-- `ModifiedButterflyTriangleCell…::AddNewCellPoints`, itkModifiedButterflyTriangleCell….hxx:27-145 -/
def butterflyAddNew (K : Type) {P D : Type} [Field K] [Zero P] [Add P] [SMul K P]
    (inp : Mesh P D) (cell : Option Cell) : M P D Unit := addThree inp (butterflyPoint K inp) cell

/-- The edges met by `for (q = start->BeginGeomOnext(); q != start->EndGeomOnext(); ++q)`, at most `fuel` of them. -/
def ringFrom (m : Mesh P D) (start : Edge) : Nat → Edge → Except Fail (List Edge)
  | 0, _ => .error .hang
  | n + 1, cur =>
    match m.ring.onext cur with
    | none => .error (.ub .nullDeref)
    | some nx => if nx = start then .ok [cur] else (ringFrom m start n nx).map (cur :: ·)

/-- a ring has at most two directed edges per edge; a longer walk never comes back to its start -/
def ringAt (m : Mesh P D) (start : Edge) : Except Fail (List Edge) :=
  ringFrom m start (2 * m.edges.length + 1) start

/-- `acc += p` for the destination points of a list of edges -/
def sumFrom (m : Mesh P D) (acc : P) : List Edge → Except Fail P
  | [] => .ok acc
  | e :: es => do
    let p ← m.getPoint e.2
    sumFrom m (acc + p) es

/-- sum of the destination points of a list of edges -/
def sumDest (m : Mesh P D) (es : List Edge) : Except Fail P := sumFrom m 0 es

/-- The weights of itkLoopTriangleCell….hxx:272-273: `var = 0.375 + 0.25 cos(2π/n)`, `beta = (0.625 - var²)/n`.
`cosn n` stands for `cos(2π/n)`. -/
def loopBeta (cosn : Nat → K) (n : Nat) : K :=
  (5 / 8 - (3 / 8 + 1 / 4 * cosn n) * (3 / 8 + 1 / 4 * cosn n)) / (n : K)

/-- `SmoothingPoint`, itkLoopTriangleCell….hxx:236-280 (`pid` is the id of `ipt`, whose `GetEdge()` may be null). -/
def smoothingPoint (cosn : Nat → K) (inp : Mesh P D) (pid : PId) (ipt : P) : Except Fail P :=
  match inp.ring.pointEdge pid with
  | none => .error (.ub .nullDeref)
  | some e => do
    let r ← ringAt inp e
    let opt ← sumDest inp r
    let border := r.filter inp.isAtBorder
    let bpt ← sumDest inp border
    if border.length ≠ 0 then .ok ((3 / 4 : K) • ipt + (1 / 8 : K) • bpt)
    else
      let beta := loopBeta cosn r.length
      .ok ((1 - (r.length : K) * beta) • ipt + beta • opt)

/-- write a list of points to the output one after the other -/
def writePoints (val : PId → P → Except Fail P) : List (PId × P) → M P D Unit :=
  Prog.forEach fun kp =>
    Prog.bind (Prog.lift (val kp.1 kp.2)) fun p => modifyOut fun o => o.setPoint kp.1 p

/-- `smoothedPointSet`, itkLoopTriangleCell….hxx:152-166.  Line 161 inserts `*it`, the *cell* id, once per point of
the cell. -/
def loopSmoothSet (inp : Mesh P D) : List CId → Except Fail (List Nat)
  | [] => .ok []
  | id :: ids =>
    match inp.cells.find? id with
    | none => .error (.ub .missingKey)
    | some none => .error (.ub .nullDeref)
    | some (some c) => (loopSmoothSet inp ids).map (c.pts.map (fun _ => id) ++ ·)

/-- `LoopTriangleCell…::CopyInputMeshToOutputMeshPoints`, itkLoopTriangleCell….hxx:128-232.  It reads `m_Uniform`
and `m_CellsToBeSubdivided` as they are when it is called. -/
def loopCopy (cosn : Nat → K) (inp : Mesh P D) : M P D Unit :=
  Prog.bind (modifyOut fun o => { o with points := o.points.reserve inp.points.length 0 }) fun _ =>
  fun s =>
    if s.filt.uniform then
      writePoints (smoothingPoint cosn inp) inp.points s
    else
      (Prog.bind (Prog.lift (loopSmoothSet inp s.filt.cells)) fun set =>
        writePoints (fun id p => if set.contains id then smoothingPoint cosn inp id p else .ok p) inp.points) s

/-- `NumericTraits<OutputPointIdentifier>::max()` for the 64-bit `itk::IdentifierType` -/
def idMax : Nat := 2 ^ 64 - 1

/-- The loop of itkSquareThreeTriangleCell….hxx:70-79 over the three directed edges: no `GetSym()` entry here, and a
null edge is skipped. -/
def sq3Mark (inp : Mesh P D) (newId : PId) : List (PId × PId) → M Q D Unit :=
  Prog.forEach fun xy =>
    match inp.findEdge xy.1 xy.2 with
    | none => Prog.pure ()
    | some e => fun s => if (s.filt.epi e).isSome then (.ok (), s) else setEpi e newId s

/-- the three directed edges `(ii, (ii+1)%3)` of a triangle -/
def triDarts (t : PId × PId × PId) : List (PId × PId) := [(t.1, t.2.1), (t.2.1, t.2.2), (t.2.2, t.1)]

/-- `SquareThreeTriangleCell…::AddNewCellPoints`, itkSquareThreeTriangleCell….hxx:26-80 -/
def sq3AddNew (K : Type) {P D : Type} [Field K] [Zero P] [Add P] [SMul K P]
    (inp : Mesh P D) (cell : Option Cell) : M P D Unit :=
  Prog.bind (requireTriangle cell) fun t =>
  Prog.bind (Prog.lift (inp.getPoint t.1)) fun pa =>
  Prog.bind (Prog.lift (inp.getPoint t.2.1)) fun pb =>
  Prog.bind (Prog.lift (inp.getPoint t.2.2)) fun pc =>
  Prog.bind numberOfPoints fun newId =>
  Prog.bind (modifyOut fun o => o.setPoint newId ((1 / 3 : K) • (0 + pa + pb + pc))) fun _ =>
  sq3Mark inp newId (triDarts t)

/-- add a triangle, pass the cell data and, when not uniform, record the new cell: lines 145-156, 162-179 -/
def sq3Emit (inp : Mesh P D) (uniform : Bool) (id : CId) (a b c : PId) : M Q D Unit :=
  Prog.bind (addPass inp id a b c) fun q =>
  if uniform then Prog.pure () else pushChild q

/-- The loop over `ii` of itkSquareThreeTriangleCell….hxx:119-183, on the list of directed edges still to visit. -/
def sq3Darts (inp : Mesh P D) (uniform : Bool) (id : CId) (t : PId × PId × PId) :
    List (PId × PId) → M Q D Unit
  | [] => Prog.pure ()
  | xy :: rest => fun s =>
    match (inp.findEdge xy.1 xy.2).bind (fun e => (s.filt.epi e).map (fun v => (e, v))) with
    | none => Prog.bind (addPass inp id t.1 t.2.1 t.2.2) (fun _ => Prog.pure ()) s     -- `break`
    | some (e, v) =>
      if v ≠ idMax then
        if inp.isAtBorder e || (s.filt.epi e.sym).isNone then
          Prog.bind (sq3Emit inp uniform id e.1 e.2 v) (fun _ => sq3Darts inp uniform id t rest) s
        else
          let v' := (s.filt.epi e.sym).getD 0
          (Prog.bind (sq3Emit inp uniform id v v' e.2) fun _ =>
           Prog.bind (sq3Emit inp uniform id v' v e.1) fun _ =>
           Prog.bind (setEpi e.sym idMax) fun _ =>
           sq3Darts inp uniform id t rest) s
      else sq3Darts inp uniform id t rest s

/-- the loop body of itkSquareThreeTriangleCell….hxx:98-185 after the triangle test; there is no test for a null
cell, which is dereferenced at line 102 -/
def sq3Act (inp : Mesh P D) (c : CId × Option Cell) : M Q D Unit :=
  match c.2 with
  | none => Prog.fail (.ub .nullDeref)
  | some _ =>
    match asTriangle c.2 with
    | some t => fun s => sq3Darts inp s.filt.uniform c.1 t (triDarts t) s
    | none => Prog.pure ()

/-- a cell that takes the non-advancing `continue` of itkSquareThreeTriangleCell….hxx:102-105 -/
def sq3Skips (c : CId × Option Cell) : Bool := c.2.isSome && (asTriangle c.2).isNone

/-- `SquareThreeTriangleCell…::GenerateOutputCells`, itkSquareThreeTriangleCell….hxx:84-186 -/
def sq3OutputCells (inp : Mesh P D) : M Q D Unit :=
  Prog.bind (modifyFilt fun f => { f with cells := [] }) fun _ =>
  loopOrHang sq3Skips (sq3Act inp) inp.cells

/-- the literal loop, one unit of fuel per loop test -/
def sq3OutputCellsFuel (inp : Mesh P D) (fuel : Nat) (s : St Q D) : Option (Except Fail Unit × St Q D) :=
  cursorLoop sq3Skips (sq3Act inp) fuel inp.cells { s with filt := { s.filt with cells := [] } }

/-- The cell subdivision filters. -/
inductive Scheme where
  | linear
  | loop
  | butterfly
  | sqrt3
  deriving DecidableEq, Repr

/-- `GenerateData` of each cell filter: the base class function with the overrides of the class. -/
def cellGenerate (sch : Scheme) (cosn : Nat → K) (inp : Mesh P D) : M P D Unit :=
  match sch with
  | .linear => generateData (generateOutputPoints (copyPoints inp) (linearAddNew K inp) inp) (generateOutputCells inp)
  | .loop => generateData (generateOutputPoints (loopCopy cosn inp) (loopAddNew K inp) inp) (generateOutputCells inp)
  | .butterfly =>
    generateData (generateOutputPoints (copyPoints inp) (butterflyAddNew K inp) inp) (generateOutputCells inp)
  | .sqrt3 => generateData (generateOutputPoints (copyPoints inp) (sq3AddNew K inp) inp) (sq3OutputCells inp)

/-- `filter->SetInput(inp); filter->Update();` for a cell filter with members `f` -/
def cellUpdate (sch : Scheme) (lib : QELib) (cosn : Nat → K) (f : Filt) (inp : Mesh P D) :
    Except Fail (Mesh P D) × Filt :=
  runFilter lib (cellGenerate sch cosn inp) f

end Verif
