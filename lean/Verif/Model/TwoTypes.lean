import Verif.Model.EdgeFilters
/-
The filters with an output mesh type whose points have other coordinates than those of the input mesh type (for example
`float` and `double`): the second template parameter `TOutputMesh`.  Positions are computed in the coordinates `P` of the
input, and `Point::CastFrom` (here: `cast`) converts each one when it is written into the output, with coordinates `Q`.
Everything that does not touch positions (`generateOutputPoints`, `generateOutputCells`, `sq3OutputCells`, …) is
shared with the other models.  The cell data have the same type in both meshes here; `Model/TwoData.lean` has another
type in the output.

The iterative and the conditional filter ask for equal types (the concept checks of itkIterative….h:65-69 and
itkConditional….h:64-74).  So does the linear cell filter, in effect: it reads points of the output into variables of the input
point type, itkLinearTriangleCell….hxx:44, which only compiles if the types agree.
-/
namespace Verif
variable {K P Q D : Type} [Field K] [Zero P] [Add P] [SMul K P] [Zero Q]

/-- `QuadEdgeMeshToQuadEdgeMeshFilter::CopyInputMeshToOutputMeshPoints` (ITK): `CastFrom` for each point -/
def copyPointsTo (cast : P → Q) (inp : Mesh P D) : M Q D Unit :=
  modifyOut fun o =>
    { o with points := inp.points.foldl (fun m kp => m.set kp.1 (cast kp.2)) (o.points.reserve inp.points.length 0) }

/-- write a list of points to the output one after the other -/
def writePointsTo (val : PId → P → Except Fail Q) : List (PId × P) → M Q D Unit :=
  Prog.forEach fun kp =>
    Prog.bind (Prog.lift (val kp.1 kp.2)) fun p => modifyOut fun o => o.setPoint kp.1 p

/-- `LoopTriangleCell…::CopyInputMeshToOutputMeshPoints`, itkLoopTriangleCell….hxx:128-232: the casts are at lines
145, 220 and 226. -/
def loopCopyTo (cast : P → Q) (cosn : Nat → K) (inp : Mesh P D) : M Q D Unit :=
  Prog.bind (modifyOut fun o => { o with points := o.points.reserve inp.points.length 0 }) fun _ =>
  fun s =>
    if s.filt.uniform then
      writePointsTo (fun id p => (smoothingPoint cosn inp id p).map cast) inp.points s
    else
      (Prog.bind (Prog.lift (loopSmoothSet inp s.filt.cells)) fun set =>
        writePointsTo (fun id p => if set.contains id then (smoothingPoint cosn inp id p).map cast else .ok (cast p))
          inp.points) s

/-- `LoopTriangleEdgeCell…::CopyInputMeshToOutputMeshPoints`, itkLoopTriangleEdgeCell….hxx:105-146: the casts are at
lines 137 and 197. -/
def loopEdgeCopyTo (cast : P → Q) (cosn : Nat → K) (inp : Mesh P D) : M Q D Unit :=
  Prog.bind (modifyOut fun o => { o with points := o.points.reserve inp.points.length 0 }) fun _ =>
  fun s => writePointsTo (fun id p => (loopEdgeValue cosn inp s.filt.edgeSel id p).map cast) inp.points s

/-- A new point, computed by `np` in the coordinates of the input and then cast: itkLoopTriangleCell….hxx:99 and 114,
itkModifiedButterflyTriangleCell….hxx:140, itkLinearTriangleEdgeCell….hxx:36, itkLoopTriangleEdgeCell….hxx:75 and 93,
itkModifiedButterflyTriangleEdgeCell….hxx:116. -/
def castPoint (cast : P → Q) (np : Edge → Except Fail P) (e : Edge) : Except Fail Q := (np e).map cast

/-- `SquareThreeTriangleCell…::AddNewCellPoints`, itkSquareThreeTriangleCell….hxx:26-80: the cast is at line 66. -/
def sq3AddNewTo (K : Type) {P Q D : Type} [Field K] [Zero P] [Add P] [SMul K P]
    (cast : P → Q) (inp : Mesh P D) (cell : Option Cell) : M Q D Unit :=
  Prog.bind (requireTriangle cell) fun t =>
  Prog.bind (Prog.lift (inp.getPoint t.1)) fun pa =>
  Prog.bind (Prog.lift (inp.getPoint t.2.1)) fun pb =>
  Prog.bind (Prog.lift (inp.getPoint t.2.2)) fun pc =>
  Prog.bind numberOfPoints fun newId =>
  Prog.bind (modifyOut fun o => o.setPoint newId (cast ((1 / 3 : K) • (0 + pa + pb + pc)))) fun _ =>
  sq3Mark inp newId (triDarts t)

/-- the cell filters that can be had with two mesh types -/
inductive TwoTypeScheme where
  | loop
  | butterfly
  | sqrt3
  deriving DecidableEq, Repr

/-- `GenerateData` of a cell filter with two mesh types -/
def cellGenerateTo (sch : TwoTypeScheme) (cast : P → Q) (cosn : Nat → K) (inp : Mesh P D) : M Q D Unit :=
  match sch with
  | .loop =>
    generateData (generateOutputPoints (loopCopyTo cast cosn inp) (addThree inp (castPoint cast (loopPoint K inp))) inp)
      (generateOutputCells inp)
  | .butterfly =>
    generateData (generateOutputPoints (copyPointsTo cast inp) (addThree inp (castPoint cast (butterflyPoint K inp))) inp)
      (generateOutputCells inp)
  | .sqrt3 => generateData (generateOutputPoints (copyPointsTo cast inp) (sq3AddNewTo K cast inp) inp) (sq3OutputCells inp)

/-- `GenerateData` of an edge filter with two mesh types -/
def edgeGenerateTo (sch : EdgeScheme) (cast : P → Q) (cosn : Nat → K) (inp : Mesh P D) : M Q D Unit :=
  match sch with
  | .linear =>
    generateData (edgeOutputPoints (copyPointsTo cast inp) (addNewEdgePoint (castPoint cast (linearPoint K inp))) inp)
      (generateOutputCells inp)
  | .loop =>
    generateData (edgeOutputPoints (loopEdgeCopyTo cast cosn inp) (addNewEdgePoint (castPoint cast (loopPoint K inp))) inp)
      (generateOutputCells inp)
  | .butterfly =>
    generateData (edgeOutputPoints (copyPointsTo cast inp) (addNewEdgePoint (castPoint cast (butterflyPoint K inp))) inp)
      (generateOutputCells inp)

/-- `filter->SetInput(inp); filter->Update();` for a cell filter with two mesh types -/
def cellUpdateTo (sch : TwoTypeScheme) (lib : QELib) (cast : P → Q) (cosn : Nat → K) (f : Filt) (inp : Mesh P D) :
    Except Fail (Mesh Q D) × Filt :=
  runFilter lib (cellGenerateTo sch cast cosn inp) f

/-- `filter->SetInput(inp); filter->Update();` for an edge filter with two mesh types -/
def edgeUpdateTo (sch : EdgeScheme) (lib : QELib) (cast : P → Q) (cosn : Nat → K) (f : Filt) (inp : Mesh P D) :
    Except Fail (Mesh Q D) × Filt :=
  runFilter lib (edgeGenerateTo sch cast cosn inp) f

end Verif
