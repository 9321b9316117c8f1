import Verif.Model.Mesh
import Mathlib.Algebra.Module.Defs
import Mathlib.Algebra.Field.Defs
/-
itkSubdivisionQuadEdgeMeshFilter.{h,hxx} and itkTriangleCellSubdivisionQuadEdgeMeshFilter.{h,hxx}.
Points live in a type `P` with a zero, an addition and a scaling by weights from a field `K` (the C++ loops over
`PointDimension` are coordinatewise).  No law of these operations is part of the model.  The casts between different
coordinate types of input and output are in `Model/TwoTypes.lean`.
-/
namespace Verif

/-- Members of a subdivision filter object.
`cells`   : `m_CellsToBeSubdivided` (itkTriangleCellSubdivisionQuadEdgeMeshFilter.h:133)
`edgeSel` : `m_EdgesToBeSubdivided` (itkTriangleEdgeCellSubdivisionQuadEdgeMeshFilter.h:108; unused by cell filters)
`uniform` : `m_Uniform` (itkTriangleCellSubdivisionQuadEdgeMeshFilter.h:134)
`epi`     : `m_EdgesPointIdentifier` (itkSubdivisionQuadEdgeMeshFilter.h:112), a `std::map` keyed by edge pointers
            that is never iterated, hence a partial function -/
structure Filt where
  cells : List CId
  edgeSel : List (Option Edge)
  uniform : Bool
  epi : Edge → Option PId

/-- A new filter object: itkSubdivisionQuadEdgeMeshFilter.hxx:26-29, itkTriangleCell….hxx:26-29. -/
def Filt.new : Filt where
  cells := []
  edgeSel := []
  uniform := true
  epi := fun _ => none

/-- `SetCellsToBeSubdivided`, itkTriangleCell….hxx:33-38 -/
def Filt.setCells (f : Filt) (l : List CId) : Filt := { f with cells := l }
/-- `AddSubdividedCellId`, itkTriangleCell….hxx:42-46 -/
def Filt.addCell (f : Filt) (c : CId) : Filt := { f with cells := f.cells ++ [c] }
/-- `TriangleEdgeCell…::SetCellsToBeSubdivided`, itkTriangleEdgeCell….hxx:31-36 -/
def Filt.setEdges (f : Filt) (l : List (Option Edge)) : Filt := { f with edgeSel := l }
/-- `AddSubdividedEdge`, itkTriangleEdgeCell….hxx:40-44 -/
def Filt.addEdge (f : Filt) (e : Option Edge) : Filt := { f with edgeSel := f.edgeSel ++ [e] }

/-- The filter's members and its output mesh, during `GenerateData`. -/
structure St (P D : Type) where
  filt : Filt
  out : Mesh P D

abbrev M (P D : Type) := Prog (St P D)

section
variable {P Q D : Type}

/-- `this->GetOutput()` -/
def getOut : M P D (Mesh P D) := fun s => (.ok s.out, s)
def modifyOut (g : Mesh P D → Mesh P D) : M P D Unit := fun s => (.ok (), { s with out := g s.out })
def modifyFilt (g : Filt → Filt) : M P D Unit := fun s => (.ok (), { s with filt := g s.filt })

/-- `m_EdgesPointIdentifier->InsertElement(edge, id)` / `SetElement` -/
def setEpi (e : Edge) (id : PId) : M P D Unit :=
  modifyFilt fun f => { f with epi := fun e' => if e' = e then some id else f.epi e' }

/-- `output->AddFaceTriangle(a, b, c)` -/
def addFace (a b c : PId) : M P D (Option Edge) := fun s =>
  let r := s.out.addFaceTriangle a b c
  (.ok r.2, { s with out := r.1 })

/-- `PassCellData`, itkTriangleCell….hxx:268-285.  (`GetLeft()` of the returned edge is the new face.) -/
def passCellData (inp : Mesh P D) (inputId : CId) (outputEdge : Option Edge) : M Q D Unit := fun s =>
  match outputEdge with
  | none => (.ok (), s)
  | some e =>
    match inp.cellData with
    | none => (.ok (), s)
    | some data =>
      match data.find? inputId with
      | none => (.ok (), s)
      | some d =>
        match s.out.left e with
        | none => (.ok (), s)
        | some fid => (.ok (), { s with out := s.out.setCellData fid d })

/-- `const auto qe = output->AddFaceTriangle(a, b, c); this->PassCellData(id, qe);` -/
def addPass (inp : Mesh P D) (id : CId) (a b c : PId) : M Q D (Option Edge) :=
  Prog.bind (addFace a b c) fun e =>
  Prog.bind (passCellData inp id e) fun _ => Prog.pure e

/-- `this->m_CellsToBeSubdivided.push_back(newTriangleEdge->GetLeft());`: a null edge is dereferenced. -/
def pushChild (qe : Option Edge) : M P D Unit := fun s =>
  match qe with
  | none => (.error (.ub .nullDeref), s)
  | some e =>
    match s.out.left e with
    | none => (.error (.ub .uninitRead), s)
    | some fid => (.ok (), { s with filt := { s.filt with cells := s.filt.cells ++ [fid] } })

/-- The two local arrays `trianglePointIds[3]`, `edgePointIds[3]` of `GenerateOutputCells`; a slot of
`edgePointIds` that was not written is `none`. -/
structure Split where
  tri : Nat → PId
  edge : Nat → Option PId

/-- read `edgePointIds[ii]` -/
def Split.readEdge (sp : Split) (ii : Nat) : M P D PId := fun s =>
  match sp.edge ii with
  | some p => (.ok p, s)
  | none => (.error (.ub .uninitRead), s)

/-- `SplitTriangleFromOneEdge`, itkTriangleCell….hxx:165-180; `ii` is `splitEdges[0]` -/
def splitOne (inp : Mesh P D) (sp : Split) (ii : Nat) (id : CId) : M Q D Unit :=
  let jj := (ii + 1) % 3
  let kk := (ii + 2) % 3
  Prog.bind (sp.readEdge ii) fun ei =>
  Prog.bind (addPass inp id ei (sp.tri jj) (sp.tri kk)) fun _ =>
  Prog.bind (addPass inp id ei (sp.tri kk) (sp.tri ii)) fun _ =>
  Prog.pure ()

/-- `SplitTriangleFromTwoEdges`, itkTriangleCell….hxx:184-224; `ii, jj` are `splitEdges[0], splitEdges[1]` -/
def splitTwo (inp : Mesh P D) (sp : Split) (ii jj : Nat) (id : CId) : M Q D Unit :=
  let t := sp.tri
  if ii = 0 ∧ jj = 1 then
    Prog.bind (sp.readEdge 0) fun e0 =>
    Prog.bind (sp.readEdge 1) fun e1 =>
    Prog.bind (addPass inp id (t 2) (t 0) e0) fun _ =>
    Prog.bind (addPass inp id (t 2) e0 e1) fun _ =>
    Prog.bind (addPass inp id e0 (t 1) e1) fun _ => Prog.pure ()
  else if ii = 0 ∧ jj = 2 then
    Prog.bind (sp.readEdge 0) fun e0 =>
    Prog.bind (sp.readEdge 2) fun e2 =>
    Prog.bind (addPass inp id (t 1) (t 2) e0) fun _ =>
    Prog.bind (addPass inp id (t 2) e2 e0) fun _ =>
    Prog.bind (addPass inp id e2 (t 0) e0) fun _ => Prog.pure ()
  else if ii = 1 ∧ jj = 2 then
    Prog.bind (sp.readEdge 1) fun e1 =>
    Prog.bind (sp.readEdge 2) fun e2 =>
    Prog.bind (addPass inp id (t 0) (t 1) e1) fun _ =>
    Prog.bind (addPass inp id (t 0) e1 e2) fun _ =>
    Prog.bind (addPass inp id e1 (t 2) e2) fun _ => Prog.pure ()
  else Prog.pure ()

/-- `SplitTriangleFromThreeEdges`, itkTriangleCell….hxx:228-264 -/
def splitThree (inp : Mesh P D) (sp : Split) (uniform : Bool) (id : CId) : M Q D Unit :=
  let t := sp.tri
  Prog.bind (sp.readEdge 0) fun e0 =>
  Prog.bind (sp.readEdge 1) fun e1 =>
  Prog.bind (sp.readEdge 2) fun e2 =>
  if uniform then
    Prog.bind (addPass inp id (t 0) e0 e2) fun _ =>
    Prog.bind (addPass inp id e0 (t 1) e1) fun _ =>
    Prog.bind (addPass inp id e1 (t 2) e2) fun _ =>
    Prog.bind (addPass inp id e0 e1 e2) fun _ => Prog.pure ()
  else
    Prog.bind (addPass inp id (t 0) e0 e2) fun q0 =>
    Prog.bind (pushChild q0) fun _ =>
    Prog.bind (addPass inp id e0 (t 1) e1) fun q1 =>
    Prog.bind (pushChild q1) fun _ =>
    Prog.bind (addPass inp id e1 (t 2) e2) fun q2 =>
    Prog.bind (pushChild q2) fun _ =>
    Prog.bind (addPass inp id e0 e1 e2) fun q3 =>
    Prog.bind (pushChild q3) fun _ => Prog.pure ()

/-- The test `!cell || cell->GetType() != POLYGON_CELL || cell->GetNumberOfPoints() != 3` (negated): the three
point ids of a triangle cell.  itkTriangleCell….hxx:102, itkCellArea….hxx:41. -/
def asTriangle : Option Cell → Option (PId × PId × PId)
  | some ⟨.polygon, [a, b, c]⟩ => some (a, b, c)
  | _ => none

/-- `trianglePointIds[n]` / `inputPointIdArray[n]` -/
def triArr (t : PId × PId × PId) (i : Nat) : PId :=
  if i = 0 then t.1 else if i = 1 then t.2.1 else t.2.2

/-- Filling `edgePointIds`, itkTriangleCell….hxx:125-137: `FindEdge` then `IndexExists` / `GetElement`
(`IndexExists(nullptr)` is false: a null key is never stored). -/
def splitArr (inp : Mesh P D) (epi : Edge → Option PId) (t : PId × PId × PId) : Split where
  tri := triArr t
  edge := fun ii => (inp.findEdge (triArr t ii) (triArr t ((ii + 1) % 3))).bind epi

/-- The body of the loop over the input cells for a triangle, itkTriangleCell….hxx:107-157; `splitEdges` is the
list of the indices `ii` whose edge carries a new point, in increasing order. -/
def outputCellsOfTriangle (inp : Mesh P D) (id : CId) (t : PId × PId × PId) : M Q D Unit := fun s =>
  let sp := splitArr inp s.filt.epi t
  let splitEdges := [0, 1, 2].filter (fun ii => (sp.edge ii).isSome)
  match splitEdges with
  | [] => Prog.bind (addPass inp id (sp.tri 0) (sp.tri 1) (sp.tri 2)) (fun _ => Prog.pure ()) s
  | [ii] => splitOne inp sp ii id s
  | [ii, jj] => splitTwo inp sp ii jj id s
  | _ => splitThree inp sp s.filt.uniform id s

/-- a cell that takes the non-advancing `continue` of itkTriangleCell….hxx:102-105 -/
def skipsCell (c : CId × Option Cell) : Bool := (asTriangle c.2).isNone

/-- the rest of that loop body -/
def actCell (inp : Mesh P D) (c : CId × Option Cell) : M Q D Unit :=
  match asTriangle c.2 with
  | some t => outputCellsOfTriangle inp c.1 t
  | none => Prog.pure ()

/-- `TriangleCellSubdivisionQuadEdgeMeshFilter::GenerateOutputCells`, itkTriangleCell….hxx:87-161 -/
def generateOutputCells (inp : Mesh P D) : M Q D Unit :=
  Prog.bind (modifyFilt fun f => { f with cells := [] }) fun _ =>
  loopOrHang skipsCell (actCell inp) inp.cells

/-- The literal loop of `GenerateOutputCells`, with one unit of fuel per loop test. -/
def generateOutputCellsFuel (inp : Mesh P D) (fuel : Nat) (s : St Q D) : Option (Except Fail Unit × St Q D) :=
  cursorLoop skipsCell (actCell inp) fuel inp.cells { s with filt := { s.filt with cells := [] } }

/-- `QuadEdgeMeshToQuadEdgeMeshFilter::CopyInputMeshToOutputMeshPoints` (ITK): `Reserve`, then copy id by id. -/
def copyPoints [Zero P] (inp : Mesh P D) : M P D Unit :=
  modifyOut fun o =>
    { o with points := inp.points.foldl (fun m kp => m.set kp.1 kp.2) (o.points.reserve inp.points.length 0) }

/-- `TriangleCellSubdivisionQuadEdgeMeshFilter::GenerateOutputPoints`, itkTriangleCell….hxx:50-83, with the virtual
functions `CopyInputMeshToOutputMeshPoints` and `AddNewCellPoints` as parameters.
`addNew` receives the cell pointer, which may be null in the uniform branch. -/
def generateOutputPoints (copy : M Q D Unit) (addNew : Option Cell → M Q D Unit) (inp : Mesh P D) : M Q D Unit :=
  Prog.bind copy fun _ =>
  Prog.bind (modifyFilt fun f => { f with epi := fun _ => none }) fun _ =>
  Prog.bind (modifyFilt fun f => { f with uniform := f.cells.isEmpty }) fun _ =>
  fun s =>
    if s.filt.uniform then
      Prog.forEach (fun c => addNew c.2) inp.cells s
    else
      Prog.forEach (fun id =>
        match inp.cells.find? id with
        | none => Prog.fail (.ub .missingKey)
        | some none => Prog.pure ()
        | some (some c) => addNew (some c)) s.filt.cells s

/-- `SubdivisionQuadEdgeMeshFilter::GenerateData`, itkSubdivisionQuadEdgeMeshFilter.hxx:33-39 -/
def generateData (points cells : M P D Unit) : M P D Unit :=
  Prog.bind points fun _ => cells

/-- `filter->SetInput(inp); filter->Update();` with an execution of `GenerateData`: the output is emptied first
(`PrepareOutputs`), and the rings of the result are the ones the mesh library linked.  The demand-driven pipeline
(whether `Update` has to execute at all) is in `Model/Pipeline.lean`. -/
def runFilter (lib : QELib) (gen : M P D Unit) (f : Filt) : Except Fail (Mesh P D) × Filt :=
  match gen ⟨f, Mesh.empty⟩ with
  | (.ok _, s) => (.ok { s.out with ring := lib.link s.out.edges s.out.left s.out.cells }, s.filt)
  | (.error e, s) => (.error e, s.filt)

end
end Verif
