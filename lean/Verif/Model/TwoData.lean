import Verif.Model.TwoTypes
/-
The filters with an output mesh type whose cells carry other data than those of the input mesh type (for example `short` labels
and `float` values).  `output->SetCellData(…)` of `PassCellData` receives a value of the input type, which is converted to the
type of the output there (here: `cv`).  The functions that add cells are written out again with two types of data; they are
those of `Model/CellFilter.lean` and `Model/Schemes.lean` otherwise.

The functions that make points read no data.  Their models have one type of data, so they are given the mesh without data
(`Mesh.bare`).

The linear cell filter needs equal coordinate types (see `Model/TwoTypes.lean`), but the types of the cell data may differ.
-/
namespace Verif
variable {P Q D E : Type}

/-- the mesh as the functions see it that read no data -/
def Mesh.bare (m : Mesh P D) : Mesh P E where
  points := m.points
  cells := m.cells
  cellData := none
  hasEdgeCells := m.hasEdgeCells
  edges := m.edges
  left := m.left
  ring := m.ring
  pointData := none

/-- `PassCellData`, itkTriangleCell….hxx:268-285: the value is converted at line 284. -/
def passCellDataTo (cv : D → E) (inp : Mesh P D) (inputId : CId) (outputEdge : Option Edge) : M Q E Unit := fun s =>
  match outputEdge with
  | none => (.ok (), s)
  | some e =>
    match inp.cellData with
    | none => (.ok (), s)
    | some data =>
      match data.find? inputId with
      | none => (.ok (), s)
      | some d =>
        match s.out.left e with
        | none => (.ok (), s)
        | some fid => (.ok (), { s with out := s.out.setCellData fid (cv d) })

/-- `const auto qe = output->AddFaceTriangle(a, b, c); this->PassCellData(id, qe);` -/
def addPassData (cv : D → E) (inp : Mesh P D) (id : CId) (a b c : PId) : M Q E (Option Edge) :=
  Prog.bind (addFace a b c) fun e =>
  Prog.bind (passCellDataTo cv inp id e) fun _ => Prog.pure e

/-- `SplitTriangleFromOneEdge`, itkTriangleCell….hxx:165-180; `ii` is `splitEdges[0]` -/
def splitOneData (cv : D → E) (inp : Mesh P D) (sp : Split) (ii : Nat) (id : CId) : M Q E Unit :=
  let jj := (ii + 1) % 3
  let kk := (ii + 2) % 3
  Prog.bind (sp.readEdge ii) fun ei =>
  Prog.bind (addPassData cv inp id ei (sp.tri jj) (sp.tri kk)) fun _ =>
  Prog.bind (addPassData cv inp id ei (sp.tri kk) (sp.tri ii)) fun _ =>
  Prog.pure ()

/-- `SplitTriangleFromTwoEdges`, itkTriangleCell….hxx:184-224; `ii, jj` are `splitEdges[0], splitEdges[1]` -/
def splitTwoData (cv : D → E) (inp : Mesh P D) (sp : Split) (ii jj : Nat) (id : CId) : M Q E Unit :=
  let t := sp.tri
  if ii = 0 ∧ jj = 1 then
    Prog.bind (sp.readEdge 0) fun e0 =>
    Prog.bind (sp.readEdge 1) fun e1 =>
    Prog.bind (addPassData cv inp id (t 2) (t 0) e0) fun _ =>
    Prog.bind (addPassData cv inp id (t 2) e0 e1) fun _ =>
    Prog.bind (addPassData cv inp id e0 (t 1) e1) fun _ => Prog.pure ()
  else if ii = 0 ∧ jj = 2 then
    Prog.bind (sp.readEdge 0) fun e0 =>
    Prog.bind (sp.readEdge 2) fun e2 =>
    Prog.bind (addPassData cv inp id (t 1) (t 2) e0) fun _ =>
    Prog.bind (addPassData cv inp id (t 2) e2 e0) fun _ =>
    Prog.bind (addPassData cv inp id e2 (t 0) e0) fun _ => Prog.pure ()
  else if ii = 1 ∧ jj = 2 then
    Prog.bind (sp.readEdge 1) fun e1 =>
    Prog.bind (sp.readEdge 2) fun e2 =>
    Prog.bind (addPassData cv inp id (t 0) (t 1) e1) fun _ =>
    Prog.bind (addPassData cv inp id (t 0) e1 e2) fun _ =>
    Prog.bind (addPassData cv inp id e1 (t 2) e2) fun _ => Prog.pure ()
  else Prog.pure ()

/-- `SplitTriangleFromThreeEdges`, itkTriangleCell….hxx:228-264 -/
def splitThreeData (cv : D → E) (inp : Mesh P D) (sp : Split) (uniform : Bool) (id : CId) : M Q E Unit :=
  let t := sp.tri
  Prog.bind (sp.readEdge 0) fun e0 =>
  Prog.bind (sp.readEdge 1) fun e1 =>
  Prog.bind (sp.readEdge 2) fun e2 =>
  if uniform then
    Prog.bind (addPassData cv inp id (t 0) e0 e2) fun _ =>
    Prog.bind (addPassData cv inp id e0 (t 1) e1) fun _ =>
    Prog.bind (addPassData cv inp id e1 (t 2) e2) fun _ =>
    Prog.bind (addPassData cv inp id e0 e1 e2) fun _ => Prog.pure ()
  else
    Prog.bind (addPassData cv inp id (t 0) e0 e2) fun q0 =>
    Prog.bind (pushChild q0) fun _ =>
    Prog.bind (addPassData cv inp id e0 (t 1) e1) fun q1 =>
    Prog.bind (pushChild q1) fun _ =>
    Prog.bind (addPassData cv inp id e1 (t 2) e2) fun q2 =>
    Prog.bind (pushChild q2) fun _ =>
    Prog.bind (addPassData cv inp id e0 e1 e2) fun q3 =>
    Prog.bind (pushChild q3) fun _ => Prog.pure ()

/-- The body of the loop over the input cells for a triangle, itkTriangleCell….hxx:107-157; `splitEdges` is the
list of the indices `ii` whose edge carries a new point, in increasing order. -/
def outputCellsOfTriangleData (cv : D → E) (inp : Mesh P D) (id : CId) (t : PId × PId × PId) : M Q E Unit := fun s =>
  let sp := splitArr inp s.filt.epi t
  let splitEdges := [0, 1, 2].filter (fun ii => (sp.edge ii).isSome)
  match splitEdges with
  | [] => Prog.bind (addPassData cv inp id (sp.tri 0) (sp.tri 1) (sp.tri 2)) (fun _ => Prog.pure ()) s
  | [ii] => splitOneData cv inp sp ii id s
  | [ii, jj] => splitTwoData cv inp sp ii jj id s
  | _ => splitThreeData cv inp sp s.filt.uniform id s

/-- the rest of that loop body -/
def actCellData (cv : D → E) (inp : Mesh P D) (c : CId × Option Cell) : M Q E Unit :=
  match asTriangle c.2 with
  | some t => outputCellsOfTriangleData cv inp c.1 t
  | none => Prog.pure ()

/-- `TriangleCellSubdivisionQuadEdgeMeshFilter::GenerateOutputCells`, itkTriangleCell….hxx:87-161 -/
def generateOutputCellsData (cv : D → E) (inp : Mesh P D) : M Q E Unit :=
  Prog.bind (modifyFilt fun f => { f with cells := [] }) fun _ =>
  loopOrHang skipsCell (actCellData cv inp) inp.cells

/-- add a triangle, pass the cell data and, when not uniform, record the new cell: lines 145-156, 162-179 -/
def sq3EmitData (cv : D → E) (inp : Mesh P D) (uniform : Bool) (id : CId) (a b c : PId) : M Q E Unit :=
  Prog.bind (addPassData cv inp id a b c) fun q =>
  if uniform then Prog.pure () else pushChild q

/-- The loop over `ii` of itkSquareThreeTriangleCell….hxx:119-183, on the list of directed edges still to visit. -/
def sq3DartsData (cv : D → E) (inp : Mesh P D) (uniform : Bool) (id : CId) (t : PId × PId × PId) :
    List (PId × PId) → M Q E Unit
  | [] => Prog.pure ()
  | xy :: rest => fun s =>
    match (inp.findEdge xy.1 xy.2).bind (fun e => (s.filt.epi e).map (fun v => (e, v))) with
    | none => Prog.bind (addPassData cv inp id t.1 t.2.1 t.2.2) (fun _ => Prog.pure ()) s     -- `break`
    | some (e, v) =>
      if v ≠ idMax then
        if inp.isAtBorder e || (s.filt.epi e.sym).isNone then
          Prog.bind (sq3EmitData cv inp uniform id e.1 e.2 v) (fun _ => sq3DartsData cv inp uniform id t rest) s
        else
          let v' := (s.filt.epi e.sym).getD 0
          (Prog.bind (sq3EmitData cv inp uniform id v v' e.2) fun _ =>
           Prog.bind (sq3EmitData cv inp uniform id v' v e.1) fun _ =>
           Prog.bind (setEpi e.sym idMax) fun _ =>
           sq3DartsData cv inp uniform id t rest) s
      else sq3DartsData cv inp uniform id t rest s

/-- the loop body of itkSquareThreeTriangleCell….hxx:98-185 after the triangle test; there is no test for a null
cell, which is dereferenced at line 102 -/
def sq3ActData (cv : D → E) (inp : Mesh P D) (c : CId × Option Cell) : M Q E Unit :=
  match c.2 with
  | none => Prog.fail (.ub .nullDeref)
  | some _ =>
    match asTriangle c.2 with
    | some t => fun s => sq3DartsData cv inp s.filt.uniform c.1 t (triDarts t) s
    | none => Prog.pure ()

/-- `SquareThreeTriangleCell…::GenerateOutputCells`, itkSquareThreeTriangleCell….hxx:84-186 -/
def sq3OutputCellsData (cv : D → E) (inp : Mesh P D) : M Q E Unit :=
  Prog.bind (modifyFilt fun f => { f with cells := [] }) fun _ =>
  loopOrHang sq3Skips (sq3ActData cv inp) inp.cells

section
variable {K : Type} [Field K] [Zero P] [Add P] [SMul K P] [Zero Q]

/-- `GenerateOutputPoints` of a cell filter with two mesh types -/
def cellPointsTo (sch : TwoTypeScheme) (cast : P → Q) (cosn : Nat → K) (inp : Mesh P D) : M Q D Unit :=
  match sch with
  | .loop => generateOutputPoints (loopCopyTo cast cosn inp) (addThree inp (castPoint cast (loopPoint K inp))) inp
  | .butterfly => generateOutputPoints (copyPointsTo cast inp) (addThree inp (castPoint cast (butterflyPoint K inp))) inp
  | .sqrt3 => generateOutputPoints (copyPointsTo cast inp) (sq3AddNewTo K cast inp) inp

/-- `GenerateOutputPoints` of an edge filter with two mesh types -/
def edgePointsTo (sch : EdgeScheme) (cast : P → Q) (cosn : Nat → K) (inp : Mesh P D) : M Q D Unit :=
  match sch with
  | .linear => edgeOutputPoints (copyPointsTo cast inp) (addNewEdgePoint (castPoint cast (linearPoint K inp))) inp
  | .loop => edgeOutputPoints (loopEdgeCopyTo cast cosn inp) (addNewEdgePoint (castPoint cast (loopPoint K inp))) inp
  | .butterfly => edgeOutputPoints (copyPointsTo cast inp) (addNewEdgePoint (castPoint cast (butterflyPoint K inp))) inp

/-- `GenerateOutputCells` of a cell filter with two mesh types -/
def cellCellsTo (sch : TwoTypeScheme) (cv : D → E) (inp : Mesh P D) : M Q E Unit :=
  match sch with
  | .sqrt3 => sq3OutputCellsData cv inp
  | _ => generateOutputCellsData cv inp

/-- `filter->SetInput(inp); filter->Update();` for the linear cell filter whose output mesh has another type of cell data -/
def linearUpdateData (K : Type) [Field K] [SMul K P] (lib : QELib) (cv : D → E) (f : Filt) (inp : Mesh P D) : Except Fail (Mesh P E) × Filt :=
  runFilter lib (generateData (generateOutputPoints (copyPoints inp.bare) (linearAddNew K inp.bare) inp.bare)
    (generateOutputCellsData cv inp)) f

/-- `filter->SetInput(inp); filter->Update();` for a cell filter whose output mesh has another coordinate type and another
type of cell data -/
def cellUpdateData (sch : TwoTypeScheme) (lib : QELib) (cast : P → Q) (cv : D → E) (cosn : Nat → K) (f : Filt) (inp : Mesh P D) :
    Except Fail (Mesh Q E) × Filt :=
  runFilter lib (generateData (cellPointsTo sch cast cosn inp.bare) (cellCellsTo sch cv inp)) f

/-- the same for an edge filter -/
def edgeUpdateData (sch : EdgeScheme) (lib : QELib) (cast : P → Q) (cv : D → E) (cosn : Nat → K) (f : Filt) (inp : Mesh P D) :
    Except Fail (Mesh Q E) × Filt :=
  runFilter lib (generateData (edgePointsTo sch cast cosn inp.bare) (generateOutputCellsData cv inp)) f

end
end Verif
