import Verif.Model.EdgeFilters
import Mathlib.Order.Defs.LinearOrder
/-
itkIterativeTriangleCellSubdivisionQuadEdgeMeshFilter, itkConditionalSubdivisionQuadEdgeMeshFilter and the two
subdivision criteria.
-/
namespace Verif
variable {K P D : Type} [Field K] [Zero P] [Add P] [SMul K P]

/-- Members of the iterative filter, itkIterativeTriangleCell….h:91-93: `m_CellsToBeSubdivided`, `m_ResolutionLevels`,
`m_CellSubdivisionFilterVector`. -/
structure Iter where
  cells : List CId
  levels : Nat
  filters : List Filt

/-- the constructor, itkIterativeTriangleCell….hxx:27-31 -/
def Iter.new : Iter := ⟨[], 1, []⟩
/-- `SetCellsToBeSubdivided`, itkIterativeTriangleCell….hxx:33-40 -/
def Iter.setCells (f : Iter) (l : List CId) : Iter := { f with cells := l }
/-- `AddSubdividedCellId`, itkIterativeTriangleCell….hxx:42-49 -/
def Iter.addCell (f : Iter) (c : CId) : Iter := { f with cells := f.cells ++ [c] }
/-- `SetResolutionLevels`, itkIterativeTriangleCell….h:71 -/
def Iter.setLevels (f : Iter) (n : Nat) : Iter := { f with levels := n }

/-- The loop `for (i = 1; i < resolution; ++i)` of itkIterativeTriangleCell….hxx:65-72, with `n` iterations to go:
filter `i` gets the current output as input and the selection that filter `i - 1` holds now.  `vector::at` throws
`std::out_of_range`.  `GraftOutput` hands the mesh over unchanged. -/
def iterLoop (sch : Scheme) (lib : QELib) (cosn : Nat → K) :
    Nat → Nat → List Filt → Mesh P D → Except Fail (Mesh P D) × List Filt
  | 0, _, fs, cur => (.ok cur, fs)
  | n + 1, i, fs, cur =>
    match fs[i]?, fs[i - 1]? with
    | some g, some prev =>
      match cellUpdate sch lib cosn (g.setCells prev.cells) cur with
      | (.ok m, g') => iterLoop sch lib cosn n (i + 1) (fs.set i g') m
      | (.error e, g') => (.error e, fs.set i g')
    | _, _ => (.error (.exc .outOfRange), fs)

/-- `IterativeTriangleCell…::GenerateData`, itkIterativeTriangleCell….hxx:53-73. -/
def iterUpdate (sch : Scheme) (lib : QELib) (cosn : Nat → K) (f : Iter) (inp : Mesh P D) :
    Except Fail (Mesh P D) × Iter :=
  let resolution := max 1 f.levels
  let fs := List.replicate resolution Filt.new
  match fs[0]? with
  | none => (.error (.exc .outOfRange), { f with filters := fs })
  | some g =>
    match cellUpdate sch lib cosn (g.setCells f.cells) inp with
    | (.error e, g') => (.error e, { f with filters := fs.set 0 g' })
    | (.ok m, g') =>
      let r := iterLoop sch lib cosn (resolution - 1) 1 (fs.set 0 g') m
      (r.1, { f with filters := r.2 })

section criteria
variable [LinearOrder K]

/-- the test of itkCellArea….hxx:57-61 for one triangle cell; the state is the list `cellIds` being filled -/
def areaAct (area : P → P → P → K) (maxArea : K) (m : Mesh P D) (c : CId × Option Cell) : Prog (List CId) Unit :=
  match asTriangle c.2 with
  | none => Prog.pure ()
  | some t =>
    Prog.bind (Prog.lift (m.getPoint t.1)) fun pa =>
    Prog.bind (Prog.lift (m.getPoint t.2.1)) fun pb =>
    Prog.bind (Prog.lift (m.getPoint t.2.2)) fun pc =>
    if area pa pb pc > maxArea then Prog.modify (· ++ [c.1]) else Prog.pure ()

/-- `CellAreaTriangleCellSubdivisionCriterion::Compute(mesh, cellIds)`, itkCellArea….hxx:27-65; the state is the list
`cellIds`, which is cleared first; `area` is `TriangleHelper::ComputeArea`. -/
def areaCompute (area : P → P → P → K) (maxArea : K) (m : Mesh P D) : Prog (List CId) Unit :=
  Prog.bind (Prog.modify fun _ => []) fun _ => loopOrHang skipsCell (areaAct area maxArea m) m.cells

/-- the literal loop of `Compute` after `cellIds.clear()`, one unit of fuel per loop test -/
def areaComputeFuel (area : P → P → P → K) (maxArea : K) (m : Mesh P D) (fuel : Nat) :
    Option (Except Fail Unit × List CId) :=
  cursorLoop skipsCell (areaAct area maxArea m) fuel m.cells []

/-- the test of itkEdgeLength….hxx:38-46 for one edge; `len` is the distance that `QuadEdgeMesh::ComputeEdgeLength`
computes from the two end points -/
def lengthAct (len : P → P → K) (maxLen : K) (m : Mesh P D) (e : Edge) : Prog (List (Option Edge)) Unit :=
  Prog.bind (Prog.lift (m.getPoint e.1)) fun p0 =>
  Prog.bind (Prog.lift (m.getPoint e.2)) fun p1 =>
  if len p0 p1 > maxLen then Prog.modify (· ++ [some e]) else Prog.pure ()

/-- `EdgeLengthTriangleEdgeCellSubdivisionCriterion::Compute(mesh, edgeList)`, itkEdgeLength….hxx:27-49; the state is the
list `edgeList`, which is cleared first. -/
def lengthCompute (len : P → P → K) (maxLen : K) (m : Mesh P D) : Prog (List (Option Edge)) Unit :=
  Prog.bind (Prog.modify fun _ => []) fun _ =>
  if m.hasEdgeCells then Prog.forEach (lengthAct len maxLen m) m.edges else Prog.fail (.exc .noEdges)

end criteria

/-- Cells of a copied mesh: `CopyMeshToMeshCells` (ITK) adds the polygons of the input one by one, so that they are
numbered `0, 1, …`. -/
def renumber (cells : AMap (Option Cell)) : AMap (Option Cell) :=
  ((cells.filterMap fun c => c.2).filter (fun c => c.type = .polygon)).mapIdx (fun i c => (i, some c))

/-- the directed edges of a polygon -/
def polyDarts (pts : List PId) : List Edge := pts.zip (pts.tail ++ pts.take 1)

/-- the left face of a directed edge, from a list of numbered cells (the first one that has it) -/
def leftOf (cells : AMap (Option Cell)) (e : Edge) : Option CId :=
  cells.findSome? fun c =>
    match c.2 with
    | some p => if (polyDarts p.pts).contains e then some c.1 else none
    | none => none

/-- `QuadEdgeMeshToQuadEdgeMeshFilter::CopyInputMeshToOutputMeshGeometry` (ITK), called at itkConditional….hxx:44:
points, edges and faces are copied; cell data and point data are not. -/
def copyGeometry (lib : QELib) (inp : Mesh P D) : Mesh P D :=
  let cells := renumber inp.cells
  { points := inp.points.foldl (fun m kp => m.set kp.1 kp.2) (AMap.reserve [] inp.points.length 0)
    cells := cells
    cellData := none
    hasEdgeCells := true
    edges := inp.edges
    left := leftOf cells
    ring := lib.link inp.edges (leftOf cells) cells
    pointData := none }

/-- Members of the conditional filter, itkConditional….h:90-92, apart from the criterion: the inner filter object in its
current state and the list `m_CellsToBeSubdivided`. -/
structure Cond (S ι : Type) where
  inner : S
  sel : List ι

/-- The `while` loop of itkConditional….hxx:47-56, at most `fuel` iterations (`none`: not finished).
`upd` is `SetInput; SetCellsToBeSubdivided; Update` of the one inner filter object, whose state is threaded through;
`crit` is `Compute(GetOutput(), m_CellsToBeSubdivided)`; `cur` is the output mesh. -/
def condLoop {S ι : Type} (upd : S → List ι → Mesh P D → Except Fail (Mesh P D) × S)
    (crit : Mesh P D → Prog (List ι) Unit) : Nat → Cond S ι → Mesh P D → Option (Except Fail (Mesh P D) × Cond S ι)
  | n, c, cur =>
    if c.sel.isEmpty then some (.ok cur, c)
    else
      match n with
      | 0 => none
      | n + 1 =>
        match upd c.inner c.sel cur with
        | (.error e, s') => some (.error e, ⟨s', c.sel⟩)
        | (.ok m, s') =>
          match crit m c.sel with
          | (.error e, sel') => some (.error e, ⟨s', sel'⟩)
          | (.ok _, sel') => condLoop upd crit n ⟨s', sel'⟩ m

/-- `ConditionalSubdivisionQuadEdgeMeshFilter::GenerateData`, itkConditional….hxx:42-57.  A null criterion
(`SetSubdivisionCriterion` never called) is dereferenced at line 45. -/
def condGenerate {S ι : Type} (lib : QELib) (upd : S → List ι → Mesh P D → Except Fail (Mesh P D) × S)
    (crit : Option (Mesh P D → Prog (List ι) Unit)) (fuel : Nat) (c : Cond S ι) (inp : Mesh P D) :
    Option (Except Fail (Mesh P D) × Cond S ι) :=
  match crit with
  | none => some (.error (.ub .nullDeref), c)
  | some crit =>
    match crit (copyGeometry lib inp) c.sel with
    | (.error e, sel) => some (.error e, ⟨c.inner, sel⟩)
    | (.ok _, sel) => condLoop upd crit fuel ⟨c.inner, sel⟩ (copyGeometry lib inp)

/-- the inner filter of `ConditionalSubdivisionQuadEdgeMeshFilter<Mesh, …TriangleCellSubdivision…>` -/
def condCellUpd (sch : Scheme) (lib : QELib) (cosn : Nat → K) (f : Filt) (sel : List CId) (inp : Mesh P D) :
    Except Fail (Mesh P D) × Filt := cellUpdate sch lib cosn (f.setCells sel) inp

/-- the inner filter of `ConditionalSubdivisionQuadEdgeMeshFilter<Mesh, …TriangleEdgeCellSubdivision…>` -/
def condEdgeUpd (sch : EdgeScheme) (lib : QELib) (cosn : Nat → K) (f : Filt) (sel : List (Option Edge))
    (inp : Mesh P D) : Except Fail (Mesh P D) × Filt := edgeUpdate sch lib cosn (f.setEdges sel) inp

end Verif
