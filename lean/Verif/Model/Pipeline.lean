import Verif.Model.Drivers
/-
Whether `Update()` executes at all: the time stamps of ITK's demand-driven pipeline (dependency, not in /repo), for a filter
with one input mesh that has no source of its own, and the calls of `Modified()` in /repo.
-/
namespace Verif

/-- A filter object with members `S` in a pipeline with meshes `M`.  `clock` is the global counter behind
`itk::TimeStamp::Modified`; the other numbers are values it had. -/
structure Pipe (S M : Type) where
  clock : Nat
  members : S
  /-- `m_MTime` of the filter -/
  mtime : Nat
  input : M
  /-- `m_MTime` of the input mesh -/
  inputMTime : Nat
  /-- `m_OutputInformationMTime` of the filter -/
  infoMTime : Nat
  /-- `m_PipelineMTime` of the output -/
  pipelineMTime : Nat
  /-- `m_UpdateMTime` of the output -/
  updateMTime : Nat
  output : M

namespace Pipe
variable {S M : Type}

/-- `filter = New(); filter->SetInput(input)`; the output has not been generated yet -/
def new (s : S) (input nothing : M) : Pipe S M := ⟨2, s, 2, input, 1, 0, 0, 0, nothing⟩

/-- `ProcessObject::UpdateOutputInformation` (ITK): `t1` is the latest of the times of the filter and of its input; if it
is later than the last time this was done, the output gets it as its `m_PipelineMTime`. -/
def updateInformation (p : Pipe S M) : Pipe S M :=
  if p.infoMTime < max p.mtime p.inputMTime then
    { p with pipelineMTime := max p.mtime p.inputMTime, infoMTime := p.clock + 1, clock := p.clock + 1 }
  else p

/-- `Modified()` of the filter, if `touch` -/
def touched (touch : Bool) (p : Pipe S M) : Pipe S M :=
  if touch then { p with mtime := p.clock + 1, clock := p.clock + 1 } else p

/-- `ProcessObject::UpdateOutputData` (ITK): the output is emptied, `GenerateData` (here: `run`) is executed, and if it
returns the output gets a new `m_UpdateMTime` (`DataHasBeenGenerated`); an exception passes through (what a failed run has
put into the output by then is not modelled: `nothing`).
`touch`: in the iterative and the conditional filter, whose inner filters have the output of the outer one as their input
(itkIterative….hxx:68, itkConditional….hxx:49), the loop in the pipeline calls `Modified()` of the outer filter during
the run. -/
def execute (run : S → M → Option (Except Fail M × S)) (touch : Bool) (nothing : M) (p : Pipe S M) :
    Option (Except Fail Unit × Pipe S M) :=
  match run p.members p.input with
  | none => none
  | some (r, s) =>
    let p := p.touched touch
    match r with
    | .error e => some (.error e, { p with members := s, output := nothing })
    | .ok out => some (.ok (), { p with members := s, output := out, updateMTime := p.clock + 1, clock := p.clock + 1 })

/-- `filter->Update()` (ITK): `UpdateOutputInformation`, then `DataObject::UpdateOutputData`, which executes the filter if
`m_UpdateMTime < m_PipelineMTime`, or if the requested region is outside the buffered region.  For meshes the latter
depends on whether somebody has called `SetBufferedRegion`: this is the parameter `again`. -/
def update (run : S → M → Option (Except Fail M × S)) (again touch : Bool) (nothing : M) (p : Pipe S M) :
    Option (Except Fail Unit × Pipe S M) :=
  let p := p.updateInformation
  if p.updateMTime < p.pipelineMTime ∨ again = true then p.execute run touch nothing else some (.ok (), p)

end Pipe

/-- what a program can do with the filter and its input -/
inductive PipeCall (S M : Type) where
  /-- a member function that changes the members (`g`); `tells` says whether it calls `Modified()` of the filter -/
  | set (tells : S → Bool) (g : S → S)
  /-- the input mesh is changed and its `Modified()` called, or `SetInput` is called with another mesh object -/
  | input (m : M)
  /-- `Update()` -/
  | update (again touch : Bool)

/-- A call; `none` if it does not return or has undefined behaviour.  After an exception the program goes on. -/
def Pipe.call {S M : Type} (run : S → M → Option (Except Fail M × S)) (nothing : M) (p : Pipe S M) :
    PipeCall S M → Option (Pipe S M)
  | .set tells g =>
    some (if tells p.members then { p with members := g p.members, mtime := p.clock + 1, clock := p.clock + 1 }
      else { p with members := g p.members })
  | .input m => some { p with input := m, inputMTime := p.clock + 1, clock := p.clock + 1 }
  | .update again touch =>
    match p.update run again touch nothing with
    | some (.ok _, p') => some p'
    | some (.error (.exc _), p') => some p'
    | _ => none

/-- a sequence of calls -/
def Pipe.calls {S M : Type} (run : S → M → Option (Except Fail M × S)) (nothing : M) :
    List (PipeCall S M) → Pipe S M → Option (Pipe S M)
  | [], p => some p
  | c :: cs, p =>
    match p.call run nothing c with
    | some p' => Pipe.calls run nothing cs p'
    | none => none

section
variable {K P D : Type} [Field K] [Zero P] [Add P] [SMul K P]

/-- execution of a cell filter -/
def cellRun (sch : Scheme) (lib : QELib) (cosn : Nat → K) (f : Filt) (m : Mesh P D) : Option (Except Fail (Mesh P D) × Filt) :=
  some (cellUpdate sch lib cosn f m)

/-- execution of an edge filter -/
def edgeRun (sch : EdgeScheme) (lib : QELib) (cosn : Nat → K) (f : Filt) (m : Mesh P D) :
    Option (Except Fail (Mesh P D) × Filt) := some (edgeUpdate sch lib cosn f m)

/-- execution of the iterative filter -/
def iterRun (sch : Scheme) (lib : QELib) (cosn : Nat → K) (f : Iter) (m : Mesh P D) : Option (Except Fail (Mesh P D) × Iter) :=
  some (iterUpdate sch lib cosn f m)

/-- The conditional filter and the area criterion it has been given (`SetSubdivisionCriterion`), an object of its own with
the member `m_MaximumArea`, itkCellArea….h:78. -/
structure CondArea (K : Type) where
  cond : Cond Filt CId
  maxArea : K

/-- execution of the conditional filter, at most `fuel` iterations -/
def condAreaRun [LinearOrder K] (sch : Scheme) (lib : QELib) (cosn : Nat → K) (area : P → P → P → K) (fuel : Nat)
    (f : CondArea K) (m : Mesh P D) : Option (Except Fail (Mesh P D) × CondArea K) :=
  (condGenerate lib (condCellUpd sch lib cosn) (some (areaCompute area f.maxArea)) fuel f.cond m).map fun r =>
    (r.1, ⟨r.2, f.maxArea⟩)

/-- `filter->SetCellsToBeSubdivided(l)`, itkTriangleCell….hxx:33-38 (calls `Modified()`) -/
def callSetCells (l : List CId) : PipeCall Filt (Mesh P D) := .set (fun _ => true) (·.setCells l)
/-- `filter->AddSubdividedCellId(c)`, itkTriangleCell….hxx:42-46 (calls `Modified()`) -/
def callAddCell (c : CId) : PipeCall Filt (Mesh P D) := .set (fun _ => true) (·.addCell c)
/-- `filter->SetCellsToBeSubdivided(l)` of an edge filter, itkTriangleEdgeCell….hxx:31-36 (calls `Modified()`) -/
def callSetEdges (l : List (Option Edge)) : PipeCall Filt (Mesh P D) := .set (fun _ => true) (·.setEdges l)
/-- `filter->AddSubdividedEdge(e)`, itkTriangleEdgeCell….hxx:40-44 (calls `Modified()`) -/
def callAddEdge (e : Option Edge) : PipeCall Filt (Mesh P D) := .set (fun _ => true) (·.addEdge e)
/-- `filter->SetCellsToBeSubdivided(l)` of the iterative filter, itkIterative….hxx:33-40 (calls `Modified()`) -/
def callIterSetCells (l : List CId) : PipeCall Iter (Mesh P D) := .set (fun _ => true) (·.setCells l)
/-- `filter->AddSubdividedCellId(c)` of the iterative filter, itkIterative….hxx:42-49 (calls `Modified()`) -/
def callIterAddCell (c : CId) : PipeCall Iter (Mesh P D) := .set (fun _ => true) (·.addCell c)
/-- `filter->SetResolutionLevels(n)`, itkIterative….h:71: `itkSetMacro` calls `Modified()` if the value changes -/
def callLevels (n : Nat) : PipeCall Iter (Mesh P D) := .set (fun f => f.levels != n) (·.setLevels n)
/-- `criterion->SetMaximumArea(a)`, itkCellArea….h:71: `itkSetMacro` calls `Modified()` of the criterion, not of the
filter, and the filter's `GetMTime()` does not look at the criterion -/
def callMaximumArea (a : K) : PipeCall (CondArea K) (Mesh P D) := .set (fun _ => false) fun f => { f with maxArea := a }
/-- `filter->SetSubdivisionCriterion(criterion)` with a criterion of maximum area `a`, itkConditional….hxx:33-38 (calls
`Modified()` of the filter, even if the criterion is the one it has) -/
def callCriterion (a : K) : PipeCall (CondArea K) (Mesh P D) := .set (fun _ => true) fun f => { f with maxArea := a }

end
end Verif
