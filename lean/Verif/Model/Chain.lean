import Verif.Model.PipelineEdge
/-
Filters in a row: the output of each is the input of the next.  The recursion of ITK's demand-driven pipeline (dependency,
not in /repo) through such a row, and the `Update()` of the inner filters in the iterative filter, which reaches the filters
before it.
-/
namespace Verif

/-- A filter and its output, at one place in the row.  The times are as in `Pipe`. -/
structure Stage (S M : Type) where
  members : S
  /-- `m_MTime` of the filter -/
  mtime : Nat
  /-- `m_OutputInformationMTime` of the filter -/
  infoMTime : Nat
  /-- `m_MTime` of the output -/
  outMTime : Nat
  /-- `m_PipelineMTime` of the output -/
  pipelineMTime : Nat
  /-- `m_UpdateMTime` of the output -/
  updateMTime : Nat
  output : M

/-- The input mesh of the first filter, which has no source, and the filters: `stage 0` reads that mesh, `stage (k + 1)`
reads the output of `stage k`.  (The row has no end: who uses three filters looks at three of them.) -/
structure Chain (S M : Type) where
  clock : Nat
  source : M
  /-- `m_MTime` of the input mesh -/
  sourceMTime : Nat
  stage : Nat → Stage S M

namespace Chain
variable {S M : Type}

/-- new filter objects with members `s`, connected with `SetInput` -/
def new (s : Nat → S) (source nothing : M) : Chain S M := ⟨2, source, 1, fun k => ⟨s k, 2, 0, 0, 0, 0, nothing⟩⟩

/-- the filter at place `k` and its output are changed -/
def put (c : Chain S M) (k : Nat) (x : Stage S M) : Chain S M := { c with stage := fun j => if j = k then x else c.stage j }

/-- the mesh that the filter at place `k` reads -/
def input (c : Chain S M) : Nat → M
  | 0 => c.source
  | k + 1 => (c.stage k).output

/-- The latest of the times that `ProcessObject::UpdateOutputInformation` looks at: `GetMTime()` of the filter,
`GetPipelineMTime()` and `GetMTime()` of its input. -/
def times (c : Chain S M) : Nat → Nat
  | 0 => max (c.stage 0).mtime c.sourceMTime
  | k + 1 => max (c.stage (k + 1)).mtime (max (c.stage k).pipelineMTime (c.stage k).outMTime)

/-- `ProcessObject::UpdateOutputInformation` (ITK) after that of the filter before -/
def informStage (k : Nat) (c : Chain S M) : Chain S M :=
  if (c.stage k).infoMTime < c.times k then
    { c.put k { c.stage k with pipelineMTime := c.times k, infoMTime := c.clock + 1 } with clock := c.clock + 1 }
  else c

/-- `ProcessObject::UpdateOutputInformation` (ITK) of the filter at place `k`: first that of the filter before. -/
def updateInformation : Nat → Chain S M → Chain S M
  | 0, c => c.informStage 0
  | k + 1, c => (c.updateInformation k).informStage (k + 1)

/-- `GenerateData()` of the filter at place `k` and what comes after it in `ProcessObject::UpdateOutputData` (ITK):
`DataHasBeenGenerated` gives the output a new `m_MTime` and a new `m_UpdateMTime`.  `touch` as in `Pipe.execute`. -/
def generate (run : S → M → Option (Except Fail M × S)) (touch : Bool) (nothing : M) (k : Nat) (c : Chain S M) :
    Option (Except Fail Unit × Chain S M) :=
  match run (c.stage k).members (c.input k) with
  | none => none
  | some (r, s) =>
    let x := { c.stage k with members := s, mtime := if touch then c.clock + 1 else (c.stage k).mtime }
    match r with
    | .error e => some (.error e, { c.put k { x with output := nothing } with clock := c.clock + 1 })
    | .ok out => some (.ok (), { c.put k { x with output := out, outMTime := c.clock + 2, updateMTime := c.clock + 3 } with
        clock := c.clock + 3 })

/-- What goes on around the filters: `again k t` — the requested region of the mesh at place `k` is outside its buffered
region at time `t`; `touch k t` — the loop in the pipeline calls `Modified()` of the filter at place `k` while it runs
(see `Pipe.update`, `Pipe.execute`).  Both are arbitrary. -/
structure Around where
  again : Nat → Nat → Bool
  touch : Nat → Nat → Bool

/-- `DataObject::UpdateOutputData` (ITK) of the output at place `k`.  If it is out of date its filter is executed:
`ProcessObject::UpdateOutputData` first asks the input for its data, in the same way, then calls `GenerateData`.

`pulls`: the filter itself calls `Update()` with its input, once more.  The iterative filter does: its first inner filter
has the same input, and the input has the filter before as its source (`at(0)->SetInput(this->GetInput())`,
`at(0)->Update()`, itkIterative….hxx:61, 63).  In the conditional filter the inner filter reads the output of the outer one,
which is being updated, so that the call ends there (itkConditional….hxx:49, 51).

If an exception comes from the filters before, the output has been emptied already (`PrepareOutputs`). -/
def updateData (run : S → M → Option (Except Fail M × S)) (pulls : S → Bool) (w : Around) (nothing : M) :
    Nat → Chain S M → Option (Except Fail Unit × Chain S M)
  | 0, c =>
    if (c.stage 0).updateMTime < (c.stage 0).pipelineMTime ∨ w.again 0 c.clock = true then
      c.generate run (w.touch 0 c.clock) nothing 0
    else some (.ok (), c)
  | k + 1, c =>
    if (c.stage (k + 1)).updateMTime < (c.stage (k + 1)).pipelineMTime ∨ w.again (k + 1) c.clock = true then
      match updateData run pulls w nothing k c with
      | none => none
      | some (.error e, c) => some (.error e, c.put (k + 1) { c.stage (k + 1) with output := nothing })
      | some (.ok _, c) =>
        if pulls (c.stage (k + 1)).members then
          match updateData run pulls w nothing k (c.updateInformation k) with
          | none => none
          | some (.error e, c) => some (.error e, c.put (k + 1) { c.stage (k + 1) with output := nothing })
          | some (.ok _, c) => c.generate run (w.touch (k + 1) c.clock) nothing (k + 1)
        else c.generate run (w.touch (k + 1) c.clock) nothing (k + 1)
    else some (.ok (), c)

/-- `Update()` (ITK) of the filter at place `k` -/
def update (run : S → M → Option (Except Fail M × S)) (pulls : S → Bool) (w : Around) (nothing : M) (k : Nat)
    (c : Chain S M) : Option (Except Fail Unit × Chain S M) := updateData run pulls w nothing k (c.updateInformation k)

end Chain

/-- what a program can do with the filters and the input mesh -/
inductive ChainCall (S M : Type) where
  /-- a member function of the filter at place `k` that changes its members (`g`); `tells` says whether it calls
  `Modified()` -/
  | set (k : Nat) (tells : S → Bool) (g : S → S)
  /-- the input mesh is changed and its `Modified()` called -/
  | input (m : M)
  /-- `Update()` of the filter at place `k` -/
  | update (k : Nat) (w : Chain.Around)

/-- A call; `none` if it does not return or has undefined behaviour.  After an exception the program goes on. -/
def Chain.call {S M : Type} (run : S → M → Option (Except Fail M × S)) (pulls : S → Bool) (nothing : M) (c : Chain S M) :
    ChainCall S M → Option (Chain S M)
  | .set k tells g =>
    some (if tells (c.stage k).members then
        { c.put k { c.stage k with members := g (c.stage k).members, mtime := c.clock + 1 } with clock := c.clock + 1 }
      else c.put k { c.stage k with members := g (c.stage k).members })
  | .input m => some { c with source := m, sourceMTime := c.clock + 1, clock := c.clock + 1 }
  | .update k w =>
    match c.update run pulls w nothing k with
    | some (.ok _, c) => some c
    | some (.error (.exc _), c) => some c
    | _ => none

/-- a sequence of calls -/
def Chain.calls {S M : Type} (run : S → M → Option (Except Fail M × S)) (pulls : S → Bool) (nothing : M) :
    List (ChainCall S M) → Chain S M → Option (Chain S M)
  | [], c => some c
  | x :: xs, c =>
    match c.call run pulls nothing x with
    | some c => Chain.calls run pulls nothing xs c
    | none => none

/-- a filter of any class of the module -/
inductive AnyFilt (K : Type) where
  | cell (sch : Scheme) (f : Filt)
  | edge (sch : EdgeScheme) (f : Filt)
  | iter (sch : Scheme) (f : Iter)
  | cond (sch : Scheme) (f : CondArea K)
  | condEdge (sch : EdgeScheme) (f : CondLength K)

/-- which filters call `Update()` with their own input, see `Chain.updateData` -/
def AnyFilt.pulls {K : Type} : AnyFilt K → Bool
  | .iter _ _ => true
  | _ => false

section
variable {K P D : Type} [Field K] [Zero P] [Add P] [SMul K P] [LinearOrder K]

/-- execution of a filter; for the conditional filter at most `fuel` iterations -/
def anyRun (lib : QELib) (cosn : Nat → K) (area : P → P → P → K) (len : P → P → K) (fuel : Nat)
    (m : AnyFilt K) (inp : Mesh P D) :
    Option (Except Fail (Mesh P D) × AnyFilt K) :=
  match m with
  | .cell sch f => (cellRun sch lib cosn f inp).map fun r => (r.1, .cell sch r.2)
  | .edge sch f => (edgeRun sch lib cosn f inp).map fun r => (r.1, .edge sch r.2)
  | .iter sch f => (iterRun sch lib cosn f inp).map fun r => (r.1, .iter sch r.2)
  | .cond sch f => (condAreaRun sch lib cosn area fuel f inp).map fun r => (r.1, .cond sch r.2)
  | .condEdge sch f => (condLengthRun sch lib cosn len fuel f inp).map fun r => (r.1, .condEdge sch r.2)

/-- a member function of the iterative filter -/
def onIter (g : Iter → Iter) : AnyFilt K → AnyFilt K
  | .iter sch f => .iter sch (g f)
  | x => x
/-- a member function of the conditional filter -/
def onCond (g : CondArea K → CondArea K) : AnyFilt K → AnyFilt K
  | .cond sch f => .cond sch (g f)
  | x => x
/-- a member function of the conditional filter with an edge filter -/
def onCondEdge (g : CondLength K → CondLength K) : AnyFilt K → AnyFilt K
  | .condEdge sch f => .condEdge sch (g f)
  | x => x
/-- a member function of a cell filter -/
def onCell (g : Filt → Filt) : AnyFilt K → AnyFilt K
  | .cell sch f => .cell sch (g f)
  | x => x

/-- `SetCellsToBeSubdivided` of the cell filter at place `k`, itkTriangleCell….hxx:33-38 -/
def chainSetCells (k : Nat) (l : List CId) : ChainCall (AnyFilt K) (Mesh P D) := .set k (fun _ => true) (onCell (·.setCells l))
/-- `SetCellsToBeSubdivided` of the iterative filter at place `k`, itkIterative….hxx:33-40 -/
def chainIterSetCells (k : Nat) (l : List CId) : ChainCall (AnyFilt K) (Mesh P D) :=
  .set k (fun _ => true) (onIter (·.setCells l))
/-- `AddSubdividedCellId` of the iterative filter at place `k`, itkIterative….hxx:42-49 -/
def chainIterAddCell (k : Nat) (i : CId) : ChainCall (AnyFilt K) (Mesh P D) := .set k (fun _ => true) (onIter (·.addCell i))
/-- `SetResolutionLevels` of the iterative filter at place `k`, itkIterative….h:71: calls `Modified()` if the value
changes -/
def chainLevels (k : Nat) (n : Nat) : ChainCall (AnyFilt K) (Mesh P D) :=
  .set k (fun x => match x with | .iter _ f => f.levels != n | _ => false) (onIter (·.setLevels n))
/-- `SetSubdivisionCriterion` of the conditional filter at place `k`, itkConditional….hxx:33-38 -/
def chainCriterion (k : Nat) (a : K) : ChainCall (AnyFilt K) (Mesh P D) :=
  .set k (fun _ => true) (onCond fun f => { f with maxArea := a })
/-- `SetSubdivisionCriterion` of the conditional filter with an edge filter at place `k`, itkConditional….hxx:33-38 -/
def chainLengthCriterion (k : Nat) (a : K) : ChainCall (AnyFilt K) (Mesh P D) :=
  .set k (fun _ => true) (onCondEdge fun f => { f with maxLen := a })

end
end Verif
