import Verif.Model.EdgeFilters
/-
What a program can do with one filter object before a run.
-/
namespace Verif
variable {K P D : Type} [Field K] [Zero P] [Add P] [SMul K P]

/-- a call on a cell filter -/
inductive CellCall (P D : Type) where
  /-- `SetCellsToBeSubdivided(l)` -/
  | set (l : List CId)
  /-- `AddSubdividedCellId(c)` -/
  | add (c : CId)
  /-- `SetInput(m); Update()`; it need not return normally -/
  | run (m : Mesh P D)

/-- a cell filter object after some calls on a new object -/
def afterCalls (sch : Scheme) (lib : QELib) (cosn : Nat → K) (calls : List (CellCall P D)) : Filt :=
  calls.foldl (fun f c =>
    match c with
    | .set l => f.setCells l
    | .add k => f.addCell k
    | .run m => (cellUpdate sch lib cosn f m).2) Filt.new

/-- a call on an edge filter -/
inductive EdgeCall (P D : Type) where
  /-- `SetCellsToBeSubdivided(l)` -/
  | set (l : List (Option Edge))
  /-- `AddSubdividedEdge(e)` -/
  | add (e : Option Edge)
  /-- `SetInput(m); Update()`; it need not return normally -/
  | run (m : Mesh P D)

/-- an edge filter object after some calls on a new object -/
def afterEdgeCalls (sch : EdgeScheme) (lib : QELib) (cosn : Nat → K) (calls : List (EdgeCall P D)) : Filt :=
  calls.foldl (fun f c =>
    match c with
    | .set l => f.setEdges l
    | .add e => f.addEdge e
    | .run m => (edgeUpdate sch lib cosn f m).2) Filt.new

end Verif
