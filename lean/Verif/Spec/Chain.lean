import Verif.Model.Chain
/-
What the user of a row of filters has asked for.
-/
namespace Verif

/-- The settings of the filters (as the members of objects that are never run) and the input mesh after some calls:
`Update()` is not a setting. -/
def askedChain {S M : Type} (s : Nat → S) (m : M) (cs : List (ChainCall S M)) : (Nat → S) × M :=
  cs.foldl (fun x c =>
    match c with
    | .set k _ g => (fun j => if j = k then g (x.1 j) else x.1 j, x.2)
    | .input m => (x.1, m)
    | .update _ _ => x) (s, m)

/-- What comes out at place `k` when every filter is executed once, on a new object with members `s`, by hand and without any
pipeline: the result of the first run that fails, or the mesh of the last. -/
def byHand {S M : Type} (run : S → M → Option (Except Fail M × S)) (s : Nat → S) (m : M) : Nat → Option (Except Fail M)
  | 0 => (run (s 0) m).map Prod.fst
  | k + 1 =>
    match byHand run s m k with
    | some (.ok x) => (run (s (k + 1)) x).map Prod.fst
    | r => r

/-- what an `Update()` of the filter at place `k` gives its caller -/
def gives {S M : Type} (k : Nat) (r : Option (Except Fail Unit × Chain S M)) : Option (Except Fail M) :=
  r.map fun x => x.1.map fun _ => (x.2.stage k).output

variable {K P D : Type}

/-- The filters of the theorem: cell filters and edge filters that have been given no list, the iterative filter in any
state, the conditional filter with a criterion of the area and any inner filter but Loop, and with a criterion of the length and
any edge filter. -/
inductive Steady : AnyFilt K → Prop
  | cell (sch : Scheme) {f : Filt} (h : f.cells = []) (h' : f.uniform = true) : Steady (.cell sch f)
  | edge (sch : EdgeScheme) {f : Filt} (h : f.edgeSel = []) : Steady (.edge sch f)
  | iter (sch : Scheme) (f : Iter) : Steady (.iter sch f)
  | cond {sch : Scheme} (h : sch ≠ .loop) (f : CondArea K) : Steady (.cond sch f)
  | condEdge (sch : EdgeScheme) (f : CondLength K) : Steady (.condEdge sch f)

/-- The calls that these filters offer, at any place, and changes of the input mesh.  Not among them: the lists of the cell
filters (C48); the lists of the edge filters, which hold pointers into a mesh that is gone as soon as the filter before is
executed again; `SetMaximumArea` and `SetMaximumLength` of a criterion (C48). -/
inductive IsChainCall : ChainCall (AnyFilt K) (Mesh P D) → Prop
  | iterSet (k : Nat) (l : List CId) : IsChainCall (chainIterSetCells k l)
  | iterAdd (k : Nat) (i : CId) : IsChainCall (chainIterAddCell k i)
  | levels (k n : Nat) : IsChainCall (chainLevels k n)
  | criterion (k : Nat) (a : K) : IsChainCall (chainCriterion k a)
  | lengthCriterion (k : Nat) (a : K) : IsChainCall (chainLengthCriterion k a)
  | input (m : Mesh P D) : IsChainCall (.input m)
  | update (k : Nat) (w : Chain.Around) : IsChainCall (.update k w)

end Verif
