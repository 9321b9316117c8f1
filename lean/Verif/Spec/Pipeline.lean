import Verif.Model.Pipeline
/-
What the user of a filter in a pipeline has asked for.
-/
namespace Verif

/-- The settings (as the members of an object that is never run) and the input after some calls: `Update()` is not a
setting. -/
def asked {S M : Type} (s : S) (m : M) (cs : List (PipeCall S M)) : S × M :=
  cs.foldl (fun x c =>
    match c with
    | .set _ g => (g x.1, x.2)
    | .input m => (x.1, m)
    | .update _ _ => x) (s, m)

variable {K P D : Type}

/-- the calls that a cell filter offers -/
inductive IsCellCall : PipeCall Filt (Mesh P D) → Prop
  | set (l : List CId) : IsCellCall (callSetCells l)
  | add (c : CId) : IsCellCall (callAddCell c)
  | input (m : Mesh P D) : IsCellCall (.input m)
  | update (again touch : Bool) : IsCellCall (.update again touch)

/-- the calls that an edge filter offers; a list names edges of the input at that time, so that `input` stands for
changes of positions and data -/
inductive IsEdgeCall : PipeCall Filt (Mesh P D) → Prop
  | set (l : List (Option Edge)) : IsEdgeCall (callSetEdges l)
  | add (e : Option Edge) : IsEdgeCall (callAddEdge e)
  | input (m : Mesh P D) : IsEdgeCall (.input m)
  | update (again touch : Bool) : IsEdgeCall (.update again touch)

/-- the calls that the iterative filter offers -/
inductive IsIterCall : PipeCall Iter (Mesh P D) → Prop
  | set (l : List CId) : IsIterCall (callIterSetCells l)
  | add (c : CId) : IsIterCall (callIterAddCell c)
  | levels (n : Nat) : IsIterCall (callLevels n)
  | input (m : Mesh P D) : IsIterCall (.input m)
  | update (again touch : Bool) : IsIterCall (.update again touch)

/-- the calls that the conditional filter itself offers, and the input; `SetMaximumArea` of the criterion is not among
them -/
inductive IsCondCall : PipeCall (CondArea K) (Mesh P D) → Prop
  | criterion (a : K) : IsCondCall (callCriterion a)
  | input (m : Mesh P D) : IsCondCall (.input m)
  | update (again touch : Bool) : IsCondCall (.update again touch)

end Verif
