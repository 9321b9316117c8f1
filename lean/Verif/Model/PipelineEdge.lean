import Verif.Model.Pipeline
/-
The conditional filter with an edge filter and the length criterion, as a filter of a pipeline.
-/
namespace Verif
variable {K P D : Type} [Field K] [Zero P] [Add P] [SMul K P]

/-- The conditional filter and the length criterion it has been given (`SetSubdivisionCriterion`), an object of its own with
the member `m_MaximumLength`, itkEdgeLength….h:77. -/
structure CondLength (K : Type) where
  cond : Cond Filt (Option Edge)
  maxLen : K

/-- execution of the conditional filter, at most `fuel` iterations -/
def condLengthRun [LinearOrder K] (sch : EdgeScheme) (lib : QELib) (cosn : Nat → K) (len : P → P → K) (fuel : Nat)
    (f : CondLength K) (m : Mesh P D) : Option (Except Fail (Mesh P D) × CondLength K) :=
  (condGenerate lib (condEdgeUpd sch lib cosn) (some (lengthCompute len f.maxLen)) fuel f.cond m).map fun r =>
    (r.1, ⟨r.2, f.maxLen⟩)

/-- `criterion->SetMaximumLength(a)`, itkEdgeLength….h:70: `itkSetMacro` calls `Modified()` of the criterion, not of the
filter, and the filter's `GetMTime()` does not look at the criterion -/
def callMaximumLength (a : K) : PipeCall (CondLength K) (Mesh P D) := .set (fun _ => false) fun f => { f with maxLen := a }
/-- `filter->SetSubdivisionCriterion(criterion)` with a criterion of maximum length `a`, itkConditional….hxx:33-38 (calls
`Modified()` of the filter, even if the criterion is the one it has) -/
def callLengthCriterion (a : K) : PipeCall (CondLength K) (Mesh P D) := .set (fun _ => true) fun f => { f with maxLen := a }

end Verif
