import Verif.Model.PipelineEdge
import Verif.Properties.Pipeline
/-
C48 for the conditional filter with the edge filters and the length criterion.
-/
namespace Verif
set_option linter.unusedSectionVars false
variable {K P D : Type} [Field K] [Zero P] [Add P] [SMul K P] [LinearOrder K]

/-- the calls that the conditional filter itself offers, and the input; `SetMaximumLength` of the criterion is not among them -/
inductive IsCondEdgeCall : PipeCall (CondLength K) (Mesh P D) → Prop
  | criterion (a : K) : IsCondEdgeCall (callLengthCriterion a)
  | input (m : Mesh P D) : IsCondEdgeCall (.input m)
  | update (again touch : Bool) : IsCondEdgeCall (.update again touch)

/-- C48 for the conditional filter with the length criterion and any edge filter, Loop included, as long as the threshold is
changed with `SetSubdivisionCriterion` only.  What is missing: `SetMaximumLength` on the criterion, see
`C48_maximum_length_refuted`. -/
theorem C48_conditional_edge_partial (sch : EdgeScheme) (lib : QELib) (cosn : Nat → K) (len : P → P → K)
    (fuel : Nat) {cs : List (PipeCall (CondLength K) (Mesh P D))} (hcs : ∀ c ∈ cs, IsCondEdgeCall c) {c0 : CondLength K}
    {inp : Mesh P D} {p p' : Pipe (CondLength K) (Mesh P D)}
    (hx : (Pipe.new c0 inp Mesh.empty).calls (condLengthRun sch lib cosn len fuel) Mesh.empty cs = some p)
    {again touch : Bool} (hu : p.update (condLengthRun sch lib cosn len fuel) again touch Mesh.empty = some (.ok (), p')) :
    (condLengthRun sch lib cosn len fuel (asked c0 inp cs).1 (asked c0 inp cs).2).map Prod.fst = some (.ok p'.output) := by
  refine Pipe.up_to_date (run := condLengthRun sch lib cosn len fuel) (fun s a => s.maxLen = a.maxLen)
    (fun _ => rfl)
    (fun s a m r s' h hr => by
      unfold condLengthRun at hr
      cases hg : condGenerate lib (condEdgeUpd sch lib cosn) (some (lengthCompute len s.maxLen)) fuel s.cond m with
      | none => rw [hg] at hr; cases hr
      | some x => rw [hg] at hr; cases hr; exact h)
    (fun s a m h => by
      unfold condLengthRun
      rw [h]
      have := condGenerate_members (upd := condEdgeUpd (D := D) sch lib cosn) (crit := lengthCompute len a.maxLen)
        (fun s s' sel m => edgeUpdate_same sch lib cosn m SameEdges.rfl) (fun m l l' => rfl) lib fuel s.cond a.cond m
      rw [Option.map_map, Option.map_map]
      exact this)
    (cs := cs)
    (fun tells g hg s a h => by
      have := hcs _ hg
      generalize hc : PipeCall.set tells g = c at this
      cases this with
      | criterion l => cases hc; rfl
      | input m => cases hc
      | update a t => cases hc)
    (fun tells g hg s ht => by
      have := hcs _ hg
      generalize hc : PipeCall.set tells g = c at this
      cases this with
      | criterion l => cases hc; cases ht
      | input m => cases hc
      | update a t => cases hc)
    hx hu

/-- C48 is false for `criterion->SetMaximumLength(a)`: the filter does not look at the time stamp of its criterion, and
after an `Update()` that returned, the next one (if the pipeline does not ask again for other reasons) returns the same
mesh, whatever the new threshold. -/
theorem C48_maximum_length_refuted {sch : EdgeScheme} {lib : QELib} {cosn : Nat → K} {len : P → P → K} {fuel : Nat}
    {cs : List (PipeCall (CondLength K) (Mesh P D))} {c0 : CondLength K} {inp : Mesh P D} {p p1 : Pipe (CondLength K) (Mesh P D)}
    (hx : (Pipe.new c0 inp Mesh.empty).calls (condLengthRun sch lib cosn len fuel) Mesh.empty cs = some p)
    {again touch : Bool} (hu : p.update (condLengthRun sch lib cosn len fuel) again touch Mesh.empty = some (.ok (), p1))
    (a : K) (touch' : Bool) :
    ∃ p2 p3, p1.call (condLengthRun sch lib cosn len fuel) Mesh.empty (callMaximumLength a) = some p2 ∧
      p2.members.maxLen = a ∧
      p2.update (condLengthRun sch lib cosn len fuel) false touch' Mesh.empty = some (.ok (), p3) ∧ p3.output = p1.output := by
  have hI := Pipe.calls_order (Pipe.new_inv (good := fun _ _ _ => True) c0 inp Mesh.empty) hx
  have hc := Pipe.update_clean hI hu
  have hc2 : (Pipe.updateInformation { p1 with members := { p1.members with maxLen := a } }).pipelineMTime ≤ p1.updateMTime := by
    unfold Pipe.updateInformation at hc ⊢
    split at hc
    · rename_i hlt; rw [if_pos hlt]; exact hc
    · rename_i hlt; rw [if_neg hlt]; exact hc
  refine ⟨{ p1 with members := { p1.members with maxLen := a } }, _, rfl, rfl, Pipe.update_skips hc2 touch', ?_⟩
  exact (Pipe.updateInformation_same _).2.2.1

/-- Concretely: threshold 10 leaves the four triangles of `patchMesh`; after `SetMaximumLength(7)` one edge is too long, and a
new filter would give 6 triangles, but `Update()` still gives the four. -/
theorem C48_maximum_length_witness_refuted :
    (afterUpdate (condLengthRun .linear someLib cos0 taxi 1) Mesh.empty
      (Pipe.new ⟨⟨Filt.new, []⟩, 10⟩ patchMesh Mesh.empty) [.update false false, callMaximumLength 7]).map
        (fun m => m.tris.length) = some 4 ∧
    ((condLengthRun .linear someLib cos0 taxi 1 ⟨⟨Filt.new, []⟩, 7⟩ patchMesh).bind fun r => r.1.toOption).map
      (fun m => m.tris.length) = some 6 := by
  constructor <;> decide +kernel

example : (afterUpdate (condLengthRun .linear someLib cos0 taxi 1) Mesh.empty
      (Pipe.new ⟨⟨Filt.new, []⟩, 10⟩ patchMesh Mesh.empty) [.update false false, callLengthCriterion 7, .input patchMesh]).isSome = true ∧
    (∀ c ∈ ([.update false false, callLengthCriterion 7, .input patchMesh] : List (PipeCall (CondLength ℚ) (Mesh Q3 Nat))),
      IsCondEdgeCall c) := by
  refine ⟨by decide +kernel, ?_⟩
  intro c hc
  simp only [List.mem_cons, List.not_mem_nil, or_false] at hc
  rcases hc with rfl | rfl | rfl
  · exact .update _ _
  · exact .criterion _
  · exact .input _

end Verif
