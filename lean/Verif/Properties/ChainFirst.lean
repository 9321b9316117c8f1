import Verif.Properties.Chain
/-
C72: the first `Update()` of a row, also with lists of cells and edges.
-/
namespace Verif
set_option linter.unusedSectionVars false

namespace Chain
variable {S M : Type}

/-- no filter has been executed; the members and the input mesh are these -/
structure Unrun (s : Nat → S) (m : M) (c : Chain S M) : Prop extends Times c where
  never : ∀ k, (c.stage k).updateMTime = 0
  made : ∀ k, 0 < (c.stage k).mtime
  asked : ∀ k, (c.stage k).members = s k
  reads : c.source = m

theorem new_unrun (s : Nat → S) (m nothing : M) : (Chain.new s m nothing).Unrun s m :=
  ⟨new_times s m nothing, fun _ => rfl, fun _ => Nat.two_pos, fun _ => rfl, rfl⟩

theorem calls_unrun {run : S → M → Option (Except Fail M × S)} {pulls : S → Bool} {nothing : M} {cs : List (ChainCall S M)}
    (hcs : ∀ x ∈ cs, ∀ k w, x ≠ .update k w) {s : Nat → S} {m : M} {c d : Chain S M} (hc : c.Unrun s m)
    (hx : c.calls run pulls nothing cs = some d) : d.Unrun (askedChain s m cs).1 (askedChain s m cs).2 := by
  have ht := calls_times hc.toTimes hx
  suffices h : ∀ (cs : List (ChainCall S M)), (∀ x ∈ cs, ∀ k w, x ≠ .update k w) → ∀ (s : Nat → S) (m : M) (c : Chain S M),
      ((∀ k, (c.stage k).updateMTime = 0) ∧ (∀ k, 0 < (c.stage k).mtime) ∧ (∀ k, (c.stage k).members = s k) ∧ c.source = m) →
      c.calls run pulls nothing cs = some d →
      (∀ k, (d.stage k).updateMTime = 0) ∧ (∀ k, 0 < (d.stage k).mtime) ∧
        (∀ k, (d.stage k).members = (askedChain s m cs).1 k) ∧ d.source = (askedChain s m cs).2 by
    obtain ⟨a1, a2, a3, a4⟩ := h cs hcs s m c ⟨hc.never, hc.made, hc.asked, hc.reads⟩ hx
    exact ⟨ht, a1, a2, a3, a4⟩
  intro cs
  induction cs with
  | nil => intro _ s m c h hx; cases hx; exact h
  | cons x cs ih =>
    intro hcs s m c h hx
    obtain ⟨a1, a2, a3, a4⟩ := h
    have ih' := ih fun x hx => hcs x (List.mem_cons_of_mem _ hx)
    cases x with
    | set j tells g =>
      refine ih' (fun i => if i = j then g (s i) else s i) m _ ?_ hx
      split
      all_goals
        refine ⟨fun k => ?_, fun k => ?_, fun k => ?_, a4⟩
        all_goals
          dsimp only
          by_cases hk : k = j
          · subst hk
            rw [put_same]
            first
              | exact a1 _
              | exact Nat.succ_pos _
              | exact a2 _
              | (rw [if_pos rfl, a3])
          · rw [put_other _ _ hk]
            first
              | exact a1 _
              | exact a2 _
              | (rw [if_neg hk]; exact a3 _)
    | input m' => exact ih' s m' { c with source := m', sourceMTime := c.clock + 1, clock := c.clock + 1 } ⟨a1, a2, a3, rfl⟩ hx
    | update j w => exact absurd rfl (hcs _ List.mem_cons_self j w)

/-- every filter on the way is out of date: each is executed, in the order of the row -/
theorem updateData_first {run : S → M → Option (Except Fail M × S)} {pulls : S → Bool} {w : Chain.Around} {nothing : M}
    {c : Chain S M} (k : Nat) (ho : ∀ j ≤ k, (c.stage j).updateMTime < (c.stage j).pipelineMTime)
    (hp : ∀ j < k, pulls (c.stage (j + 1)).members = false) :
    match updateData run pulls w nothing k c with
    | none => byHand run (fun j => (c.stage j).members) c.source k = none
    | some (.error e, _) => byHand run (fun j => (c.stage j).members) c.source k = some (.error e)
    | some (.ok _, d) => byHand run (fun j => (c.stage j).members) c.source k = some (.ok (d.stage k).output) ∧
        ∀ j, k < j → d.stage j = c.stage j := by
  induction k with
  | zero =>
    unfold updateData
    rw [if_pos (Or.inl (ho 0 (Nat.le_refl _)))]
    unfold generate
    rcases hr : run (c.stage 0).members (c.input 0) with _ | ⟨e | out, s⟩
    · show (run _ _).map _ = none
      exact congrArg (Option.map Prod.fst) hr
    · show (run _ _).map _ = _
      exact congrArg (Option.map Prod.fst) hr
    · refine ⟨?_, fun j hj => put_other _ _ (Nat.ne_of_gt hj)⟩
      dsimp only; rw [put_same]
      exact congrArg (Option.map Prod.fst) hr
  | succ k ih =>
    have ih := ih (fun j hj => ho j (Nat.le_succ_of_le hj)) fun j hj => hp j (Nat.lt_succ_of_lt hj)
    unfold updateData
    rw [if_pos (Or.inl (ho _ (Nat.le_refl _)))]
    rcases h1 : updateData run pulls w nothing k c with _ | ⟨e | ⟨⟩, c1⟩
    · rw [h1] at ih
      dsimp only at ih ⊢
      unfold byHand; rw [ih]
    · rw [h1] at ih
      dsimp only at ih ⊢
      unfold byHand; rw [ih]
    · rw [h1] at ih
      obtain ⟨a1, a2⟩ := ih
      dsimp only
      have hno : pulls (c1.stage (k + 1)).members = false := by rw [a2 _ (Nat.lt_succ_self k)]; exact hp k (Nat.lt_succ_self k)
      rw [if_neg (by rw [hno]; decide)]
      unfold byHand; rw [a1]
      unfold generate
      rw [a2 _ (Nat.lt_succ_self k)]
      rw [show c1.input (k + 1) = (c1.stage k).output from rfl]
      rcases hr : run (c.stage (k + 1)).members (c1.stage k).output with _ | ⟨e | out, s⟩
      · exact congrArg (Option.map Prod.fst) hr
      · exact congrArg (Option.map Prod.fst) hr
      · refine ⟨?_, fun j hj => ?_⟩
        · dsimp only; rw [put_same]
          exact congrArg (Option.map Prod.fst) hr
        · dsimp only; rw [put_other _ _ (Nat.ne_of_gt hj)]; exact a2 j (Nat.lt_of_succ_lt hj)

theorem gives_first {run : S → M → Option (Except Fail M × S)} {pulls : S → Bool} {w : Chain.Around} {nothing : M}
    {s : Nat → S} {m : M} {c : Chain S M} (hc : c.Unrun s m) (k : Nat) (hp : ∀ j < k, pulls (s (j + 1)) = false) :
    gives k (c.update run pulls w nothing k) = byHand run s m k := by
  obtain ⟨al, -, h3, -⟩ := updateInformation_times hc.toTimes k
  have hm : ∀ j, ((c.updateInformation k).stage j).members = s j := fun j => (al.members j).symm.trans (hc.asked j)
  have h := updateData_first (run := run) (pulls := pulls) (w := w) (nothing := nothing) (c := c.updateInformation k) k
    (fun j hj => by
      rw [h3 j hj, ← al.upd, hc.never]
      exact Nat.lt_of_lt_of_le (al.mtime j ▸ hc.made j) (mtime_le_latest _ (Nat.le_refl j)))
    (fun j hj => by rw [hm]; exact hp j hj)
  simp only [hm, ← al.source, hc.reads] at h
  unfold update
  rcases h1 : updateData run pulls w nothing k (c.updateInformation k) with _ | ⟨e | ⟨⟩, d⟩
  · rw [h1] at h; exact h.symm
  · rw [h1] at h; exact h.symm
  · rw [h1] at h; exact h.1.symm

end Chain

variable {K P D : Type} [Field K] [Zero P] [Add P] [SMul K P] [LinearOrder K]

/-- C72 for the first `Update()`: whatever the filters have been given — lists of cells or edges, conditions with any inner filter —
if none behind the first place is iterative, the first `Update()` after any settings gives what the filters give by hand.

What is missing: a second `Update()`, for which it is false (`C48`, `C91_shared_list_refuted`), and iterative filters behind a
filter with a list (`C72_list_before_iterative_refuted`). -/
theorem C72_first_update_partial (lib : QELib) (cosn : Nat → K) (area : P → P → P → K) (len : P → P → K) (fuel : Nat)
    {s : Nat → AnyFilt K} {cs : List (ChainCall (AnyFilt K) (Mesh P D))} (hcs : ∀ x ∈ cs, ∀ k w, x ≠ .update k w) {inp : Mesh P D}
    {c : Chain (AnyFilt K) (Mesh P D)}
    (hx : (Chain.new s inp Mesh.empty).calls (anyRun lib cosn area len fuel) AnyFilt.pulls Mesh.empty cs = some c) (k : Nat)
    (hni : ∀ j < k, ∀ sch f, (askedChain s inp cs).1 (j + 1) ≠ .iter sch f) (w : Chain.Around) :
    gives k (c.update (anyRun lib cosn area len fuel) AnyFilt.pulls w Mesh.empty k) =
      byHand (anyRun lib cosn area len fuel) (askedChain s inp cs).1 (askedChain s inp cs).2 k := by
  refine Chain.gives_first (Chain.calls_unrun hcs (Chain.new_unrun s inp Mesh.empty) hx) k fun j hj => ?_
  rcases h : (askedChain s inp cs).1 (j + 1) with ⟨sch, f⟩ | ⟨sch, f⟩ | ⟨sch, f⟩ | ⟨sch, f⟩ | ⟨sch, f⟩
  · rfl
  · rfl
  · exact absurd h (hni j hj sch f)
  · rfl
  · rfl

section examples

/-- two cell filters with lists in a row: the four triangles of `patchMesh`, two of them cut, and then one of the new ones -/
def listRow : Nat → AnyFilt ℚ := fun _ => .cell .linear Filt.new
def listRowCalls : List (ChainCall (AnyFilt ℚ) (Mesh Q3 Nat)) := [chainSetCells 0 [1, 3], chainSetCells 1 [2], .input patchMesh]

example (w : Chain.Around) (c : Chain (AnyFilt ℚ) (Mesh Q3 Nat))
    (h : (Chain.new listRow tetraMesh Mesh.empty).calls (anyRun someLib cos0 shadow taxi 1) AnyFilt.pulls Mesh.empty listRowCalls = some c) :
    gives 1 (c.update (anyRun someLib cos0 shadow taxi 1) AnyFilt.pulls w Mesh.empty 1) =
      byHand (anyRun someLib cos0 shadow taxi 1) (askedChain listRow tetraMesh listRowCalls).1 patchMesh 1 := by
  refine C72_first_update_partial someLib cos0 shadow taxi 1 ?_ h 1 ?_ w
  · intro x hx k w
    simp only [listRowCalls, List.mem_cons, List.not_mem_nil, or_false] at hx
    rcases hx with rfl | rfl | rfl <;> exact fun h => nomatch h
  · intro j hj sch f
    obtain rfl : j = 0 := by omega
    exact fun h => nomatch h

/-- the calls return, and the filters by hand give a mesh -/
example : ((Chain.new listRow tetraMesh Mesh.empty).calls (anyRun someLib cos0 shadow taxi 1) AnyFilt.pulls Mesh.empty
      listRowCalls).isSome = true ∧
    ((byHand (anyRun someLib cos0 shadow taxi 1) (askedChain listRow tetraMesh listRowCalls).1 patchMesh 1).bind
      fun r => r.toOption.map fun m => decide (patchMesh.tris.length < m.tris.length)) = some true := by
  constructor <;> decide +kernel

end examples
end Verif
