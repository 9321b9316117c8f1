import Verif.Model.Pipeline
import Mathlib.Order.Basic
/-
The invariant of the time stamps: an output that `Update()` would not generate again is good.
-/
namespace Verif
variable {S M : Type}

structure Pipe.Inv (good : S → M → M → Prop) (p : Pipe S M) : Prop where
  mtime : p.mtime ≤ p.clock
  inputMTime : p.inputMTime ≤ p.clock
  infoMTime : p.infoMTime ≤ p.clock
  pipelineMTime : p.pipelineMTime ≤ p.infoMTime
  updateMTime : p.updateMTime ≤ p.clock
  good : p.updateInformation.pipelineMTime ≤ p.updateMTime → good p.members p.input p.output

namespace Pipe
variable {good : S → M → M → Prop} {run : S → M → Option (Except Fail M × S)} {nothing : M}

theorem updateInformation_same (p : Pipe S M) : p.updateInformation.members = p.members ∧
    p.updateInformation.input = p.input ∧ p.updateInformation.output = p.output ∧
    p.updateInformation.updateMTime = p.updateMTime ∧ p.updateInformation.mtime = p.mtime ∧
    p.updateInformation.inputMTime = p.inputMTime := by
  unfold updateInformation
  split <;> exact ⟨rfl, rfl, rfl, rfl, rfl, rfl⟩

theorem updateInformation_latest {p : Pipe S M} (h1 : p.mtime ≤ p.clock) (h2 : p.inputMTime ≤ p.clock) :
    max p.updateInformation.mtime p.updateInformation.inputMTime ≤ p.updateInformation.infoMTime := by
  unfold updateInformation
  split
  · exact Nat.le_succ_of_le (Nat.max_le.2 ⟨h1, h2⟩)
  · exact Nat.le_of_not_lt (by assumption)

theorem updateInformation_idem {p : Pipe S M} (h1 : p.mtime ≤ p.clock) (h2 : p.inputMTime ≤ p.clock) :
    p.updateInformation.updateInformation = p.updateInformation := by
  conv_lhs => unfold updateInformation
  exact if_neg (Nat.not_lt.2 (updateInformation_latest h1 h2))

/-- a new time of the filter or of the input makes the next `Update()` execute -/
theorem dirty_of_new {p : Pipe S M} (hi : p.infoMTime < max p.mtime p.inputMTime)
    (hu : p.updateMTime < max p.mtime p.inputMTime) : ¬ p.updateInformation.pipelineMTime ≤ p.updateMTime := by
  unfold updateInformation
  rw [if_pos hi]
  exact Nat.not_le.2 hu

theorem Inv.updateInformation {p : Pipe S M} (h : p.Inv good) : p.updateInformation.Inv good := by
  obtain ⟨e1, e2, e3, e4, e5, e6⟩ := p.updateInformation_same
  have hc : p.clock ≤ p.updateInformation.clock ∧ p.updateInformation.infoMTime ≤ p.updateInformation.clock ∧
      p.updateInformation.pipelineMTime ≤ p.updateInformation.infoMTime := by
    unfold Pipe.updateInformation
    split
    · exact ⟨Nat.le_succ _, Nat.le_refl _, Nat.le_succ_of_le (Nat.max_le.2 ⟨h.mtime, h.inputMTime⟩)⟩
    · exact ⟨Nat.le_refl _, h.infoMTime, h.pipelineMTime⟩
  refine ⟨?_, ?_, hc.2.1, hc.2.2, ?_, ?_⟩
  · rw [e5]; exact Nat.le_trans h.mtime hc.1
  · rw [e6]; exact Nat.le_trans h.inputMTime hc.1
  · rw [e4]; exact Nat.le_trans h.updateMTime hc.1
  · rw [updateInformation_idem h.mtime h.inputMTime, e1, e2, e3, e4]
    exact h.good

theorem touched_same (touch : Bool) (p : Pipe S M) : (p.touched touch).members = p.members ∧
    (p.touched touch).input = p.input ∧ (p.touched touch).output = p.output ∧
    (p.touched touch).updateMTime = p.updateMTime ∧ (p.touched touch).inputMTime = p.inputMTime ∧
    (p.touched touch).infoMTime = p.infoMTime ∧ (p.touched touch).pipelineMTime = p.pipelineMTime ∧
    p.clock ≤ (p.touched touch).clock ∧ (p.mtime ≤ p.clock → (p.touched touch).mtime ≤ (p.touched touch).clock) := by
  unfold touched
  cases touch
  · exact ⟨rfl, rfl, rfl, rfl, rfl, rfl, rfl, Nat.le_refl _, id⟩
  · exact ⟨rfl, rfl, rfl, rfl, rfl, rfl, rfl, Nat.le_succ _, fun _ => Nat.le_refl _⟩

/-- what an execution leaves: it keeps the invariant, and if it returns the output is good -/
theorem execute_inv (hrun : ∀ s m out s', run s m = some (.ok out, s') → good s' m out)
    (hfail : ∀ s m e s' out, run s m = some (.error e, s') → ¬ good s m out) {p p' : Pipe S M}
    {touch : Bool} {r : Except Fail Unit} (h : p.Inv good) (hi : p.updateInformation = p)
    (hx : p.execute run touch nothing = some (r, p')) :
    p'.Inv good ∧ p'.input = p.input ∧ (r = .ok () → good p'.members p'.input p'.output) := by
  obtain ⟨t1, t2, t3, t4, t5, t6, t7, t8, t9⟩ := p.touched_same touch
  unfold execute at hx
  split at hx
  · cases hx
  · rename_i r' s hr
    dsimp only at hx
    split at hx
    · rename_i e
      cases hx
      have hb := h.mtime
      have hb1 := h.inputMTime
      have hb2 := h.infoMTime
      have hb3 := h.pipelineMTime
      have hb4 := h.updateMTime
      refine ⟨⟨t9 h.mtime, ?_, ?_, ?_, ?_, fun hc => ?_⟩, t2, fun h => by cases h⟩
      · dsimp only; omega
      · dsimp only; omega
      · dsimp only; omega
      · dsimp only; omega
      exfalso
      -- the run would have failed before
      have hp : p.pipelineMTime ≤ p.updateMTime := by
        unfold Pipe.updateInformation at hc
        split at hc
        · rename_i hlt
          dsimp only at hlt hc
          omega
        · dsimp only at hc
          omega
      have := h.good
      rw [hi] at this
      exact hfail _ _ _ _ _ hr (this hp)
    · rename_i out
      cases hx
      have hb := t9 h.mtime
      have hb1 := h.inputMTime
      have hb2 := h.infoMTime
      have hb3 := h.pipelineMTime
      refine ⟨⟨?_, ?_, ?_, ?_, Nat.le_refl _, fun _ => ?_⟩, t2, fun _ => ?_⟩
      · dsimp only; omega
      · dsimp only; omega
      · dsimp only; omega
      · dsimp only; omega
      all_goals
        dsimp only
        rw [t2]
        exact hrun _ _ _ _ hr

/-- `Update()` keeps the invariant, and if it returns the output is good -/
theorem update_inv (hrun : ∀ s m out s', run s m = some (.ok out, s') → good s' m out)
    (hfail : ∀ s m e s' out, run s m = some (.error e, s') → ¬ good s m out) {p p' : Pipe S M}
    {again touch : Bool} {r : Except Fail Unit} (h : p.Inv good)
    (hx : p.update run again touch nothing = some (r, p')) :
    p'.Inv good ∧ p'.input = p.input ∧ (r = .ok () → good p'.members p'.input p'.output) := by
  obtain ⟨e1, e2, e3, e4, e5, e6⟩ := p.updateInformation_same
  have hi := updateInformation_idem h.mtime h.inputMTime
  unfold update at hx
  dsimp only at hx
  split at hx
  · have := execute_inv hrun hfail h.updateInformation hi hx
    rw [e2] at this
    exact this
  · rename_i hn
    cases hx
    refine ⟨h.updateInformation, e2, fun _ => ?_⟩
    apply h.updateInformation.good
    rw [hi]
    exact Nat.le_of_not_lt fun hlt => hn (Or.inl hlt)

/-- the settings that a call changes without a call of `Modified()` do not matter -/
def Silent (good : S → M → M → Prop) : PipeCall S M → Prop
  | .set tells g => ∀ s m out, tells s = false → good s m out → good (g s) m out
  | _ => True

theorem call_inv (hrun : ∀ s m out s', run s m = some (.ok out, s') → good s' m out)
    (hfail : ∀ s m e s' out, run s m = some (.error e, s') → ¬ good s m out) {p p' : Pipe S M} {c : PipeCall S M}
    (hc : Silent good c) (h : p.Inv good) (hx : p.call run nothing c = some p') : p'.Inv good := by
  have hb1 := h.mtime
  have hb2 := h.inputMTime
  have hb3 := h.infoMTime
  have hb4 := h.pipelineMTime
  have hb5 := h.updateMTime
  cases c with
  | set tells g =>
    unfold call at hx
    simp only [Option.some.injEq] at hx
    subst hx
    split
    · refine ⟨Nat.le_refl _, ?_, ?_, hb4, ?_, fun hd => (dirty_of_new ?_ ?_ hd).elim⟩
      all_goals dsimp only; omega
    · rename_i ht
      refine ⟨hb1, hb2, hb3, hb4, hb5, fun hd => ?_⟩
      refine hc _ _ _ (by simpa using ht) (h.good ?_)
      unfold Pipe.updateInformation at hd ⊢
      split at hd
      · rename_i hlt
        rw [if_pos hlt]; exact hd
      · rename_i hlt
        rw [if_neg hlt]; exact hd
  | input m =>
    unfold call at hx
    simp only [Option.some.injEq] at hx
    subst hx
    refine ⟨?_, Nat.le_refl _, ?_, hb4, ?_, fun hd => (dirty_of_new ?_ ?_ hd).elim⟩
    all_goals dsimp only; omega
  | update again touch =>
    unfold call at hx
    dsimp only at hx
    split at hx
    · rename_i h1
      cases hx
      exact (update_inv hrun hfail h h1).1
    · rename_i h1
      cases hx
      exact (update_inv hrun hfail h h1).1
    · cases hx

theorem new_inv (s : S) (m nothing : M) : (Pipe.new s m nothing).Inv good := by
  have h2 : (Pipe.new s m nothing).mtime = 2 := rfl
  refine ⟨Nat.le_refl _, Nat.le_succ 1, Nat.zero_le _, Nat.zero_le _, Nat.zero_le _, fun hd => ?_⟩
  refine (dirty_of_new (p := Pipe.new s m nothing) ?_ ?_ hd).elim
  · exact Nat.lt_of_lt_of_le (Nat.zero_lt_succ 1) (Nat.le_max_left _ _)
  · exact Nat.lt_of_lt_of_le (Nat.zero_lt_succ 1) (Nat.le_max_left _ _)

theorem calls_inv (hrun : ∀ s m out s', run s m = some (.ok out, s') → good s' m out)
    (hfail : ∀ s m e s' out, run s m = some (.error e, s') → ¬ good s m out) {cs : List (PipeCall S M)}
    (hc : ∀ c ∈ cs, Silent good c) {p p' : Pipe S M} (h : p.Inv good) (hx : p.calls run nothing cs = some p') :
    p'.Inv good := by
  induction cs generalizing p with
  | nil => cases hx; exact h
  | cons c cs ih =>
    unfold calls at hx
    split at hx
    · rename_i q hq
      exact ih (fun c hc' => hc c (List.mem_cons_of_mem _ hc')) (call_inv hrun hfail (hc c List.mem_cons_self) h hq) hx
    · cases hx

end Pipe
end Verif
