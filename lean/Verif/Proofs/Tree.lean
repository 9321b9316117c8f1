import Verif.Proofs.ChainRuns
import Verif.Spec.Tree
/-
What a call on one way through a pipeline that branches means for the other ways.
-/
namespace Verif
namespace Chain
variable {S M : Type} {good : S → M → M → Prop}

/-- Times that have changed are later than all there were; and an output that has changed was out of date before, or its
filter, or the output itself, now has such a time. -/
structure Moved (c d : Chain S M) : Prop where
  clock : c.clock ≤ d.clock
  source : (d.source = c.source ∧ d.sourceMTime = c.sourceMTime) ∨ c.clock < d.sourceMTime
  mtime : ∀ j, (d.stage j).mtime = (c.stage j).mtime ∨ c.clock < (d.stage j).mtime
  out : ∀ j, (d.stage j).outMTime = (c.stage j).outMTime ∨ c.clock < (d.stage j).outMTime
  upd : ∀ j, (d.stage j).updateMTime = (c.stage j).updateMTime ∨ c.clock < (d.stage j).outMTime
  output : ∀ j, (d.stage j).output = (c.stage j).output ∨ c.Old j ∨ c.clock < d.latest j ∨ c.clock < (d.stage j).outMTime

/-- the same for the latest of the times -/
theorem latest_moved {c d : Chain S M} {n j : Nat} (h0 : d.sourceMTime = c.sourceMTime ∨ n < d.sourceMTime)
    (h1 : ∀ i ≤ j, (d.stage i).mtime = (c.stage i).mtime ∨ n < (d.stage i).mtime)
    (h2 : ∀ i < j, (d.stage i).outMTime = (c.stage i).outMTime ∨ n < (d.stage i).outMTime) :
    d.latest j = c.latest j ∨ n < d.latest j := by
  induction j with
  | zero =>
    have a := h1 0 (Nat.le_refl _)
    simp only [latest]
    omega
  | succ j ih =>
    have a := h1 (j + 1) (Nat.le_refl _)
    have b := h2 j (Nat.lt_succ_self j)
    have c := ih (fun i hi => h1 i (Nat.le_succ_of_le hi)) fun i hi => h2 i (Nat.lt_succ_of_lt hi)
    simp only [latest]
    omega

theorem Moved.latest {c d : Chain S M} (h : Moved c d) (j : Nat) : d.latest j = c.latest j ∨ c.clock < d.latest j :=
  latest_moved (h.source.imp_left And.right) (fun i _ => h.mtime i) fun i _ => h.out i

theorem Moved.rfl (c : Chain S M) : Moved c c :=
  ⟨Nat.le_refl _, Or.inl ⟨Eq.refl _, Eq.refl _⟩, fun _ => Or.inl (Eq.refl _), fun _ => Or.inl (Eq.refl _), fun _ => Or.inl (Eq.refl _),
    fun _ => Or.inl (Eq.refl _)⟩

theorem Moved.trans {c d e : Chain S M} (h : Moved c d) (h' : Moved d e) : Moved c e := by
  have hc := h.clock
  refine ⟨Nat.le_trans hc h'.clock, ?_, fun j => ?_, fun j => ?_, fun j => ?_, fun j => ?_⟩
  · rcases h'.source with ⟨a, b⟩ | a
    · rw [a, b]; exact h.source
    · right; omega
  · rcases h'.mtime j with a | a
    · rw [a]; exact h.mtime j
    · right; omega
  · rcases h'.out j with a | a
    · rw [a]; exact h.out j
    · right; omega
  · rcases h'.upd j with a | a
    · rw [a]
      rcases h.upd j with b | b
      · exact Or.inl b
      · right
        rcases h'.out j with a | a <;> omega
    · right; omega
  · have ho := h'.out j
    have hl := h'.latest j
    have hl' := h.latest j
    rcases h'.output j with a | a | a | a
    · rw [a]
      rcases h.output j with b | b | b | b
      · exact Or.inl b
      · exact Or.inr (Or.inl b)
      · right; right; left; omega
      · right; right; right; omega
    · right
      have hu := h.upd j
      unfold Old at a ⊢
      omega
    · right; right; left; omega
    · right; right; right; omega

theorem Alike.moved {c d : Chain S M} (h : Alike c d) : Moved c d :=
  ⟨h.clock, Or.inl ⟨h.source.symm, h.sourceMTime.symm⟩, fun j => Or.inl (h.mtime j).symm, fun j => Or.inl (h.out j).symm,
    fun j => Or.inl (h.upd j).symm, fun j => Or.inl (h.output j).symm⟩

variable {run : S → M → Option (Except Fail M × S)} {pulls : S → Bool} {w : Around} {nothing : M}

/-- one place has changed -/
theorem put_moved {c : Chain S M} {k n : Nat} {x : Stage S M} (hn : c.clock ≤ n)
    (h1 : x.mtime = (c.stage k).mtime ∨ c.clock < x.mtime) (h2 : x.outMTime = (c.stage k).outMTime ∨ c.clock < x.outMTime)
    (h3 : x.updateMTime = (c.stage k).updateMTime ∨ c.clock < x.outMTime)
    (h4 : x.output = (c.stage k).output ∨ c.Old k ∨ c.clock < x.outMTime) :
    Moved c ({ c.put k x with clock := n } : Chain S M) := by
  generalize hd : ({ c.put k x with clock := n } : Chain S M) = d
  have hk : d.stage k = x := by rw [← hd]; exact put_same _ _ _
  have hot : ∀ j, j ≠ k → d.stage j = c.stage j := fun j hj => by rw [← hd]; exact put_other _ _ hj
  refine ⟨by rw [← hd]; exact hn, Or.inl (by rw [← hd]; exact ⟨Eq.refl _, Eq.refl _⟩), fun j => ?_, fun j => ?_, fun j => ?_, fun j => ?_⟩
  · by_cases hj : j = k
    · subst hj; rw [hk]; exact h1
    · rw [hot j hj]; exact Or.inl (Eq.refl _)
  · by_cases hj : j = k
    · subst hj; rw [hk]; exact h2
    · rw [hot j hj]; exact Or.inl (Eq.refl _)
  · by_cases hj : j = k
    · subst hj; rw [hk]; exact h3
    · rw [hot j hj]; exact Or.inl (Eq.refl _)
  · by_cases hj : j = k
    · subst hj; rw [hk]
      rcases h4 with h | h | h
      · exact Or.inl h
      · exact Or.inr (Or.inl h)
      · exact Or.inr (Or.inr (Or.inr h))
    · rw [hot j hj]; exact Or.inl (Eq.refl _)

theorem generate_moved (hfail : ∀ s m e s' out, run s m = some (.error e, s') → ¬ good s m out) {k : Nat} {c d : Chain S M}
    {touch : Bool} {r : Except Fail Unit} (hc : c.Inv good) (hx : c.generate run touch nothing k = some (r, d)) :
    Moved c d := by
  unfold generate at hx
  split at hx
  · cases hx
  rename_i r' s hr
  have htouch : (if touch = true then c.clock + 1 else (c.stage k).mtime) = (c.stage k).mtime ∨
      c.clock < (if touch = true then c.clock + 1 else (c.stage k).mtime) := by
    split
    · right; omega
    · left; rfl
  cases r' with
  | error e =>
    simp only [Option.some.injEq, Prod.mk.injEq] at hx
    obtain ⟨-, rfl⟩ := hx
    refine put_moved (Nat.le_succ _) htouch (Or.inl rfl) (Or.inl rfl) (Or.inr (Or.inl ?_))
    by_contra hn
    exact hfail _ _ _ _ _ hr (hc.good k hn)
  | ok out =>
    simp only [Option.some.injEq, Prod.mk.injEq] at hx
    obtain ⟨-, rfl⟩ := hx
    refine put_moved (by omega) htouch (Or.inr ?_) (Or.inr ?_) (Or.inr (Or.inr ?_)) <;> (dsimp only; omega)

theorem empty_moved {c : Chain S M} {k : Nat} (ho : c.Old k) : Moved c (c.put k { c.stage k with output := nothing }) :=
  put_moved (n := c.clock) (Nat.le_refl _) (Or.inl rfl) (Or.inl rfl) (Or.inl rfl) (Or.inr (Or.inl ho))

theorem Step.old_of_error {k : Nat} {c d : Chain S M} {e : Fail} (h : Step good k c (.error e) d) : d.Old (k + 1) := by
  rcases h.change with h' | h'
  · cases h'.1
  · exact h' _ (Nat.lt_succ_self k)

theorem updateData_moved (hrun : ∀ s m out s', run s m = some (.ok out, s') → good s' m out)
    (hfail : ∀ s m e s' out, run s m = some (.error e, s') → ¬ good s m out) {k : Nat} {c d : Chain S M}
    {r : Except Fail Unit} (hc : c.Inv good) (hp : ∀ j ≤ k, (c.stage j).pipelineMTime = c.latest j)
    (hx : updateData run pulls w nothing k c = some (r, d)) : Moved c d := by
  induction k generalizing c d r with
  | zero =>
    unfold updateData at hx
    split at hx
    · exact generate_moved hfail hc hx
    · cases hx; exact Moved.rfl c
  | succ k ih =>
    unfold updateData at hx
    split at hx
    · have hp' : ∀ j ≤ k, (c.stage j).pipelineMTime = c.latest j := fun j hj => hp j (by omega)
      split at hx
      · cases hx
      · rename_i e c1 h1
        cases hx
        exact (ih hc hp' h1).trans (empty_moved (updateData_step hrun hfail hc hp' h1).old_of_error)
      · rename_i c1 h1
        have s1 := updateData_step hrun hfail hc hp' h1
        have m1 := ih hc hp' h1
        split at hx
        · obtain ⟨i1, i2, i3, i4⟩ := updateInformation_spec s1.inv k
          split at hx
          · cases hx
          · rename_i e c2 h2
            cases hx
            exact (m1.trans i1.moved).trans ((ih i2 i3 h2).trans (empty_moved (updateData_step hrun hfail i2 i3 h2).old_of_error))
          · rename_i c2 h2
            exact (m1.trans i1.moved).trans ((ih i2 i3 h2).trans (generate_moved hfail (updateData_step hrun hfail i2 i3 h2).inv hx))
        · exact m1.trans (generate_moved hfail s1.inv hx)
    · cases hx; exact Moved.rfl c

/-- any call on a row -/
theorem call_moved (hrun : ∀ s m out s', run s m = some (.ok out, s') → good s' m out)
    (hfail : ∀ s m e s' out, run s m = some (.error e, s') → ¬ good s m out) {c d : Chain S M} (hc : c.Inv good)
    {x : ChainCall S M} (hx : c.call run pulls nothing x = some d) : Moved c d := by
  have hupd : ∀ k w r d, c.update run pulls w nothing k = some (r, d) → Moved c d := by
    intro k w r d h
    obtain ⟨i1, i2, i3, -⟩ := updateInformation_spec hc k
    exact i1.moved.trans (updateData_moved hrun hfail i2 i3 h)
  cases x with
  | set k tells g =>
    unfold call at hx
    simp only [Option.some.injEq] at hx
    subst hx
    split
    · exact put_moved (Nat.le_succ _) (Or.inr (Nat.lt_succ_self _)) (Or.inl rfl) (Or.inl rfl) (Or.inl rfl)
    · exact put_moved (n := c.clock) (Nat.le_refl _) (Or.inl rfl) (Or.inl rfl) (Or.inl rfl) (Or.inl rfl)
  | input m =>
    unfold call at hx
    simp only [Option.some.injEq] at hx
    subst hx
    exact ⟨Nat.le_succ _, Or.inr (Nat.lt_succ_self _), fun _ => Or.inl rfl, fun _ => Or.inl rfl, fun _ => Or.inl rfl, fun _ => Or.inl rfl⟩
  | update k w =>
    unfold call at hx
    dsimp only at hx
    split at hx
    · rename_i h1; cases hx; exact hupd _ _ _ _ h1
    · rename_i h1; cases hx; exact hupd _ _ _ _ h1
    · cases hx

/-- Two rows that are the same at first (`A`).  One of them changes; what becomes of the other? -/
theorem splice_inv {A : Nat → Prop} (hA : ∀ j, A (j + 1) → A j) {c c' d e : Chain S M} (hd : d.Inv good) (hc' : c'.Inv good)
    (hm : Moved c d) (h1 : ∀ j, A j → c'.stage j = c.stage j ∧ e.stage j = d.stage j) (h2 : ∀ j, ¬ A j → e.stage j = c'.stage j)
    (hcl : c'.clock = c.clock) (hs : c'.source = c.source) (hst : c'.sourceMTime = c.sourceMTime) (hcl' : e.clock = d.clock)
    (hs' : e.source = d.source) (hst' : e.sourceMTime = d.sourceMTime) : e.Inv good := by
  have hAle : ∀ i j, i ≤ j → A j → A i := by
    intro i j hij
    induction j with
    | zero =>
      obtain rfl : i = 0 := by omega
      exact id
    | succ j ih =>
      intro ha
      by_cases hi : i = j + 1
      · rw [hi]; exact ha
      · exact ih (by omega) (hA j ha)
  -- what has changed is later than all there was
  have hlat : ∀ j, e.latest j = c'.latest j ∨ c.clock < e.latest j := by
    intro j
    refine latest_moved ?_ (fun i _ => ?_) fun i _ => ?_
    · rw [hst', hst]; exact hm.source.imp_left And.right
    · by_cases ha : A i
      · rw [(h1 i ha).1, (h1 i ha).2]; exact hm.mtime i
      · rw [h2 i ha]; exact Or.inl (Eq.refl _)
    · by_cases ha : A i
      · rw [(h1 i ha).1, (h1 i ha).2]; exact hm.out i
      · rw [h2 i ha]; exact Or.inl (Eq.refl _)
  have hlatA : ∀ j, A j → e.latest j = d.latest j := fun j ha =>
    latest_congr (fun i hi => by rw [(h1 i (hAle i j hi ha)).2])
      (fun i hi => by rw [(h1 i (hAle i j (Nat.le_of_lt hi) ha)).2]) hst'
  have hlatA' : ∀ j, A j → c'.latest j = c.latest j := fun j ha =>
    latest_congr (fun i hi => by rw [(h1 i (hAle i j hi ha)).1])
      (fun i hi => by rw [(h1 i (hAle i j (Nat.le_of_lt hi) ha)).1]) hst
  have hmono : ∀ j, c'.latest j ≤ e.latest j := fun j => by
    have := hc'.latest_le j
    rcases hlat j with h | h <;> omega
  have hcd := hm.clock
  have oldA : ∀ j, A j → (e.Old j ↔ d.Old j) := fun j ha => by
    unfold Old
    rw [hlatA j ha, (h1 j ha).2]
  have oldN : ∀ j, ¬ A j → (c'.Old j → e.Old j) ∧ (e.Old j → c'.Old j ∨ c.clock < e.latest j) := fun j ha => by
    have a := hmono j
    have b := hlat j
    unfold Old
    rw [h2 j ha]
    omega
  have newOld : ∀ j, ¬ A j → c.clock < e.latest j → e.Old j := fun j ha h => by
    have := hc'.upd j
    unfold Old
    rw [h2 j ha]; omega
  refine ⟨⟨fun j => ?_, ?_, fun j => ?_, fun j => ?_, fun j => ?_, fun j => ?_⟩, fun j hj => ?_, fun j hj => ?_⟩
  · by_cases ha : A j
    · rw [(h1 j ha).2, hcl']; exact hd.mtime j
    · have := hc'.mtime j
      rw [h2 j ha]; omega
  · rw [hst', hcl']; exact hd.source
  · by_cases ha : A j
    · rw [(h1 j ha).2, hcl']; exact hd.info j
    · have := hc'.info j
      rw [h2 j ha]; omega
  · by_cases ha : A j
    · rw [(h1 j ha).2, hcl']; exact hd.out j
    · have := hc'.out j
      rw [h2 j ha]; omega
  · by_cases ha : A j
    · rw [(h1 j ha).2, hcl']; exact hd.upd j
    · have := hc'.upd j
      rw [h2 j ha]; omega
  · by_cases ha : A j
    · rw [(h1 j ha).2, hlatA j ha]; exact hd.pipe j
    · have a := hc'.pipe j
      have b := hc'.info j
      have e := hlat j
      have f := hmono j
      rw [h2 j ha]; omega
  · -- what is up to date
    by_cases ha : A j
    · have hi : e.input j = d.input j := by
        cases j with
        | zero => exact hs'
        | succ j => show (e.stage j).output = (d.stage j).output; rw [(h1 j (hA j ha)).2]
      rw [hi, (h1 j ha).2]
      exact hd.good j fun h => hj ((oldA j ha).2 h)
    · have hno : ¬ c.clock < e.latest j := fun h => hj (newOld j ha h)
      have hn' : ¬ c'.Old j := fun h => hj ((oldN j ha).1 h)
      have hi : e.input j = c'.input j := by
        cases j with
        | zero =>
          rcases hm.source with h | h
          · exact hs'.trans (h.1.trans hs.symm)
          · refine absurd ?_ hno
            have := source_le_latest e 0
            rw [hst'] at this; omega
        | succ j =>
          show (e.stage j).output = (c'.stage j).output
          by_cases hb : A j
          · rw [(h1 j hb).2, (h1 j hb).1]
            rcases hm.output j with h | h | h | h
            · exact h
            · refine absurd (hc'.down j ?_) hn'
              unfold Old at h ⊢
              rw [(h1 j hb).1, hlatA' j hb]; exact h
            · refine absurd ?_ hno
              have := latest_le_latest e (Nat.le_succ j)
              rw [hlatA j hb] at this
              exact Nat.lt_of_lt_of_le h this
            · refine absurd ?_ hno
              have := out_le_latest e (Nat.lt_succ_self j)
              rw [(h1 j hb).2] at this
              exact Nat.lt_of_lt_of_le h this
          · rw [h2 j hb]
      rw [hi, h2 j ha]
      exact hc'.good j hn'
  · -- what comes after what is out of date
    by_cases ha : A (j + 1)
    · exact (oldA _ ha).2 (hd.down j ((oldA j (hA j ha)).1 hj))
    · by_cases hb : A j
      · have hj' := (oldA j hb).1 hj
        rcases hm.upd j with h | h
        · rcases hm.latest j with h' | h'
          · refine (oldN _ ha).1 (hc'.down j ?_)
            unfold Old at hj' ⊢
            rw [(h1 j hb).1, hlatA' j hb, ← h, ← h']; exact hj'
          · refine newOld _ ha ?_
            have := latest_le_latest e (Nat.le_succ j)
            rw [hlatA j hb] at this
            exact Nat.lt_of_lt_of_le h' this
        · refine newOld _ ha ?_
          have := out_le_latest e (Nat.lt_succ_self j)
          rw [(h1 j hb).2] at this
          exact Nat.lt_of_lt_of_le h this
      · rcases (oldN j hb).2 hj with h | h
        · exact (oldN _ ha).1 (hc'.down j h)
        · exact newOld _ ha (Nat.lt_of_lt_of_le h (latest_le_latest e (Nat.le_succ j)))

/-- the same up to the bookkeeping of `UpdateOutputInformation` -/
structure SameStage (x y : Stage S M) : Prop where
  members : y.members = x.members
  mtime : y.mtime = x.mtime
  out : y.outMTime = x.outMTime
  upd : y.updateMTime = x.updateMTime
  output : y.output = x.output

theorem SameStage.rfl (x : Stage S M) : SameStage x x := ⟨Eq.refl _, Eq.refl _, Eq.refl _, Eq.refl _, Eq.refl _⟩

theorem SameStage.trans {x y z : Stage S M} (h : SameStage x y) (h' : SameStage y z) : SameStage x z :=
  ⟨h'.members.trans h.members, h'.mtime.trans h.mtime, h'.out.trans h.out, h'.upd.trans h.upd, h'.output.trans h.output⟩

theorem Alike.stage {c d : Chain S M} (h : Alike c d) (i : Nat) : SameStage (c.stage i) (d.stage i) :=
  ⟨(h.members i).symm, (h.mtime i).symm, (h.out i).symm, (h.upd i).symm, (h.output i).symm⟩

/-- what is up to date is not executed, unless the pipeline asks for it -/
theorem updateData_skip (hw : ∀ k t, w.again k t = false) {j k : Nat} (hjk : j ≤ k) {c d : Chain S M} {r : Except Fail Unit}
    (hc : c.Times) (hp : ∀ i ≤ k, (c.stage i).pipelineMTime = c.latest i) (hj : ¬ c.Old j)
    (hx : updateData run pulls w nothing k c = some (r, d)) :
    d.sourceMTime = c.sourceMTime ∧ ∀ i ≤ j, SameStage (c.stage i) (d.stage i) := by
  have hgen : ∀ (c d : Chain S M) touch k r, j < k → c.generate run touch nothing k = some (r, d) →
      d.sourceMTime = c.sourceMTime ∧ ∀ i ≤ j, d.stage i = c.stage i := by
    intro c d touch k r hk hx
    unfold generate at hx
    split at hx
    · cases hx
    rename_i r' s hr
    cases r' with
    | error e =>
      simp only [Option.some.injEq, Prod.mk.injEq] at hx
      obtain ⟨-, rfl⟩ := hx
      exact ⟨rfl, fun i hi => put_other _ _ (by omega)⟩
    | ok out =>
      simp only [Option.some.injEq, Prod.mk.injEq] at hx
      obtain ⟨-, rfl⟩ := hx
      exact ⟨rfl, fun i hi => put_other _ _ (by omega)⟩
  have hold : ∀ {c d : Chain S M}, d.sourceMTime = c.sourceMTime → (∀ i ≤ j, SameStage (c.stage i) (d.stage i)) →
      ¬ c.Old j → ¬ d.Old j := by
    intro c d h1 h2 h
    have : d.latest j = c.latest j :=
      latest_congr (fun i hi => (h2 i hi).mtime) (fun i hi => (h2 i (Nat.le_of_lt hi)).out) h1
    unfold Old at h ⊢
    rw [this, (h2 j (Nat.le_refl _)).upd]; exact h
  have hstop : ∀ (c : Chain S M), (c.stage j).pipelineMTime = c.latest j → ¬ c.Old j →
      updateData run pulls w nothing j c = some (.ok (), c) := by
    intro c hp hj
    have hn : ¬ ((c.stage j).updateMTime < (c.stage j).pipelineMTime ∨ w.again j c.clock = true) := by
      rw [hw, hp]
      rintro (h | h)
      · exact hj h
      · cases h
    clear hgen hold hjk hj
    cases j with
    | zero => unfold updateData; exact if_neg hn
    | succ j => unfold updateData; exact if_neg hn
  induction k generalizing c d r with
  | zero =>
    obtain rfl : j = 0 := by omega
    rw [hstop c (hp 0 (Nat.le_refl _)) hj] at hx
    cases hx; exact ⟨rfl, fun _ _ => SameStage.rfl _⟩
  | succ k ih =>
    by_cases hk : j = k + 1
    · rw [← hk, hstop c (hp j hjk) hj] at hx
      cases hx; exact ⟨rfl, fun _ _ => SameStage.rfl _⟩
    · have hjk' : j ≤ k := by omega
      have hp' : ∀ i ≤ k, (c.stage i).pipelineMTime = c.latest i := fun i hi => hp i (by omega)
      unfold updateData at hx
      split at hx
      · split at hx
        · cases hx
        · rename_i e c1 h1
          cases hx
          obtain ⟨a1, a2⟩ := ih hjk' hc hp' hj h1
          refine ⟨a1, fun i hi => ?_⟩
          rw [put_other _ _ (by omega)]; exact a2 i hi
        · rename_i c1 h1
          obtain ⟨a1, a2⟩ := ih hjk' hc hp' hj h1
          obtain ⟨i1, i2, i3, -⟩ := updateInformation_times (updateData_times hc hp' h1).1 k
          have a3 : (c1.updateInformation k).sourceMTime = c.sourceMTime := i1.sourceMTime.symm.trans a1
          have a4 : ∀ i ≤ j, SameStage (c.stage i) ((c1.updateInformation k).stage i) := fun i hi => (a2 i hi).trans (i1.stage i)
          split at hx
          · split at hx
            · cases hx
            · rename_i e c2 h2
              cases hx
              obtain ⟨b1, b2⟩ := ih hjk' i2 i3 (hold a3 a4 hj) h2
              refine ⟨b1.trans a3, fun i hi => ?_⟩
              rw [put_other _ _ (by omega)]; exact (a4 i hi).trans (b2 i hi)
            · rename_i c2 h2
              obtain ⟨b1, b2⟩ := ih hjk' i2 i3 (hold a3 a4 hj) h2
              obtain ⟨g1, g2⟩ := hgen _ _ _ _ _ (by omega) hx
              refine ⟨g1.trans (b1.trans a3), fun i hi => ?_⟩
              rw [g2 i hi]; exact (a4 i hi).trans (b2 i hi)
          · obtain ⟨g1, g2⟩ := hgen _ _ _ _ _ (by omega) hx
            refine ⟨g1.trans a1, fun i hi => ?_⟩
            rw [g2 i hi]; exact a2 i hi
      · cases hx; exact ⟨rfl, fun _ _ => SameStage.rfl _⟩

end Chain

theorem addr_length (b : Nat → Nat) (k : Nat) : (addr b k).length = k + 1 := by
  induction k with
  | zero => rfl
  | succ k ih => exact congrArg (· + 1) ih

theorem addr_inj {b b' : Nat → Nat} {j k : Nat} (h : addr b j = addr b' k) : j = k := by
  have := congrArg List.length h
  rw [addr_length, addr_length] at this
  omega

theorem addr_down {b b' : Nat → Nat} {j : Nat} (h : addr b (j + 1) = addr b' (j + 1)) : addr b j = addr b' j :=
  (List.cons.inj h).2

theorem addr_place (b : Nat → Nat) (k : Nat) : (addr b k).length - 1 = k := by
  rw [addr_length]; rfl

namespace Tree
variable {S M : Type} {run : S → M → Option (Except Fail M × S)} {pulls : S → Bool} {nothing : M}

theorem back_same (t : Tree S M) {b b' : Nat → Nat} (c : Chain S M) {k : Nat} (h : addr b' k = addr b k) :
    (t.back b c).stage (addr b' k) = c.stage k := by
  show (if addr b' k = addr b ((addr b' k).length - 1) then c.stage ((addr b' k).length - 1) else t.stage (addr b' k)) = _
  rw [addr_place, if_pos h]

theorem back_other (t : Tree S M) {b b' : Nat → Nat} (c : Chain S M) {k : Nat} (h : addr b' k ≠ addr b k) :
    (t.back b c).stage (addr b' k) = t.stage (addr b' k) := by
  show (if addr b' k = addr b ((addr b' k).length - 1) then c.stage ((addr b' k).length - 1) else t.stage (addr b' k)) = _
  rw [addr_place, if_neg h]

variable {key : S → S}

/-- the invariants of the calls -/
theorem calls_inv (hkeep : ∀ s m r s', run s m = some (r, s') → key s' = key s)
    (hres : ∀ s a m, key s = key a → (run s m).map Prod.fst = (run a m).map Prod.fst) {cs : List ((Nat → Nat) × ChainCall S M)}
    (hset : ∀ b k tells g, (b, ChainCall.set k tells g) ∈ cs → ∀ s a, key s = key a → key (g s) = key (g a))
    (hsilent : ∀ b k tells g, (b, ChainCall.set k tells g) ∈ cs → ∀ s, tells s = false → key (g s) = key s)
    {a : List Nat → S} {t u : Tree S M} (hc : ∀ b, (t.along b).Inv fun s m out => (run s m).map Prod.fst = some (.ok out))
    (h : ∀ b k, key (t.stage (addr b k)).members = key (a (addr b k))) (hx : t.calls run pulls nothing cs = some u) :
    (∀ b, (u.along b).Inv fun s m out => (run s m).map Prod.fst = some (.ok out)) ∧
    (∀ b k, key (u.stage (addr b k)).members = key ((askedTree a t.source cs).1 (addr b k))) ∧
    u.source = (askedTree a t.source cs).2 := by
  have hrun : ∀ s m out s', run s m = some (.ok out, s') → (run s' m).map Prod.fst = some (.ok out) := by
    intro s m out s' h
    rw [hres s' s m (hkeep _ _ _ _ h), h]; rfl
  have hfail : ∀ s m e s' out, run s m = some (.error e, s') → ¬ (run s m).map Prod.fst = some (Except.ok out) := by
    intro s m e s' out h hg
    rw [h] at hg
    cases hg
  induction cs generalizing t a with
  | nil => cases hx; exact ⟨hc, h, rfl⟩
  | cons x cs ih =>
    obtain ⟨b, x⟩ := x
    have ih' := fun {a t} => ih (fun b k tells g hg => hset b k tells g (List.mem_cons_of_mem _ hg))
      (fun b k tells g hg => hsilent b k tells g (List.mem_cons_of_mem _ hg)) (a := a) (t := t)
    unfold calls at hx
    rcases hq : t.call run pulls nothing b x with _ | q
    · rw [hq] at hx; cases hx
    rw [hq] at hx
    dsimp only at hx
    obtain ⟨d, hd, rfl⟩ := Option.map_eq_some_iff.1 hq
    have hone : (t.along b).calls run pulls nothing [x] = some d := by
      unfold Chain.calls Chain.calls
      rw [hd]
    obtain ⟨d1, d2, d3⟩ := Chain.calls_inv (key := key) hkeep hres (cs := [x])
      (fun k tells g hg => hset b k tells g (by rw [List.mem_singleton.1 hg]; exact List.mem_cons_self))
      (fun k tells g hg => hsilent b k tells g (by rw [List.mem_singleton.1 hg]; exact List.mem_cons_self))
      (a := fun k => a (addr b k)) (hc b) (fun k => h b k) hone
    have hmv := Chain.call_moved hrun hfail (hc b) hd
    have hinv : ∀ b', ((t.back b d).along b').Inv fun s m out => (run s m).map Prod.fst = some (.ok out) := by
      intro b'
      refine Chain.splice_inv (A := fun j => addr b' j = addr b j) (fun j ha => addr_down ha) (c := t.along b) (c' := t.along b') d1
        (hc b') hmv (fun j ha => ⟨?_, back_same t d ha⟩) (fun j ha => back_other t d ha) rfl rfl rfl rfl rfl rfl
      show t.stage (addr b' j) = t.stage (addr b j)
      rw [ha]
    -- the settings asked for
    have e1 : askedTree a t.source ((b, x) :: cs) = askedTree (askedTree a t.source [(b, x)]).1 (askedTree a t.source [(b, x)]).2 cs := rfl
    have e2 : (askedTree a t.source [(b, x)]).2 = d.source := by
      rw [d3]
      cases x <;> rfl
    have e3 : ∀ j, (askedTree a t.source [(b, x)]).1 (addr b j) = (askedChain (fun k => a (addr b k)) t.source [x]).1 j := by
      intro j
      cases x with
      | set k tells g =>
        show (if addr b j = addr b k then g (a (addr b j)) else a (addr b j)) = if j = k then g (a (addr b j)) else a (addr b j)
        by_cases hj : j = k
        · rw [if_pos hj, if_pos (by rw [hj])]
        · rw [if_neg hj, if_neg fun h => hj (addr_inj h)]
      | input m => rfl
      | update k w => rfl
    have e4 : ∀ b' j, addr b' j ≠ addr b j → (askedTree a t.source [(b, x)]).1 (addr b' j) = a (addr b' j) := by
      intro b' j hne
      cases x with
      | set k tells g =>
        show (if addr b' j = addr b k then g (a (addr b' j)) else a (addr b' j)) = _
        refine if_neg fun h => hne ?_
        obtain rfl := addr_inj h
        exact h
      | input m => rfl
      | update k w => rfl
    have := ih' (a := (askedTree a t.source [(b, x)]).1) hinv (fun b' j => by
      by_cases ha : addr b' j = addr b j
      · rw [back_same t d ha, ha, e3]; exact d2 j
      · rw [back_other t d ha, e4 b' j ha]; exact h b' j) hx
    rw [e1, e2]
    exact this

theorem new_along (s : List Nat → S) (m nothing : M) (b : Nat → Nat) :
    (Tree.new s m nothing).along b = Chain.new (fun k => s (addr b k)) m nothing := rfl

/-- After any calls, `Update()` of any of the filters gives what the filters on the way to it give by hand. -/
theorem update_gives {w : Chain.Around} (hkeep : ∀ s m r s', run s m = some (r, s') → key s' = key s)
    (hres : ∀ s a m, key s = key a → (run s m).map Prod.fst = (run a m).map Prod.fst) {cs : List ((Nat → Nat) × ChainCall S M)}
    (hset : ∀ b k tells g, (b, ChainCall.set k tells g) ∈ cs → ∀ s a, key s = key a → key (g s) = key (g a))
    (hsilent : ∀ b k tells g, (b, ChainCall.set k tells g) ∈ cs → ∀ s, tells s = false → key (g s) = key s)
    {s : List Nat → S} {m : M} {t : Tree S M} (hx : (Tree.new s m nothing).calls run pulls nothing cs = some t) (b : Nat → Nat)
    (k : Nat) :
    gives k ((t.along b).update run pulls w nothing k) =
      byHand run (fun j => (askedTree s m cs).1 (addr b j)) (askedTree s m cs).2 k := by
  obtain ⟨h1, h2, h3⟩ := calls_inv hkeep hres hset hsilent (a := s) (t := Tree.new s m nothing)
    (fun b => Chain.new_inv _ m nothing) (fun _ _ => rfl) hx
  obtain ⟨i1, i2, i3, -⟩ := Chain.updateInformation_spec (h1 b) k
  obtain ⟨b1, b2⟩ := Chain.updateInformation_same (t.along b) k
  refine (Chain.updateData_result (c := (t.along b).updateInformation k) hkeep hres i2 i3 (fun j => ?_)).trans
    (congrArg (fun x => byHand run _ x k) (b2.trans h3))
  rw [b1]; exact h2 b j

/-- Filters on the way to two filters.  One of the two has been updated: `Update()` of the other does not execute them. -/
theorem update_shared {w w' : Chain.Around} (hkeep : ∀ s m r s', run s m = some (r, s') → key s' = key s)
    (hres : ∀ s a m, key s = key a → (run s m).map Prod.fst = (run a m).map Prod.fst) {cs : List ((Nat → Nat) × ChainCall S M)}
    (hset : ∀ b k tells g, (b, ChainCall.set k tells g) ∈ cs → ∀ s a, key s = key a → key (g s) = key (g a))
    (hsilent : ∀ b k tells g, (b, ChainCall.set k tells g) ∈ cs → ∀ s, tells s = false → key (g s) = key s)
    {s : List Nat → S} {m : M} {t : Tree S M} (hx : (Tree.new s m nothing).calls run pulls nothing cs = some t)
    {b b' : Nat → Nat} {j k k' : Nat} (hj : j ≤ k) (hj' : j ≤ k') (hb : addr b j = addr b' j) {d d' : Chain S M}
    {r : Except Fail Unit} (hd : (t.along b).update run pulls w nothing k = some (.ok (), d)) (hw : ∀ k t, w'.again k t = false)
    (hd' : ((t.back b d).along b').update run pulls w' nothing k' = some (r, d')) :
    Chain.SameStage (d.stage j) (d'.stage j) := by
  have hrun : ∀ s m out s', run s m = some (.ok out, s') → (run s' m).map Prod.fst = some (.ok out) := by
    intro s m out s' h
    rw [hres s' s m (hkeep _ _ _ _ h), h]; rfl
  have hfail : ∀ s m e s' out, run s m = some (.error e, s') → ¬ (run s m).map Prod.fst = some (Except.ok out) := by
    intro s m e s' out h hg
    rw [h] at hg
    cases hg
  obtain ⟨h1, -, -⟩ := calls_inv hkeep hres hset hsilent (a := s) (t := Tree.new s m nothing)
    (fun b => Chain.new_inv _ m nothing) (fun _ _ => rfl) hx
  have st := Chain.update_step hrun hfail (h1 b) hd
  have hmv := Chain.call_moved hrun hfail (h1 b) (x := .update k w) (d := d) (by unfold Chain.call; dsimp only; rw [hd])
  have hA : ∀ i ≤ j, addr b' i = addr b i := by
    clear hj hj' hd'
    induction j with
    | zero =>
      intro i hi
      obtain rfl : i = 0 := by omega
      exact hb.symm
    | succ j ih =>
      intro i hi
      by_cases h : i = j + 1
      · rw [h]; exact hb.symm
      · exact ih (addr_down hb) i (by omega)
  have hinv : ((t.back b d).along b').Inv fun s m out => (run s m).map Prod.fst = some (.ok out) := by
    refine Chain.splice_inv (A := fun j => addr b' j = addr b j) (fun j ha => addr_down ha) (c := t.along b) (c' := t.along b') st.inv
      (h1 b') hmv (fun j ha => ⟨?_, back_same t d ha⟩) (fun j ha => back_other t d ha) rfl rfl rfl rfl rfl rfl
    show t.stage (addr b' j) = t.stage (addr b j)
    rw [ha]
  have hstage : ∀ i ≤ j, ((t.back b d).along b').stage i = d.stage i := fun i hi => back_same t d (hA i hi)
  have hno : ¬ ((t.back b d).along b').Old j := by
    intro ho
    refine st.fresh rfl (st.inv.old_of_le hj ?_)
    have hl : ((t.back b d).along b').latest j = d.latest j :=
      Chain.latest_congr (fun i hi => by rw [hstage i hi]) (fun i hi => by rw [hstage i (Nat.le_of_lt hi)]) rfl
    unfold Chain.Old at ho ⊢
    rw [hl, hstage j (Nat.le_refl _)] at ho
    exact ho
  obtain ⟨i1, i2, i3, -⟩ := Chain.updateInformation_spec hinv k'
  have := (Chain.updateData_skip hw hj' i2.toTimes i3 (fun h => hno ((i1.old j).2 h)) hd').2 j (Nat.le_refl _)
  have h2 := (i1.stage j).trans this
  rw [hstage j (Nat.le_refl _)] at h2
  exact h2

/-- calls that keep the members in the domain of the theorem -/
theorem calls_dom {dom : S → Prop} {run' : S → M → Option (Except Fail M × S)} (heq : ∀ s m, dom s → run s m = run' s m)
    (hdom : ∀ s m r s', dom s → run s m = some (r, s') → dom s') {cs : List ((Nat → Nat) × ChainCall S M)}
    (hset : ∀ b k tells g, (b, ChainCall.set k tells g) ∈ cs → ∀ s, dom s → dom (g s)) {t : Tree S M}
    (h : ∀ b k, dom (t.stage (addr b k)).members) :
    t.calls run pulls nothing cs = t.calls run' pulls nothing cs ∧
    ∀ u, t.calls run pulls nothing cs = some u → ∀ b k, dom (u.stage (addr b k)).members := by
  induction cs generalizing t with
  | nil => exact ⟨rfl, fun u hu => by cases hu; exact h⟩
  | cons x cs ih =>
    obtain ⟨b, x⟩ := x
    have ih' := fun {t} => ih (fun b k tells g hg => hset b k tells g (List.mem_cons_of_mem _ hg)) (t := t)
    obtain ⟨h1, h2⟩ := Chain.calls_dom (nothing := nothing) (pulls := pulls) (dom := dom) heq hdom (cs := [x])
      (fun k tells g hg => hset b k tells g (by rw [List.mem_singleton.1 hg]; exact List.mem_cons_self)) (c := t.along b)
      (fun k => h b k)
    have hone : ∀ run, (t.along b).calls run pulls nothing [x] = (t.along b).call run pulls nothing x := by
      intro run
      unfold Chain.calls
      rcases (t.along b).call run pulls nothing x with _ | d <;> rfl
    rw [hone, hone] at h1
    rw [hone] at h2
    have hcall : t.call run pulls nothing b x = t.call run' pulls nothing b x := by
      unfold call
      rw [h1]
    unfold calls
    rw [← hcall]
    rcases hq : t.call run pulls nothing b x with _ | q
    · exact ⟨rfl, fun u hu => by cases hu⟩
    · obtain ⟨d, hd, rfl⟩ := Option.map_eq_some_iff.1 hq
      refine ih' fun b' j => ?_
      by_cases ha : addr b' j = addr b j
      · rw [back_same t d ha]; exact h2 d hd j
      · rw [back_other t d ha]; exact h b' j

end Tree
end Verif
