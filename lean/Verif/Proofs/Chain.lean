import Verif.Model.Chain
import Mathlib.Order.Basic
/-
The invariant of the time stamps in a row of filters.
-/
namespace Verif
namespace Chain
variable {S M : Type}

/-- the latest time at which anything changed that the output at place `k` depends on -/
def latest (c : Chain S M) : Nat → Nat
  | 0 => max (c.stage 0).mtime c.sourceMTime
  | k + 1 => max (c.stage (k + 1)).mtime (max (c.latest k) (c.stage k).outMTime)

/-- the output at place `k` is older than something it depends on -/
def Old (c : Chain S M) (k : Nat) : Prop := (c.stage k).updateMTime < c.latest k

theorem put_same (c : Chain S M) (k : Nat) (x : Stage S M) : (c.put k x).stage k = x := if_pos rfl
theorem put_other (c : Chain S M) {j k : Nat} (x : Stage S M) (h : j ≠ k) : (c.put k x).stage j = c.stage j := if_neg h

theorem latest_mono {c d : Chain S M} {k : Nat} (h : ∀ j ≤ k, (c.stage j).mtime ≤ (d.stage j).mtime)
    (h1 : ∀ j < k, (c.stage j).outMTime ≤ (d.stage j).outMTime) (h2 : c.sourceMTime ≤ d.sourceMTime) :
    c.latest k ≤ d.latest k := by
  induction k with
  | zero =>
    have := h 0 (Nat.le_refl _)
    simp only [latest]; omega
  | succ k ih =>
    have a1 := h (k + 1) (Nat.le_refl _)
    have a2 := h1 k (Nat.lt_succ_self k)
    have a3 := ih (fun j hj => h j (Nat.le_succ_of_le hj)) (fun j hj => h1 j (Nat.lt_succ_of_lt hj))
    simp only [latest]; omega

theorem latest_congr {c d : Chain S M} {k : Nat} (h : ∀ j ≤ k, (c.stage j).mtime = (d.stage j).mtime)
    (h1 : ∀ j < k, (c.stage j).outMTime = (d.stage j).outMTime) (h2 : c.sourceMTime = d.sourceMTime) :
    c.latest k = d.latest k :=
  Nat.le_antisymm
    (latest_mono (fun j hj => Nat.le_of_eq (h j hj)) (fun j hj => Nat.le_of_eq (h1 j hj)) (Nat.le_of_eq h2))
    (latest_mono (fun j hj => Nat.le_of_eq (h j hj).symm) (fun j hj => Nat.le_of_eq (h1 j hj).symm) (Nat.le_of_eq h2.symm))

theorem mtime_le_latest (c : Chain S M) {j k : Nat} (h : j ≤ k) : (c.stage j).mtime ≤ c.latest k := by
  induction k with
  | zero =>
    obtain rfl : j = 0 := by omega
    simp only [latest]; omega
  | succ k ih =>
    by_cases hj : j = k + 1
    · subst hj; simp only [latest]; omega
    · have := ih (by omega)
      simp only [latest]; omega

theorem out_le_latest (c : Chain S M) {j k : Nat} (h : j < k) : (c.stage j).outMTime ≤ c.latest k := by
  induction k with
  | zero => omega
  | succ k ih =>
    by_cases hj : j = k
    · subst hj; simp only [latest]; omega
    · have := ih (by omega)
      simp only [latest]; omega

theorem source_le_latest (c : Chain S M) (k : Nat) : c.sourceMTime ≤ c.latest k := by
  induction k with
  | zero => simp only [latest]; omega
  | succ k ih => simp only [latest]; omega

theorem latest_le_latest (c : Chain S M) {j k : Nat} (h : j ≤ k) : c.latest j ≤ c.latest k := by
  induction k with
  | zero =>
    obtain rfl : j = 0 := by omega
    exact Nat.le_refl _
  | succ k ih =>
    by_cases hj : j = k + 1
    · subst hj; exact Nat.le_refl _
    · have := ih (by omega)
      simp only [latest]; omega

/-- what holds of the times between the calls -/
structure Times (c : Chain S M) : Prop where
  mtime : ∀ k, (c.stage k).mtime ≤ c.clock
  source : c.sourceMTime ≤ c.clock
  info : ∀ k, (c.stage k).infoMTime ≤ c.clock
  out : ∀ k, (c.stage k).outMTime ≤ c.clock
  upd : ∀ k, (c.stage k).updateMTime ≤ c.clock
  pipe : ∀ k, (c.stage k).pipelineMTime = c.latest k ∨
    (c.stage k).infoMTime < c.latest k ∧ (c.stage k).pipelineMTime ≤ c.latest k

/-- and if what has been executed depends on the settings only -/
structure Inv (good : S → M → M → Prop) (c : Chain S M) : Prop extends Times c where
  good : ∀ k, ¬ c.Old k → good (c.stage k).members (c.input k) (c.stage k).output
  down : ∀ k, c.Old k → c.Old (k + 1)

variable {good : S → M → M → Prop}

theorem Times.latest_le {c : Chain S M} (h : c.Times) (k : Nat) : c.latest k ≤ c.clock := by
  induction k with
  | zero =>
    have := h.mtime 0
    have := h.source
    simp only [latest]; omega
  | succ k ih =>
    have := h.mtime (k + 1)
    have := h.out k
    simp only [latest]; omega

theorem Inv.old_of_le {c : Chain S M} (h : c.Inv good) {j k : Nat} (hjk : j ≤ k) (ho : c.Old j) : c.Old k := by
  induction k with
  | zero =>
    obtain rfl : j = 0 := by omega
    exact ho
  | succ k ih =>
    by_cases hj : j = k + 1
    · subst hj; exact ho
    · exact h.down k (ih (by omega))

/-- same up to the bookkeeping of `UpdateOutputInformation` -/
structure Alike (c d : Chain S M) : Prop where
  source : c.source = d.source
  sourceMTime : c.sourceMTime = d.sourceMTime
  clock : c.clock ≤ d.clock
  members : ∀ k, (c.stage k).members = (d.stage k).members
  mtime : ∀ k, (c.stage k).mtime = (d.stage k).mtime
  out : ∀ k, (c.stage k).outMTime = (d.stage k).outMTime
  upd : ∀ k, (c.stage k).updateMTime = (d.stage k).updateMTime
  output : ∀ k, (c.stage k).output = (d.stage k).output

theorem Alike.rfl (c : Chain S M) : Alike c c :=
  ⟨Eq.refl _, Eq.refl _, Nat.le_refl _, fun _ => Eq.refl _, fun _ => Eq.refl _, fun _ => Eq.refl _, fun _ => Eq.refl _,
    fun _ => Eq.refl _⟩

theorem Alike.trans {c d e : Chain S M} (h : Alike c d) (h' : Alike d e) : Alike c e :=
  ⟨h.source.trans h'.source, h.sourceMTime.trans h'.sourceMTime, Nat.le_trans h.clock h'.clock,
    fun k => (h.members k).trans (h'.members k), fun k => (h.mtime k).trans (h'.mtime k), fun k => (h.out k).trans (h'.out k),
    fun k => (h.upd k).trans (h'.upd k), fun k => (h.output k).trans (h'.output k)⟩

theorem Alike.latest {c d : Chain S M} (h : Alike c d) (k : Nat) : c.latest k = d.latest k :=
  latest_congr (fun j _ => h.mtime j) (fun j _ => h.out j) h.sourceMTime

theorem Alike.old {c d : Chain S M} (h : Alike c d) (k : Nat) : c.Old k ↔ d.Old k := by
  unfold Old
  rw [h.upd, h.latest]

theorem Alike.input {c d : Chain S M} (h : Alike c d) (k : Nat) : c.input k = d.input k := by
  cases k with
  | zero => exact h.source
  | succ k => exact h.output k

theorem Alike.times {c d : Chain S M} (h : Alike c d) (hc : c.Times) (hi : ∀ k, (d.stage k).infoMTime ≤ d.clock)
    (hp : ∀ k, (d.stage k).pipelineMTime = d.latest k ∨
      (d.stage k).infoMTime < d.latest k ∧ (d.stage k).pipelineMTime ≤ d.latest k) : d.Times := by
  refine ⟨fun k => ?_, ?_, hi, fun k => ?_, fun k => ?_, hp⟩
  · rw [← h.mtime]; exact Nat.le_trans (hc.mtime k) h.clock
  · rw [← h.sourceMTime]; exact Nat.le_trans hc.source h.clock
  · rw [← h.out]; exact Nat.le_trans (hc.out k) h.clock
  · rw [← h.upd]; exact Nat.le_trans (hc.upd k) h.clock

theorem Alike.inv {c d : Chain S M} (h : Alike c d) (hc : c.Inv good) (hd : d.Times) : d.Inv good := by
  refine ⟨hd, fun k hk => ?_, fun k hk => ?_⟩
  · rw [← h.members, ← h.input, ← h.output]
    exact hc.good k fun ho => hk ((h.old k).1 ho)
  · exact (h.old _).1 (hc.down k ((h.old k).2 hk))

/-- `informStage`, when the time of the filter before is up to date -/
theorem informStage_times {c : Chain S M} (hc : c.Times) {k : Nat} (ht : c.times k = c.latest k) :
    Alike c (c.informStage k) ∧ (c.informStage k).Times ∧
    ((c.informStage k).stage k).pipelineMTime = (c.informStage k).latest k ∧
    ∀ j, j ≠ k → (c.informStage k).stage j = c.stage j := by
  by_cases hlt : (c.stage k).infoMTime < c.times k
  · have e : c.informStage k = { c.put k { c.stage k with pipelineMTime := c.times k, infoMTime := c.clock + 1 } with
        clock := c.clock + 1 } := if_pos hlt
    have hsame : (c.informStage k).stage k = { c.stage k with pipelineMTime := c.times k, infoMTime := c.clock + 1 } := by
      rw [e]; exact put_same _ _ _
    have hother : ∀ j, j ≠ k → (c.informStage k).stage j = c.stage j := by
      intro j hj; rw [e]; exact put_other _ _ hj
    have hclock : (c.informStage k).clock = c.clock + 1 := by rw [e]
    have al : Alike c (c.informStage k) := by
      refine ⟨by rw [e]; rfl, by rw [e]; rfl, by rw [hclock]; exact Nat.le_succ _, fun j => ?_, fun j => ?_, fun j => ?_, fun j => ?_, fun j => ?_⟩
      all_goals
        by_cases hj : j = k
        · subst hj; rw [hsame]
        · rw [hother j hj]
    have hpk : ((c.informStage k).stage k).pipelineMTime = (c.informStage k).latest k := by
      rw [hsame, ← al.latest]; exact ht
    refine ⟨al, al.times hc (fun j => ?_) (fun j => ?_), hpk, hother⟩
    · by_cases hj : j = k
      · subst hj; rw [hsame, hclock]; exact Nat.le_refl _
      · rw [hother j hj, hclock]; exact Nat.le_succ_of_le (hc.info j)
    · by_cases hj : j = k
      · subst hj; exact Or.inl hpk
      · rw [hother j hj, ← al.latest]; exact hc.pipe j
  · have e : c.informStage k = c := if_neg hlt
    rw [e]
    refine ⟨Alike.rfl c, hc, ?_, fun _ _ => rfl⟩
    rcases hc.pipe k with h | h
    · exact h
    · exact absurd h.1 (by rw [← ht]; exact hlt)

theorem updateInformation_times {c : Chain S M} (hc : c.Times) (k : Nat) :
    Alike c (c.updateInformation k) ∧ (c.updateInformation k).Times ∧
    (∀ j ≤ k, ((c.updateInformation k).stage j).pipelineMTime = (c.updateInformation k).latest j) ∧
    ∀ j, k < j → (c.updateInformation k).stage j = c.stage j := by
  induction k with
  | zero =>
    obtain ⟨h1, h2, h3, h4⟩ := informStage_times (k := 0) hc rfl
    refine ⟨h1, h2, fun j hj => ?_, fun j hj => h4 j (by omega)⟩
    obtain rfl : j = 0 := by omega
    exact h3
  | succ k ih =>
    obtain ⟨a1, a2, a3, a4⟩ := ih
    have ht : (c.updateInformation k).times (k + 1) = (c.updateInformation k).latest (k + 1) := by
      simp only [times, latest, a3 k (Nat.le_refl _)]
    obtain ⟨h1, h2, h3, h4⟩ := informStage_times a2 ht
    refine ⟨a1.trans h1, h2, fun j hj => ?_, fun j hj => ?_⟩
    · by_cases hjk : j = k + 1
      · subst hjk; exact h3
      · show (((c.updateInformation k).informStage (k + 1)).stage j).pipelineMTime = ((c.updateInformation k).informStage (k + 1)).latest j
        rw [h4 j hjk, ← h1.latest]
        exact a3 j (by omega)
    · show ((c.updateInformation k).informStage (k + 1)).stage j = _
      rw [h4 j (by omega)]
      exact a4 j (by omega)

theorem updateInformation_spec {c : Chain S M} (hc : c.Inv good) (k : Nat) :
    Alike c (c.updateInformation k) ∧ (c.updateInformation k).Inv good ∧
    (∀ j ≤ k, ((c.updateInformation k).stage j).pipelineMTime = (c.updateInformation k).latest j) ∧
    ∀ j, k < j → (c.updateInformation k).stage j = c.stage j := by
  obtain ⟨h1, h2, h3, h4⟩ := updateInformation_times hc.toTimes k
  exact ⟨h1, h1.inv hc h2, h3, h4⟩

/-- times that are changed become the latest -/
theorem put_times {c : Chain S M} (hc : c.Times) (k : Nat) {x : Stage S M} {n : Nat} (hn : c.clock ≤ n)
    (h1 : x.infoMTime = (c.stage k).infoMTime) (h2 : x.pipelineMTime = (c.stage k).pipelineMTime)
    (h3 : x.mtime = (c.stage k).mtime ∨ c.clock < x.mtime ∧ x.mtime ≤ n)
    (h4 : x.outMTime = (c.stage k).outMTime ∨ c.clock < x.outMTime ∧ x.outMTime ≤ n) (h5 : x.updateMTime ≤ n) :
    ({ c.put k x with clock := n } : Chain S M).Times := by
  generalize hd : ({ c.put k x with clock := n } : Chain S M) = d
  have hk : d.stage k = x := by rw [← hd]; exact put_same _ _ _
  have hot : ∀ j, j ≠ k → d.stage j = c.stage j := fun j hj => by rw [← hd]; exact put_other _ _ hj
  have hcl : d.clock = n := by rw [← hd]
  have hsrcT : d.sourceMTime = c.sourceMTime := by rw [← hd]; rfl
  have hchange : ∀ j, d.latest j = c.latest j ∨ c.clock < d.latest j := fun j => by
    have heq : (∀ i ≤ j, (d.stage i).mtime = (c.stage i).mtime) → (∀ i < j, (d.stage i).outMTime = (c.stage i).outMTime) →
        d.latest j = c.latest j := fun a b => latest_congr a b hsrcT
    rcases h3 with h3 | h3
    · rcases h4 with h4 | h4
      · refine Or.inl (heq (fun i _ => ?_) fun i _ => ?_)
        · by_cases hi : i = k
          · subst hi; rw [hk]; exact h3
          · rw [hot i hi]
        · by_cases hi : i = k
          · subst hi; rw [hk]; exact h4
          · rw [hot i hi]
      · by_cases hj : k < j
        · right
          have := out_le_latest d hj
          rw [hk] at this; omega
        · refine Or.inl (heq (fun i _ => ?_) fun i hi => ?_)
          · by_cases hi : i = k
            · subst hi; rw [hk]; exact h3
            · rw [hot i hi]
          · rw [hot i (by omega)]
    · by_cases hj : k ≤ j
      · right
        have := mtime_le_latest d hj
        rw [hk] at this; omega
      · exact Or.inl (heq (fun i hi => by rw [hot i (by omega)]) fun i hi => by rw [hot i (by omega)])
  refine ⟨fun j => ?_, ?_, fun j => ?_, fun j => ?_, fun j => ?_, fun j => ?_⟩
  · have := hc.mtime j
    by_cases hj : j = k
    · subst hj; rw [hk, hcl]; omega
    · rw [hot j hj, hcl]; omega
  · have := hc.source; rw [hsrcT, hcl]; omega
  · have := hc.info j
    by_cases hj : j = k
    · subst hj; rw [hk, hcl]; omega
    · rw [hot j hj, hcl]; omega
  · have := hc.out j
    by_cases hj : j = k
    · subst hj; rw [hk, hcl]; omega
    · rw [hot j hj, hcl]; omega
  · have := hc.upd j
    by_cases hj : j = k
    · subst hj; rw [hk, hcl]; omega
    · rw [hot j hj, hcl]; omega
  · have e1 : (d.stage j).pipelineMTime = (c.stage j).pipelineMTime ∧ (d.stage j).infoMTime = (c.stage j).infoMTime := by
      by_cases hj : j = k
      · subst hj; rw [hk]; exact ⟨h2, h1⟩
      · rw [hot j hj]; exact ⟨rfl, rfl⟩
    rw [e1.1, e1.2]
    have a1 := hc.pipe j
    have a2 := hc.info j
    have a3 := hc.latest_le j
    rcases hchange j with h | h <;> omega

variable {run : S → M → Option (Except Fail M × S)} {pulls : S → Bool} {w : Around} {nothing : M}

theorem generate_times {k : Nat} {c d : Chain S M} {touch : Bool} {r : Except Fail Unit} (hc : c.Times)
    (hx : c.generate run touch nothing k = some (r, d)) : d.Times ∧ (r = .ok () → ¬ d.Old k) := by
  unfold generate at hx
  split at hx
  · cases hx
  rename_i r' s hr
  have hm := hc.mtime k
  have hu := hc.upd k
  cases r' with
  | error e =>
    simp only [Option.some.injEq, Prod.mk.injEq] at hx
    obtain ⟨rfl, rfl⟩ := hx
    refine ⟨put_times hc k (Nat.le_succ _) rfl rfl ?_ (Or.inl rfl) (Nat.le_succ_of_le hu), fun h => by cases h⟩
    dsimp only
    split
    · right; omega
    · left; rfl
  | ok out =>
    simp only [Option.some.injEq, Prod.mk.injEq] at hx
    obtain ⟨rfl, rfl⟩ := hx
    have ht : ({ c.put k { c.stage k with members := s, mtime := if touch then c.clock + 1 else (c.stage k).mtime, output := out, outMTime := c.clock + 2, updateMTime := c.clock + 3 } with
        clock := c.clock + 3 } : Chain S M).Times := by
      refine put_times hc k (by omega) rfl rfl ?_ (Or.inr ?_) (Nat.le_refl _)
      · dsimp only
        split
        · right; omega
        · left; rfl
      · dsimp only; omega
    refine ⟨ht, fun _ ho => ?_⟩
    have := ht.latest_le k
    unfold Old at ho
    dsimp only at ho this
    rw [put_same] at ho
    dsimp only at ho
    omega

theorem updateData_times {k : Nat} {c d : Chain S M} {r : Except Fail Unit} (hc : c.Times)
    (hp : ∀ j ≤ k, (c.stage j).pipelineMTime = c.latest j)
    (hx : updateData run pulls w nothing k c = some (r, d)) : d.Times ∧ (r = .ok () → ¬ d.Old k) := by
  have hempty : ∀ (d : Chain S M) k, d.Times → (d.put k { d.stage k with output := nothing }).Times := fun d k hd =>
    put_times (n := d.clock) hd k (Nat.le_refl _) rfl rfl (Or.inl rfl) (Or.inl rfl) (hd.upd k)
  induction k generalizing c d r with
  | zero =>
    unfold updateData at hx
    split at hx
    · exact generate_times hc hx
    · rename_i hn
      cases hx
      refine ⟨hc, fun _ ho => hn (Or.inl ?_)⟩
      rw [hp 0 (Nat.le_refl _)]; exact ho
  | succ k ih =>
    unfold updateData at hx
    split at hx
    · split at hx
      · cases hx
      · rename_i e c1 h1
        cases hx
        exact ⟨hempty _ _ (ih hc (fun j hj => hp j (by omega)) h1).1, fun h => by cases h⟩
      · rename_i c1 h1
        have t1 := (ih hc (fun j hj => hp j (by omega)) h1).1
        split at hx
        · obtain ⟨-, i2, i3, -⟩ := updateInformation_times t1 k
          split at hx
          · cases hx
          · rename_i e c2 h2
            cases hx
            exact ⟨hempty _ _ (ih i2 i3 h2).1, fun h => by cases h⟩
          · rename_i c2 h2
            exact generate_times (ih i2 i3 h2).1 hx
        · exact generate_times t1 hx
    · rename_i hn
      cases hx
      refine ⟨hc, fun _ ho => hn (Or.inl ?_)⟩
      rw [hp (k + 1) (Nat.le_refl _)]; exact ho

/-- what an `Update()` of the filter at place `k` does to the state, if it ends -/
structure Step (good : S → M → M → Prop) (k : Nat) (c : Chain S M) (r : Except Fail Unit) (d : Chain S M) : Prop where
  inv : d.Inv good
  clock : c.clock ≤ d.clock
  source : d.source = c.source
  sourceMTime : d.sourceMTime = c.sourceMTime
  mtime : ∀ j, (c.stage j).mtime ≤ (d.stage j).mtime
  out : ∀ j, (c.stage j).outMTime ≤ (d.stage j).outMTime
  after : ∀ j, k < j → d.stage j = c.stage j
  /-- nothing has been executed, or everything behind has to be -/
  change : (r = .ok () ∧ Alike c d) ∨ ∀ j, k < j → d.Old j
  fresh : r = .ok () → ¬ d.Old k

theorem Step.latest {k : Nat} {c d : Chain S M} {r : Except Fail Unit} (h : Step good k c r d) (j : Nat) :
    c.latest j ≤ d.latest j :=
  latest_mono (fun i _ => h.mtime i) (fun i _ => h.out i) (Nat.le_of_eq h.sourceMTime.symm)

theorem Step.old_after {k : Nat} {c d : Chain S M} {r : Except Fail Unit} (h : Step good k c r d) {j : Nat} (hj : k < j)
    (ho : c.Old j) : d.Old j := by
  have := h.latest j
  unfold Old at ho ⊢
  rw [h.after j hj]
  omega

/-- the filter at place `k` is executed, on an input that is up to date -/
theorem generate_step (hrun : ∀ s m out s', run s m = some (.ok out, s') → good s' m out)
    (hfail : ∀ s m e s' out, run s m = some (.error e, s') → ¬ good s m out) {k : Nat} {c d : Chain S M} {touch : Bool}
    {r : Except Fail Unit} (hc : c.Inv good) (hin : ∀ j, j + 1 = k → ¬ c.Old j)
    (hx : c.generate run touch nothing k = some (r, d)) :
    d.Inv good ∧ c.clock ≤ d.clock ∧ d.source = c.source ∧ d.sourceMTime = c.sourceMTime ∧
    (∀ j, (c.stage j).mtime ≤ (d.stage j).mtime) ∧ (∀ j, (c.stage j).outMTime ≤ (d.stage j).outMTime) ∧
    (∀ j, j ≠ k → d.stage j = c.stage j) ∧ (∀ j, k < j → d.Old j) ∧ (r = .ok () → ¬ d.Old k) := by
  unfold generate at hx
  split at hx
  · cases hx
  rename_i r' s hr
  have hmt := hc.mtime k
  cases r' with
  | error e =>
    -- it failed
    simp only [Option.some.injEq, Prod.mk.injEq] at hx
    obtain ⟨rfl, rfl⟩ := hx
    generalize hx' : ({ c.put k { c.stage k with members := s, mtime := if touch then c.clock + 1 else (c.stage k).mtime, output := nothing } with
        clock := c.clock + 1 } : Chain S M) = d
    have hk : d.stage k = { c.stage k with members := s, mtime := if touch then c.clock + 1 else (c.stage k).mtime, output := nothing } := by
      rw [← hx']; exact put_same _ _ _
    have ho : ∀ j, j ≠ k → d.stage j = c.stage j := fun j hj => by rw [← hx']; exact put_other _ _ hj
    have hcl : d.clock = c.clock + 1 := by rw [← hx']
    have hsrc : d.source = c.source := by rw [← hx']; rfl
    have hsrcT : d.sourceMTime = c.sourceMTime := by rw [← hx']; rfl
    have hm : ∀ j, (c.stage j).mtime ≤ (d.stage j).mtime := fun j => by
      by_cases hj : j = k
      · subst hj; rw [hk]; dsimp only; split <;> omega
      · rw [ho j hj]; exact Nat.le_refl _
    have hout : ∀ j, (c.stage j).outMTime = (d.stage j).outMTime := fun j => by
      by_cases hj : j = k
      · subst hj; rw [hk]
      · rw [ho j hj]
    have hupd : ∀ j, (c.stage j).updateMTime = (d.stage j).updateMTime := fun j => by
      by_cases hj : j = k
      · subst hj; rw [hk]
      · rw [ho j hj]
    have hlm : ∀ j, c.latest j ≤ d.latest j := fun j =>
      latest_mono (fun i _ => hm i) (fun i _ => Nat.le_of_eq (hout i)) (Nat.le_of_eq hsrcT.symm)
    have hlt : ∀ j, j < k → d.latest j = c.latest j := fun j hj =>
      latest_congr (fun i hi => by rw [ho i (by omega)]) (fun i hi => by rw [ho i (by omega)]) hsrcT
    have hold : ∀ j, c.Old j → d.Old j := fun j hj => by
      have := hlm j
      have := hupd j
      unfold Old at hj ⊢; omega
    -- it was out of date before
    have hkold : c.Old k := by
      by_contra hn
      exact hfail _ _ _ _ _ hr (hc.good k hn)
    have hafter : ∀ j, k ≤ j → d.Old j := fun j hj => hold j (hc.old_of_le hj hkold)
    have hchange : ∀ j, d.latest j = c.latest j ∨ c.clock < d.latest j := fun j => by
      by_cases htc : touch = true
      · by_cases hj : j < k
        · exact Or.inl (hlt j hj)
        · right
          have := mtime_le_latest d (Nat.le_of_not_lt hj)
          rw [hk] at this
          simp only [htc, if_true] at this
          omega
      · left
        refine latest_congr (fun i _ => ?_) (fun i _ => (hout i).symm) hsrcT
        by_cases hi : i = k
        · subst hi; rw [hk]; dsimp only; rw [if_neg htc]
        · rw [ho i hi]
    refine ⟨⟨⟨fun j => ?_, ?_, fun j => ?_, fun j => ?_, fun j => ?_, fun j => ?_⟩, fun j hj => ?_, fun j hj => ?_⟩, by omega,
      hsrc, hsrcT, hm, fun j => Nat.le_of_eq (hout j), ho, fun j hj => hafter j (by omega), fun h => by cases h⟩
    · by_cases hj : j = k
      · subst hj; rw [hk, hcl]; dsimp only; split <;> omega
      · rw [ho j hj, hcl]; exact Nat.le_succ_of_le (hc.mtime j)
    · rw [hsrcT, hcl]; exact Nat.le_succ_of_le hc.source
    · have := hc.info j
      by_cases hj : j = k
      · subst hj; rw [hk, hcl]; dsimp only; omega
      · rw [ho j hj, hcl]; omega
    · rw [← hout, hcl]; exact Nat.le_succ_of_le (hc.out j)
    · rw [← hupd, hcl]; exact Nat.le_succ_of_le (hc.upd j)
    · have e1 : (d.stage j).pipelineMTime = (c.stage j).pipelineMTime ∧ (d.stage j).infoMTime = (c.stage j).infoMTime := by
        by_cases hj : j = k
        · subst hj; rw [hk]; exact ⟨rfl, rfl⟩
        · rw [ho j hj]; exact ⟨rfl, rfl⟩
      rw [e1.1, e1.2]
      have h1 := hc.pipe j
      have h2 := hc.info j
      have h3 := hc.latest_le j
      rcases hchange j with h | h <;> omega
    · by_cases hjk : k ≤ j
      · exact absurd (hafter j hjk) hj
      · have hjk : j < k := Nat.lt_of_not_le hjk
        rw [ho j (by omega)]
        have hi : d.input j = c.input j := by
          cases j with
          | zero => exact hsrc
          | succ j => show (d.stage j).output = (c.stage j).output; rw [ho j (by omega)]
        rw [hi]
        exact hc.good j fun h => hj (hold j h)
    · by_cases hjk : k ≤ j + 1
      · exact hafter _ hjk
      · apply hold
        apply hc.down
        have := hlt j (by omega)
        unfold Old at hj ⊢
        rw [hupd, ← this]; exact hj
  | ok out =>
    -- it returned
    simp only [Option.some.injEq, Prod.mk.injEq] at hx
    obtain ⟨rfl, rfl⟩ := hx
    generalize hx' : ({ c.put k { c.stage k with members := s, mtime := if touch then c.clock + 1 else (c.stage k).mtime, output := out, outMTime := c.clock + 2, updateMTime := c.clock + 3 } with
        clock := c.clock + 3 } : Chain S M) = d
    have hk : d.stage k = { c.stage k with members := s, mtime := if touch then c.clock + 1 else (c.stage k).mtime, output := out, outMTime := c.clock + 2, updateMTime := c.clock + 3 } := by
      rw [← hx']; exact put_same _ _ _
    have ho : ∀ j, j ≠ k → d.stage j = c.stage j := fun j hj => by rw [← hx']; exact put_other _ _ hj
    have hcl : d.clock = c.clock + 3 := by rw [← hx']
    have hsrc : d.source = c.source := by rw [← hx']; rfl
    have hsrcT : d.sourceMTime = c.sourceMTime := by rw [← hx']; rfl
    have hm : ∀ j, (c.stage j).mtime ≤ (d.stage j).mtime := fun j => by
      by_cases hj : j = k
      · subst hj; rw [hk]; dsimp only; split <;> omega
      · rw [ho j hj]; exact Nat.le_refl _
    have hout : ∀ j, (c.stage j).outMTime ≤ (d.stage j).outMTime := fun j => by
      by_cases hj : j = k
      · subst hj; have := hc.out j; rw [hk]; dsimp only; omega
      · rw [ho j hj]; exact Nat.le_refl _
    have hlm : ∀ j, c.latest j ≤ d.latest j := fun j =>
      latest_mono (fun i _ => hm i) (fun i _ => hout i) (Nat.le_of_eq hsrcT.symm)
    have hlt : ∀ j, j < k → d.latest j = c.latest j := fun j hj =>
      latest_congr (fun i hi => by rw [ho i (by omega)]) (fun i hi => by rw [ho i (by omega)]) hsrcT
    have hlk : d.latest k ≤ c.clock + 1 := by
      have hb := hc.latest_le
      have hmk : (d.stage k).mtime ≤ c.clock + 1 := by rw [hk]; dsimp only; split <;> omega
      cases k with
      | zero =>
        have := hc.source
        simp only [latest]; rw [hsrcT]; omega
      | succ k =>
        have h1 := hlt k (by omega)
        have h2 := hb k
        have h3 := hc.out k
        have h4 := ho k (by omega)
        simp only [latest]; rw [h1, h4]; omega
    have hafter : ∀ j, k < j → c.clock + 2 ≤ d.latest j ∧ d.Old j := fun j hj => by
      have h1 := out_le_latest d hj
      rw [hk] at h1
      dsimp only at h1
      refine ⟨h1, ?_⟩
      unfold Old
      rw [ho j (by omega)]
      have := hc.upd j
      omega
    have hknew : ¬ d.Old k := by
      unfold Old
      rw [hk]; dsimp only; omega
    refine ⟨⟨⟨fun j => ?_, ?_, fun j => ?_, fun j => ?_, fun j => ?_, fun j => ?_⟩, fun j hj => ?_, fun j hj => ?_⟩, by omega,
      hsrc, hsrcT, hm, hout, ho, fun j hj => (hafter j hj).2, fun _ => hknew⟩
    · by_cases hj : j = k
      · subst hj; rw [hk, hcl]; dsimp only; split <;> omega
      · have := hc.mtime j; rw [ho j hj, hcl]; omega
    · have := hc.source; rw [hsrcT, hcl]; omega
    · have := hc.info j
      by_cases hj : j = k
      · subst hj; rw [hk, hcl]; dsimp only; omega
      · rw [ho j hj, hcl]; omega
    · have := hc.out j
      by_cases hj : j = k
      · subst hj; rw [hk, hcl]; dsimp only; omega
      · rw [ho j hj, hcl]; omega
    · have := hc.upd j
      by_cases hj : j = k
      · subst hj; rw [hk, hcl]; exact Nat.le_refl _
      · rw [ho j hj, hcl]; omega
    · have e1 : (d.stage j).pipelineMTime = (c.stage j).pipelineMTime ∧ (d.stage j).infoMTime = (c.stage j).infoMTime := by
        by_cases hj : j = k
        · subst hj; rw [hk]; exact ⟨rfl, rfl⟩
        · rw [ho j hj]; exact ⟨rfl, rfl⟩
      rw [e1.1, e1.2]
      have h1 := hc.pipe j
      have h2 := hc.info j
      have h3 := hc.latest_le j
      have h4 := hlm j
      rcases Nat.lt_trichotomy j k with h | h | h
      · rw [hlt j h]; exact h1
      · subst h
        by_cases htc : touch = true
        · have := mtime_le_latest d (Nat.le_refl j)
          rw [hk] at this
          simp only [htc, if_true] at this
          omega
        · have : d.latest j = c.latest j := by
            refine latest_congr (fun i hi => ?_) (fun i hi => by rw [ho i (by omega)]) hsrcT
            by_cases hi : i = j
            · subst hi; rw [hk]; dsimp only; rw [if_neg htc]
            · rw [ho i hi]
          omega
      · have := (hafter j h).1
        omega
    · rcases Nat.lt_trichotomy j k with h | h | h
      · rw [ho j (by omega)]
        have hi : d.input j = c.input j := by
          cases j with
          | zero => exact hsrc
          | succ j => show (d.stage j).output = (c.stage j).output; rw [ho j (by omega)]
        rw [hi]
        refine hc.good j fun h' => hj ?_
        unfold Old at h' ⊢
        rw [ho j (by omega), hlt j h]; exact h'
      · subst h
        have hi : d.input j = c.input j := by
          cases j with
          | zero => exact hsrc
          | succ j => show (d.stage j).output = (c.stage j).output; rw [ho j (by omega)]
        rw [hi, hk]
        exact hrun _ _ _ _ hr
      · exact absurd (hafter j h).2 hj
    · rcases Nat.lt_trichotomy (j + 1) k with h | h | h
      · have h1 : c.Old j := by
          have := hlt j (by omega)
          unfold Old at hj ⊢
          rw [← this, ← ho j (by omega)]; exact hj
        have h2 := hc.down j h1
        unfold Old at h2 ⊢
        rw [ho (j + 1) (by omega), hlt (j + 1) h]; exact h2
      · exfalso
        refine hin j h ?_
        have := hlt j (by omega)
        unfold Old at hj ⊢
        rw [← this, ← ho j (by omega)]; exact hj
      · exact (hafter _ h).2

/-- the output is emptied, when everything from there on is out of date -/
theorem empty_inv {c : Chain S M} (hc : c.Inv good) {k : Nat} (ho : c.Old k) :
    (c.put k { c.stage k with output := nothing }).Inv good ∧
    (∀ j, (c.put k { c.stage k with output := nothing }).latest j = c.latest j) ∧
    ∀ j, ((c.put k { c.stage k with output := nothing }).Old j ↔ c.Old j) := by
  generalize hd : c.put k { c.stage k with output := nothing } = d
  have hk : d.stage k = { c.stage k with output := nothing } := by rw [← hd]; exact put_same _ _ _
  have hot : ∀ j, j ≠ k → d.stage j = c.stage j := fun j hj => by rw [← hd]; exact put_other _ _ hj
  have hall : ∀ j, (d.stage j).members = (c.stage j).members ∧ (d.stage j).mtime = (c.stage j).mtime ∧
      (d.stage j).infoMTime = (c.stage j).infoMTime ∧ (d.stage j).outMTime = (c.stage j).outMTime ∧
      (d.stage j).pipelineMTime = (c.stage j).pipelineMTime ∧ (d.stage j).updateMTime = (c.stage j).updateMTime := fun j => by
    by_cases hj : j = k
    · subst hj; rw [hk]; exact ⟨rfl, rfl, rfl, rfl, rfl, rfl⟩
    · rw [hot j hj]; exact ⟨rfl, rfl, rfl, rfl, rfl, rfl⟩
  have hcl : d.clock = c.clock := by rw [← hd]; rfl
  have hsrc : d.source = c.source := by rw [← hd]; rfl
  have hsrcT : d.sourceMTime = c.sourceMTime := by rw [← hd]; rfl
  have hl : ∀ j, d.latest j = c.latest j := fun j =>
    latest_congr (fun i _ => (hall i).2.1) (fun i _ => (hall i).2.2.2.1) hsrcT
  have hold : ∀ j, d.Old j ↔ c.Old j := fun j => by
    unfold Old
    rw [hl, (hall j).2.2.2.2.2]
  refine ⟨⟨⟨fun j => ?_, ?_, fun j => ?_, fun j => ?_, fun j => ?_, fun j => ?_⟩, fun j hj => ?_, fun j hj => ?_⟩, hl, hold⟩
  · rw [(hall j).2.1, hcl]; exact hc.mtime j
  · rw [hsrcT, hcl]; exact hc.source
  · rw [(hall j).2.2.1, hcl]; exact hc.info j
  · rw [(hall j).2.2.2.1, hcl]; exact hc.out j
  · rw [(hall j).2.2.2.2.2, hcl]; exact hc.upd j
  · rw [(hall j).2.2.2.2.1, (hall j).2.2.1, hl]; exact hc.pipe j
  · have hjk : j < k := by
      by_contra h
      exact hj ((hold j).2 (hc.old_of_le (Nat.le_of_not_lt h) ho))
    rw [hot j (by omega)]
    have hi : d.input j = c.input j := by
      cases j with
      | zero => exact hsrc
      | succ j => show (d.stage j).output = (c.stage j).output; rw [hot j (by omega)]
    rw [hi]
    exact hc.good j fun h => hj ((hold j).2 h)
  · exact (hold _).2 (hc.down j ((hold j).1 hj))

/-- a step up to place `k`, followed by the execution of the filter at place `k + 1` -/
theorem Step.generate (hrun : ∀ s m out s', run s m = some (.ok out, s') → good s' m out)
    (hfail : ∀ s m e s' out, run s m = some (.error e, s') → ¬ good s m out) {k : Nat} {c d e : Chain S M} {touch : Bool}
    {r : Except Fail Unit} (h : Step good k c (.ok ()) d) (hx : d.generate run touch nothing (k + 1) = some (r, e)) :
    Step good (k + 1) c r e := by
  obtain ⟨g1, g2, g3, g4, g5, g6, g7, g8, g9⟩ := generate_step hrun hfail h.inv
    (fun j hj => by obtain rfl : j = k := by omega
                    exact h.fresh rfl) hx
  refine ⟨g1, Nat.le_trans h.clock g2, g3.trans h.source, g4.trans h.sourceMTime, fun j => Nat.le_trans (h.mtime j) (g5 j),
    fun j => Nat.le_trans (h.out j) (g6 j), fun j hj => ?_, Or.inr g8, g9⟩
  rw [g7 j (by omega), h.after j (by omega)]

/-- a step up to place `k` that fails -/
theorem Step.failed {k : Nat} {c d : Chain S M} {e : Fail} (h : Step good k c (.error e) d) :
    Step good (k + 1) c (.error e) (d.put (k + 1) { d.stage (k + 1) with output := nothing }) := by
  have ha : ∀ j, k < j → d.Old j := by
    rcases h.change with h' | h'
    · cases h'.1
    · exact h'
  obtain ⟨e1, e2, e3⟩ := empty_inv (nothing := nothing) h.inv (ha (k + 1) (Nat.lt_succ_self k))
  have hst : ∀ j, ((d.put (k + 1) { d.stage (k + 1) with output := nothing }).stage j).mtime = (d.stage j).mtime ∧
      ((d.put (k + 1) { d.stage (k + 1) with output := nothing }).stage j).outMTime = (d.stage j).outMTime := fun j => by
    by_cases hj : j = k + 1
    · subst hj; rw [put_same]; exact ⟨rfl, rfl⟩
    · rw [put_other _ _ hj]; exact ⟨rfl, rfl⟩
  refine ⟨e1, h.clock, h.source, h.sourceMTime, fun j => ?_, fun j => ?_, fun j hj => ?_, Or.inr fun j hj => ?_, fun h => by cases h⟩
  · rw [(hst j).1]; exact h.mtime j
  · rw [(hst j).2]; exact h.out j
  · rw [put_other _ _ (by omega)]; exact h.after j (by omega)
  · exact (e3 j).2 (ha j (by omega))

/-- two steps up to the same place, with `UpdateOutputInformation` in between -/
theorem Step.again {k : Nat} {c d e f : Chain S M} {r : Except Fail Unit} (h : Step good k c (.ok ()) d) (ha : Alike d e)
    (hst : ∀ j, k < j → e.stage j = d.stage j) (h' : Step good k e r f) : Step good k c r f := by
  refine ⟨h'.inv, Nat.le_trans h.clock (Nat.le_trans ha.clock h'.clock), h'.source.trans (ha.source.symm.trans h.source),
    h'.sourceMTime.trans (ha.sourceMTime.symm.trans h.sourceMTime), fun j => ?_, fun j => ?_, fun j hj => ?_, ?_, h'.fresh⟩
  · exact Nat.le_trans (h.mtime j) (by rw [ha.mtime]; exact h'.mtime j)
  · exact Nat.le_trans (h.out j) (by rw [ha.out]; exact h'.out j)
  · rw [h'.after j hj, hst j hj, h.after j hj]
  · rcases h'.change with ⟨hr, h2⟩ | h2
    · rcases h.change with ⟨-, h1⟩ | h1
      · exact Or.inl ⟨hr, h1.trans (ha.trans h2)⟩
      · exact Or.inr fun j hj => (h2.old j).1 ((ha.old j).1 (h1 j hj))
    · exact Or.inr h2

/-- no step at all -/
theorem Step.none {k : Nat} {c : Chain S M} (hc : c.Inv good) (h : ¬ c.Old k) : Step good k c (.ok ()) c :=
  ⟨hc, Nat.le_refl _, rfl, rfl, fun _ => Nat.le_refl _, fun _ => Nat.le_refl _, fun _ _ => rfl, Or.inl ⟨rfl, Alike.rfl c⟩,
    fun _ => h⟩

/-- `UpdateOutputData` of the output at place `k`, after `UpdateOutputInformation` -/
theorem updateData_step (hrun : ∀ s m out s', run s m = some (.ok out, s') → good s' m out)
    (hfail : ∀ s m e s' out, run s m = some (.error e, s') → ¬ good s m out) {k : Nat} {c d : Chain S M}
    {r : Except Fail Unit} (hc : c.Inv good) (hp : ∀ j ≤ k, (c.stage j).pipelineMTime = c.latest j)
    (hx : updateData run pulls w nothing k c = some (r, d)) : Step good k c r d := by
  induction k generalizing c d r with
  | zero =>
    unfold updateData at hx
    split at hx
    · obtain ⟨g1, g2, g3, g4, g5, g6, g7, g8, g9⟩ := generate_step hrun hfail hc (fun j hj => by omega) hx
      exact ⟨g1, g2, g3, g4, g5, g6, fun j hj => g7 j (by omega), Or.inr g8, g9⟩
    · rename_i hn
      cases hx
      refine Step.none hc fun ho => hn (Or.inl ?_)
      rw [hp 0 (Nat.le_refl _)]; exact ho
  | succ k ih =>
    unfold updateData at hx
    split at hx
    · split at hx
      · cases hx
      · rename_i e c1 h1
        cases hx
        exact (ih hc (fun j hj => hp j (by omega)) h1).failed
      · rename_i c1 h1
        have s1 := ih hc (fun j hj => hp j (by omega)) h1
        split at hx
        · obtain ⟨i1, i2, i3, i4⟩ := updateInformation_spec s1.inv k
          split at hx
          · cases hx
          · rename_i e c2 h2
            cases hx
            exact (s1.again i1 i4 (ih i2 i3 h2)).failed
          · rename_i c2 h2
            exact (s1.again i1 i4 (ih i2 i3 h2)).generate hrun hfail hx
        · exact s1.generate hrun hfail hx
    · rename_i hn
      cases hx
      refine Step.none hc fun ho => hn (Or.inl ?_)
      rw [hp (k + 1) (Nat.le_refl _)]; exact ho

/-- `Update()` of the filter at place `k` -/
theorem update_step (hrun : ∀ s m out s', run s m = some (.ok out, s') → good s' m out)
    (hfail : ∀ s m e s' out, run s m = some (.error e, s') → ¬ good s m out) {k : Nat} {c d : Chain S M}
    {r : Except Fail Unit} (hc : c.Inv good) (hx : c.update run pulls w nothing k = some (r, d)) : Step good k c r d := by
  obtain ⟨i1, i2, i3, i4⟩ := updateInformation_spec hc k
  have h := updateData_step hrun hfail i2 i3 hx
  refine ⟨h.inv, Nat.le_trans i1.clock h.clock, h.source.trans i1.source.symm, h.sourceMTime.trans i1.sourceMTime.symm,
    fun j => by rw [i1.mtime]; exact h.mtime j, fun j => by rw [i1.out]; exact h.out j,
    fun j hj => (h.after j hj).trans (i4 j hj), ?_, h.fresh⟩
  rcases h.change with ⟨hr, h2⟩ | h2
  · exact Or.inl ⟨hr, i1.trans h2⟩
  · exact Or.inr h2

theorem Step.upToDate {k : Nat} {c d : Chain S M} (h : Step good k c (.ok ()) d) {j : Nat} (hj : j ≤ k) :
    good (d.stage j).members (d.input j) (d.stage j).output :=
  h.inv.good j fun ho => h.fresh rfl (h.inv.old_of_le hj ho)

theorem new_times (s : Nat → S) (m nothing : M) : (Chain.new s m nothing).Times := by
  have hl : ∀ k, 2 ≤ (Chain.new s m nothing).latest k := fun k => mtime_le_latest (Chain.new s m nothing) (Nat.le_refl k)
  exact ⟨fun _ => Nat.le_refl _, Nat.le_succ 1, fun _ => Nat.zero_le _, fun _ => Nat.zero_le _, fun _ => Nat.zero_le _,
    fun k => Or.inr ⟨Nat.lt_of_lt_of_le Nat.zero_lt_two (hl k), Nat.zero_le _⟩⟩

/-- nothing has been executed yet -/
theorem new_inv (s : Nat → S) (m nothing : M) : (Chain.new s m nothing).Inv good := by
  have hl : ∀ k, 2 ≤ (Chain.new s m nothing).latest k := fun k => mtime_le_latest (Chain.new s m nothing) (Nat.le_refl k)
  have ho : ∀ k, (Chain.new s m nothing).Old k := fun k => Nat.lt_of_lt_of_le Nat.zero_lt_two (hl k)
  exact ⟨new_times s m nothing, fun k hk => absurd (ho k) hk, fun k _ => ho (k + 1)⟩

/-- a setting that is followed by `Modified()` -/
theorem set_inv {c : Chain S M} (hc : c.Inv good) (k : Nat) (s : S) :
    ({ c.put k { c.stage k with members := s, mtime := c.clock + 1 } with clock := c.clock + 1 } : Chain S M).Inv good := by
  generalize hd : ({ c.put k { c.stage k with members := s, mtime := c.clock + 1 } with clock := c.clock + 1 } : Chain S M) = d
  have hk : d.stage k = { c.stage k with members := s, mtime := c.clock + 1 } := by rw [← hd]; exact put_same _ _ _
  have hot : ∀ j, j ≠ k → d.stage j = c.stage j := fun j hj => by rw [← hd]; exact put_other _ _ hj
  have hcl : d.clock = c.clock + 1 := by rw [← hd]
  have hsrc : d.source = c.source := by rw [← hd]; rfl
  have hsrcT : d.sourceMTime = c.sourceMTime := by rw [← hd]; rfl
  have hall : ∀ j, (d.stage j).infoMTime = (c.stage j).infoMTime ∧ (d.stage j).outMTime = (c.stage j).outMTime ∧
      (d.stage j).pipelineMTime = (c.stage j).pipelineMTime ∧ (d.stage j).updateMTime = (c.stage j).updateMTime := fun j => by
    by_cases hj : j = k
    · subst hj; rw [hk]; exact ⟨rfl, rfl, rfl, rfl⟩
    · rw [hot j hj]; exact ⟨rfl, rfl, rfl, rfl⟩
  have hlt : ∀ j, j < k → d.latest j = c.latest j := fun j hj =>
    latest_congr (fun i hi => by rw [hot i (by omega)]) (fun i hi => by rw [hot i (by omega)]) hsrcT
  have hge : ∀ j, k ≤ j → c.clock + 1 ≤ d.latest j := fun j hj => by
    have := mtime_le_latest d hj
    rw [hk] at this; exact this
  have hold : ∀ j, k ≤ j → d.Old j := fun j hj => by
    have h1 := hge j hj
    have h2 := hc.upd j
    unfold Old
    rw [(hall j).2.2.2]; omega
  have hold' : ∀ j, j < k → (d.Old j ↔ c.Old j) := fun j hj => by
    unfold Old
    rw [hlt j hj, (hall j).2.2.2]
  refine ⟨⟨fun j => ?_, ?_, fun j => ?_, fun j => ?_, fun j => ?_, fun j => ?_⟩, fun j hj => ?_, fun j hj => ?_⟩
  · by_cases hj : j = k
    · subst hj; rw [hk, hcl]; exact Nat.le_refl _
    · rw [hot j hj, hcl]; exact Nat.le_succ_of_le (hc.mtime j)
  · rw [hsrcT, hcl]; exact Nat.le_succ_of_le hc.source
  · rw [(hall j).1, hcl]; exact Nat.le_succ_of_le (hc.info j)
  · rw [(hall j).2.1, hcl]; exact Nat.le_succ_of_le (hc.out j)
  · rw [(hall j).2.2.2, hcl]; exact Nat.le_succ_of_le (hc.upd j)
  · rw [(hall j).1, (hall j).2.2.1]
    by_cases hj : j < k
    · rw [hlt j hj]; exact hc.pipe j
    · have h1 := hge j (Nat.le_of_not_lt hj)
      have h2 := hc.info j
      have h3 := hc.pipe j
      have h4 := hc.latest_le j
      omega
  · have hjk : j < k := by
      by_contra h
      exact hj (hold j (Nat.le_of_not_lt h))
    rw [hot j (by omega)]
    have hi : d.input j = c.input j := by
      cases j with
      | zero => exact hsrc
      | succ j => show (d.stage j).output = (c.stage j).output; rw [hot j (by omega)]
    rw [hi]
    exact hc.good j fun h => hj ((hold' j hjk).2 h)
  · by_cases hjk : k ≤ j + 1
    · exact hold _ hjk
    · exact (hold' _ (by omega)).2 (hc.down j ((hold' j (by omega)).1 hj))

/-- a setting that does not matter -/
theorem quiet_inv {c : Chain S M} (hc : c.Inv good) (k : Nat) {s : S}
    (hs : ∀ m out, good (c.stage k).members m out → good s m out) :
    (c.put k { c.stage k with members := s }).Inv good := by
  generalize hd : c.put k { c.stage k with members := s } = d
  have hk : d.stage k = { c.stage k with members := s } := by rw [← hd]; exact put_same _ _ _
  have hot : ∀ j, j ≠ k → d.stage j = c.stage j := fun j hj => by rw [← hd]; exact put_other _ _ hj
  have hcl : d.clock = c.clock := by rw [← hd]; rfl
  have hsrc : d.source = c.source := by rw [← hd]; rfl
  have hsrcT : d.sourceMTime = c.sourceMTime := by rw [← hd]; rfl
  have hall : ∀ j, (d.stage j).mtime = (c.stage j).mtime ∧
      (d.stage j).infoMTime = (c.stage j).infoMTime ∧ (d.stage j).outMTime = (c.stage j).outMTime ∧
      (d.stage j).pipelineMTime = (c.stage j).pipelineMTime ∧ (d.stage j).updateMTime = (c.stage j).updateMTime ∧
      (d.stage j).output = (c.stage j).output := fun j => by
    by_cases hj : j = k
    · subst hj; rw [hk]; exact ⟨rfl, rfl, rfl, rfl, rfl, rfl⟩
    · rw [hot j hj]; exact ⟨rfl, rfl, rfl, rfl, rfl, rfl⟩
  have hl : ∀ j, d.latest j = c.latest j := fun j =>
    latest_congr (fun i _ => (hall i).1) (fun i _ => (hall i).2.2.1) hsrcT
  have hold : ∀ j, d.Old j ↔ c.Old j := fun j => by
    unfold Old
    rw [hl, (hall j).2.2.2.2.1]
  have hi : ∀ j, d.input j = c.input j := fun j => by
    cases j with
    | zero => exact hsrc
    | succ j => exact (hall j).2.2.2.2.2
  refine ⟨⟨fun j => ?_, ?_, fun j => ?_, fun j => ?_, fun j => ?_, fun j => ?_⟩, fun j hj => ?_, fun j hj => ?_⟩
  · rw [(hall j).1, hcl]; exact hc.mtime j
  · rw [hsrcT, hcl]; exact hc.source
  · rw [(hall j).2.1, hcl]; exact hc.info j
  · rw [(hall j).2.2.1, hcl]; exact hc.out j
  · rw [(hall j).2.2.2.2.1, hcl]; exact hc.upd j
  · rw [(hall j).2.2.2.1, (hall j).2.1, hl]; exact hc.pipe j
  · have hg := hc.good j fun h => hj ((hold j).2 h)
    rw [hi, (hall j).2.2.2.2.2]
    by_cases hjk : j = k
    · subst hjk
      rw [hk]; exact hs _ _ hg
    · rw [hot j hjk]; exact hg
  · exact (hold _).2 (hc.down j ((hold j).1 hj))

/-- the input mesh changes -/
theorem input_inv {c : Chain S M} (hc : c.Inv good) (m : M) :
    ({ c with source := m, sourceMTime := c.clock + 1, clock := c.clock + 1 } : Chain S M).Inv good := by
  generalize hd : ({ c with source := m, sourceMTime := c.clock + 1, clock := c.clock + 1 } : Chain S M) = d
  have hst : ∀ j, d.stage j = c.stage j := fun j => by rw [← hd]
  have hcl : d.clock = c.clock + 1 := by rw [← hd]
  have hsrcT : d.sourceMTime = c.clock + 1 := by rw [← hd]
  have hge : ∀ j, c.clock + 1 ≤ d.latest j := fun j => by
    have := source_le_latest d j
    rw [hsrcT] at this; exact this
  have hold : ∀ j, d.Old j := fun j => by
    have h1 := hge j
    have h2 := hc.upd j
    unfold Old
    rw [hst]; omega
  refine ⟨⟨fun j => ?_, ?_, fun j => ?_, fun j => ?_, fun j => ?_, fun j => ?_⟩, fun j hj => absurd (hold j) hj, fun j _ => hold _⟩
  · rw [hst, hcl]; exact Nat.le_succ_of_le (hc.mtime j)
  · rw [hsrcT, hcl]; exact Nat.le_refl _
  · rw [hst, hcl]; exact Nat.le_succ_of_le (hc.info j)
  · rw [hst, hcl]; exact Nat.le_succ_of_le (hc.out j)
  · rw [hst, hcl]; exact Nat.le_succ_of_le (hc.upd j)
  · rw [hst]
    have h1 := hge j
    have h2 := hc.info j
    have h3 := hc.pipe j
    have h4 := hc.latest_le j
    omega

/-- the times are in order between any calls, whatever the runs do -/
theorem calls_times {cs : List (ChainCall S M)} {c d : Chain S M} (hc : c.Times)
    (hx : c.calls run pulls nothing cs = some d) : d.Times := by
  induction cs generalizing c with
  | nil => cases hx; exact hc
  | cons x cs ih =>
    unfold calls at hx
    split at hx
    · rename_i q hq
      refine ih ?_ hx
      cases x with
      | set k tells g =>
        unfold call at hq
        simp only [Option.some.injEq] at hq
        subst hq
        have hu := hc.upd k
        split
        · exact put_times hc k (Nat.le_succ _) rfl rfl (Or.inr ⟨Nat.lt_succ_self _, Nat.le_refl _⟩) (Or.inl rfl) (Nat.le_succ_of_le hu)
        · exact put_times (n := c.clock) hc k (Nat.le_refl _) rfl rfl (Or.inl rfl) (Or.inl rfl) hu
      | input m =>
        unfold call at hq
        simp only [Option.some.injEq] at hq
        subst hq
        refine ⟨fun j => Nat.le_succ_of_le (hc.mtime j), Nat.le_refl _, fun j => Nat.le_succ_of_le (hc.info j),
          fun j => Nat.le_succ_of_le (hc.out j), fun j => Nat.le_succ_of_le (hc.upd j), fun j => Or.inr ?_⟩
        have h1 := source_le_latest ({ c with source := m, sourceMTime := c.clock + 1, clock := c.clock + 1 } : Chain S M) j
        have h2 := hc.info j
        have h3 := hc.pipe j
        have h4 := hc.latest_le j
        dsimp only at h1 ⊢
        omega
      | update k w =>
        unfold call at hq
        dsimp only at hq
        obtain ⟨-, i2, i3, -⟩ := updateInformation_times hc k
        split at hq
        · rename_i h1
          cases hq
          exact (updateData_times i2 i3 h1).1
        · rename_i h1
          cases hq
          exact (updateData_times i2 i3 h1).1
        · cases hq
    · cases hx

end Chain
end Verif
