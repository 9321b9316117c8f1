import Verif.Proofs.Chain
import Verif.Spec.Chain
/-
In a row of filters whose runs keep their settings, `Update()` gives what the filters give by hand.
-/
namespace Verif
namespace Chain
variable {S M : Type} {run : S → M → Option (Except Fail M × S)} {pulls : S → Bool} {w : Around} {nothing : M}

theorem generate_track {Q : Nat → S → Prop} (hQ : ∀ k s m r s', Q k s → run s m = some (r, s') → Q k s') {k : Nat}
    {c d : Chain S M} {touch : Bool} {r : Except Fail Unit} (h : ∀ j, Q j (c.stage j).members)
    (hx : c.generate run touch nothing k = some (r, d)) : (∀ j, Q j (d.stage j).members) ∧ d.source = c.source := by
  unfold generate at hx
  split at hx
  · cases hx
  rename_i r' s hr
  have hs := hQ k _ _ _ _ (h k) hr
  cases r' with
  | error e =>
    simp only [Option.some.injEq, Prod.mk.injEq] at hx
    obtain ⟨-, rfl⟩ := hx
    refine ⟨fun j => ?_, rfl⟩
    by_cases hj : j = k
    · subst hj; dsimp only; rw [put_same]; exact hs
    · dsimp only; rw [put_other _ _ hj]; exact h j
  | ok out =>
    simp only [Option.some.injEq, Prod.mk.injEq] at hx
    obtain ⟨-, rfl⟩ := hx
    refine ⟨fun j => ?_, rfl⟩
    by_cases hj : j = k
    · subst hj; dsimp only; rw [put_same]; exact hs
    · dsimp only; rw [put_other _ _ hj]; exact h j

theorem informStage_same (c : Chain S M) (k : Nat) :
    (∀ j, ((c.informStage k).stage j).members = (c.stage j).members) ∧ (c.informStage k).source = c.source := by
  unfold informStage
  split
  · refine ⟨fun j => ?_, rfl⟩
    by_cases hj : j = k
    · subst hj; dsimp only; rw [put_same]
    · dsimp only; rw [put_other _ _ hj]
  · exact ⟨fun _ => rfl, rfl⟩

theorem updateInformation_same (c : Chain S M) (k : Nat) :
    (∀ j, ((c.updateInformation k).stage j).members = (c.stage j).members) ∧ (c.updateInformation k).source = c.source := by
  induction k with
  | zero => exact informStage_same c 0
  | succ k ih =>
    obtain ⟨h1, h2⟩ := informStage_same (c.updateInformation k) (k + 1)
    exact ⟨fun j => (h1 j).trans (ih.1 j), h2.trans ih.2⟩

theorem empty_same (c : Chain S M) (k : Nat) (j : Nat) :
    ((c.put k { c.stage k with output := nothing }).stage j).members = (c.stage j).members := by
  by_cases hj : j = k
  · subst hj; rw [put_same]
  · rw [put_other _ _ hj]

theorem updateData_track {Q : Nat → S → Prop} (hQ : ∀ k s m r s', Q k s → run s m = some (r, s') → Q k s') {k : Nat}
    {c d : Chain S M} {r : Except Fail Unit} (h : ∀ j, Q j (c.stage j).members)
    (hx : updateData run pulls w nothing k c = some (r, d)) : (∀ j, Q j (d.stage j).members) ∧ d.source = c.source := by
  induction k generalizing c d r with
  | zero =>
    unfold updateData at hx
    split at hx
    · exact generate_track hQ h hx
    · cases hx; exact ⟨h, rfl⟩
  | succ k ih =>
    unfold updateData at hx
    split at hx
    · split at hx
      · cases hx
      · rename_i h1
        cases hx
        obtain ⟨a1, a2⟩ := ih h h1
        exact ⟨fun j => by rw [empty_same]; exact a1 j, a2⟩
      · rename_i c1 h1
        obtain ⟨a1, a2⟩ := ih h h1
        split at hx
        · obtain ⟨b1, b2⟩ := updateInformation_same c1 k
          have a3 : ∀ j, Q j ((c1.updateInformation k).stage j).members := fun j => by rw [b1]; exact a1 j
          split at hx
          · cases hx
          · rename_i h2
            cases hx
            obtain ⟨c1, c2⟩ := ih a3 h2
            exact ⟨fun j => by rw [empty_same]; exact c1 j, c2.trans (b2.trans a2)⟩
          · rename_i c2 h2
            obtain ⟨d1, d2⟩ := ih a3 h2
            obtain ⟨e1, e2⟩ := generate_track hQ d1 hx
            exact ⟨e1, e2.trans (d2.trans (b2.trans a2))⟩
        · obtain ⟨e1, e2⟩ := generate_track hQ a1 hx
          exact ⟨e1, e2.trans a2⟩
    · cases hx; exact ⟨h, rfl⟩

/-- two kinds of runs that are the same on the members at hand -/
theorem updateData_dom {dom : S → Prop} {run' : S → M → Option (Except Fail M × S)} (heq : ∀ s m, dom s → run s m = run' s m)
    (hdom : ∀ s m r s', dom s → run s m = some (r, s') → dom s') {k : Nat} {c : Chain S M}
    (h : ∀ j, dom (c.stage j).members) : updateData run pulls w nothing k c = updateData run' pulls w nothing k c := by
  have gen : ∀ (c : Chain S M) touch k, (∀ j, dom (c.stage j).members) →
      c.generate run touch nothing k = c.generate run' touch nothing k := by
    intro c touch k h
    unfold generate
    rw [heq _ _ (h k)]
  have hQ : ∀ (_ : Nat) s m r s', dom s → run s m = some (r, s') → dom s' := fun _ => hdom
  induction k generalizing c with
  | zero =>
    unfold updateData
    rw [gen c _ 0 h]
  | succ k ih =>
    unfold updateData
    split
    · rw [← ih h]
      rcases h1 : updateData run pulls w nothing k c with _ | ⟨_ | _, c1⟩
      · rfl
      · rfl
      · have a1 := (updateData_track (Q := fun _ => dom) hQ h h1).1
        have a3 : ∀ j, dom ((c1.updateInformation k).stage j).members := fun j => by
          rw [(updateInformation_same c1 k).1]; exact a1 j
        dsimp only
        rw [← ih a3, gen c1 _ _ a1]
        rcases h2 : updateData run pulls w nothing k (c1.updateInformation k) with _ | ⟨_ | _, c2⟩
        · rfl
        · rfl
        · dsimp only
          rw [gen c2 _ _ (updateData_track (Q := fun _ => dom) hQ a3 h2).1]
    · rfl

variable {key : S → S}

/-- the result of `UpdateOutputData`, when the members are as asked for (`a`), up to `key` -/
theorem updateData_result (hkeep : ∀ s m r s', run s m = some (r, s') → key s' = key s)
    (hres : ∀ s a m, key s = key a → (run s m).map Prod.fst = (run a m).map Prod.fst) {a : Nat → S} {k : Nat}
    {c : Chain S M} (hc : c.Inv fun s m out => (run s m).map Prod.fst = some (.ok out))
    (hp : ∀ j ≤ k, (c.stage j).pipelineMTime = c.latest j) (h : ∀ j, key (c.stage j).members = key (a j)) :
    gives k (updateData run pulls w nothing k c) = byHand run a c.source k := by
  have hrun : ∀ s m out s', run s m = some (.ok out, s') → (run s' m).map Prod.fst = some (.ok out) := by
    intro s m out s' h
    rw [hres s' s m (hkeep _ _ _ _ h), h]; rfl
  have hfail : ∀ s m e s' out, run s m = some (.error e, s') → ¬ (run s m).map Prod.fst = some (Except.ok out) := by
    intro s m e s' out h hg
    rw [h] at hg
    cases hg
  have hQ : ∀ k s m r s', key s = key (a k) → run s m = some (r, s') → key s' = key (a k) :=
    fun k s m r s' h hr => (hkeep _ _ _ _ hr).trans h
  -- what is up to date is what the filters give by hand
  have good : ∀ (d : Chain S M), d.Inv (fun s m out => (run s m).map Prod.fst = some (.ok out)) →
      (∀ j, key (d.stage j).members = key (a j)) → ∀ j, ¬ d.Old j → byHand run a d.source j = some (.ok (d.stage j).output) := by
    intro d hd hk j
    induction j with
    | zero =>
      intro ho
      have := hd.good 0 ho
      rw [hres _ _ _ (hk 0)] at this
      exact this
    | succ j ih =>
      intro ho
      have h1 := ih fun h => ho (hd.down j h)
      have := hd.good (j + 1) ho
      rw [hres _ _ _ (hk (j + 1))] at this
      unfold byHand
      rw [h1]
      exact this
  have gen : ∀ (d : Chain S M) touch k, (∀ j, key (d.stage j).members = key (a j)) →
      gives k (d.generate run touch nothing k) = (run (a k) (d.input k)).map Prod.fst := by
    intro d touch k hd
    rw [← hres _ _ (d.input k) (hd k)]
    unfold generate
    rcases run (d.stage k).members (d.input k) with _ | ⟨_ | out, s⟩
    · rfl
    · rfl
    · simp only [gives, Option.map_some, Except.map, put_same]
  induction k generalizing c with
  | zero =>
    unfold updateData
    split
    · exact gen c _ 0 h
    · rename_i hn
      refine ((good c hc h 0 fun ho => hn (Or.inl ?_))).symm
      rw [hp 0 (Nat.le_refl _)]; exact ho
  | succ k ih =>
    unfold updateData
    split
    · have i1 := ih hc (fun j hj => hp j (by omega)) h
      unfold byHand
      rw [← i1]
      rcases h1 : updateData run pulls w nothing k c with _ | ⟨e | ⟨⟩, c1⟩
      · rfl
      · rfl
      · have s1 := updateData_step hrun hfail hc (fun j hj => hp j (by omega)) h1
        obtain ⟨t1, t2⟩ := updateData_track (Q := fun k s => key s = key (a k)) hQ h h1
        dsimp only [gives, Option.map_some, Except.map]
        split
        · obtain ⟨j1, j2, j3, j4⟩ := updateInformation_spec s1.inv k
          obtain ⟨b1, b2⟩ := updateInformation_same c1 k
          have t3 : ∀ j, key ((c1.updateInformation k).stage j).members = key (a j) := fun j => by rw [b1]; exact t1 j
          have i2 := ih j2 j3 t3
          rw [b2, t2, ← i1, h1] at i2
          rcases h2 : updateData run pulls w nothing k (c1.updateInformation k) with _ | ⟨e | ⟨⟩, c2⟩
          · rw [h2] at i2; cases i2
          · rw [h2] at i2; cases i2
          · rw [h2] at i2
            obtain ⟨t4, t5⟩ := updateData_track (Q := fun k s => key s = key (a k)) hQ t3 h2
            have e : (c2.stage k).output = (c1.stage k).output := by
              simpa only [gives, Option.map_some, Except.map, Option.some.injEq, Except.ok.injEq] using i2
            dsimp only
            refine (gen c2 _ (k + 1) t4).trans ?_
            show (run (a (k + 1)) (c2.stage k).output).map Prod.fst = _
            rw [e]
        · exact gen c1 _ (k + 1) t1
    · rename_i hn
      refine ((good c hc h (k + 1) fun ho => hn (Or.inl ?_))).symm
      rw [hp (k + 1) (Nat.le_refl _)]; exact ho

/-- the invariants of the calls -/
theorem calls_inv (hkeep : ∀ s m r s', run s m = some (r, s') → key s' = key s)
    (hres : ∀ s a m, key s = key a → (run s m).map Prod.fst = (run a m).map Prod.fst) {cs : List (ChainCall S M)}
    (hset : ∀ k tells g, ChainCall.set k tells g ∈ cs → ∀ s a, key s = key a → key (g s) = key (g a))
    (hsilent : ∀ k tells g, ChainCall.set k tells g ∈ cs → ∀ s, tells s = false → key (g s) = key s)
    {a : Nat → S} {c d : Chain S M} (hc : c.Inv fun s m out => (run s m).map Prod.fst = some (.ok out))
    (h : ∀ j, key (c.stage j).members = key (a j)) (hx : c.calls run pulls nothing cs = some d) :
    d.Inv (fun s m out => (run s m).map Prod.fst = some (.ok out)) ∧
    (∀ j, key (d.stage j).members = key ((askedChain a c.source cs).1 j)) ∧ d.source = (askedChain a c.source cs).2 := by
  have hrun : ∀ s m out s', run s m = some (.ok out, s') → (run s' m).map Prod.fst = some (.ok out) := by
    intro s m out s' h
    rw [hres s' s m (hkeep _ _ _ _ h), h]; rfl
  have hfail : ∀ s m e s' out, run s m = some (.error e, s') → ¬ (run s m).map Prod.fst = some (Except.ok out) := by
    intro s m e s' out h hg
    rw [h] at hg
    cases hg
  have hupd : ∀ (c d : Chain S M) (a : Nat → S) k w r, c.Inv (fun s m out => (run s m).map Prod.fst = some (.ok out)) →
      (∀ j, key (c.stage j).members = key (a j)) → c.update run pulls w nothing k = some (r, d) →
      d.Inv (fun s m out => (run s m).map Prod.fst = some (.ok out)) ∧ (∀ j, key (d.stage j).members = key (a j)) ∧
      d.source = c.source := by
    intro c d a k w r hc h hx
    obtain ⟨b1, b2⟩ := updateInformation_same c k
    obtain ⟨t1, t2⟩ := updateData_track (Q := fun k s => key s = key (a k))
      (fun k s m r s' h hr => (hkeep _ _ _ _ hr).trans h) (c := c.updateInformation k) (fun j => by rw [b1]; exact h j) hx
    exact ⟨(update_step hrun hfail hc hx).inv, t1, t2.trans b2⟩
  induction cs generalizing c a with
  | nil => cases hx; exact ⟨hc, h, rfl⟩
  | cons x cs ih =>
    have ih' := fun {a c} => ih (fun k tells g hg => hset k tells g (List.mem_cons_of_mem _ hg))
      (fun k tells g hg => hsilent k tells g (List.mem_cons_of_mem _ hg)) (a := a) (c := c)
    unfold calls at hx
    split at hx
    · rename_i q hq
      cases x with
      | set k tells g =>
        unfold call at hq
        simp only [Option.some.injEq] at hq
        have hm : q.Inv (fun s m out => (run s m).map Prod.fst = some (.ok out)) ∧ q.source = c.source ∧
            ∀ j, (q.stage j).members = if j = k then g (c.stage j).members else (c.stage j).members := by
          subst hq
          split
          · refine ⟨set_inv hc k _, rfl, fun j => ?_⟩
            by_cases hj : j = k
            · subst hj; rw [if_pos rfl]; dsimp only; rw [put_same]
            · rw [if_neg hj]; dsimp only; rw [put_other _ _ hj]
          · rename_i ht
            refine ⟨quiet_inv hc k (fun m out hg => ?_), rfl, fun j => ?_⟩
            · rw [hres _ _ m (hsilent k tells g List.mem_cons_self _ (by simpa using ht))]; exact hg
            · by_cases hj : j = k
              · subst hj; rw [if_pos rfl, put_same]
              · rw [if_neg hj, put_other _ _ hj]
        have := ih' (a := fun j => if j = k then g (a j) else a j) hm.1 (fun j => by
          rw [hm.2.2]
          by_cases hj : j = k
          · rw [if_pos hj, if_pos hj]; exact hset k tells g List.mem_cons_self _ _ (h j)
          · rw [if_neg hj, if_neg hj]; exact h j) hx
        rw [hm.2.1] at this
        exact this
      | input m =>
        unfold call at hq
        simp only [Option.some.injEq] at hq
        subst hq
        exact ih' (input_inv hc m) h hx
      | update k w =>
        unfold call at hq
        dsimp only at hq
        split at hq
        · rename_i h1
          cases hq
          obtain ⟨h2, h3, h4⟩ := hupd _ _ _ _ _ _ hc h h1
          have := ih' h2 h3 hx
          rw [h4] at this
          exact this
        · rename_i h1
          cases hq
          obtain ⟨h2, h3, h4⟩ := hupd _ _ _ _ _ _ hc h h1
          have := ih' h2 h3 hx
          rw [h4] at this
          exact this
        · cases hq
    · cases hx

/-- After any calls, `Update()` of any of the filters gives what the filters give by hand. -/
theorem update_gives (hkeep : ∀ s m r s', run s m = some (r, s') → key s' = key s)
    (hres : ∀ s a m, key s = key a → (run s m).map Prod.fst = (run a m).map Prod.fst) {cs : List (ChainCall S M)}
    (hset : ∀ k tells g, ChainCall.set k tells g ∈ cs → ∀ s a, key s = key a → key (g s) = key (g a))
    (hsilent : ∀ k tells g, ChainCall.set k tells g ∈ cs → ∀ s, tells s = false → key (g s) = key s)
    {s : Nat → S} {m : M} {c : Chain S M} (hx : (Chain.new s m nothing).calls run pulls nothing cs = some c) (k : Nat) :
    gives k (c.update run pulls w nothing k) = byHand run (askedChain s m cs).1 (askedChain s m cs).2 k := by
  obtain ⟨h1, h2, h3⟩ := calls_inv hkeep hres hset hsilent (a := s) (new_inv s m nothing) (fun _ => rfl) hx
  obtain ⟨i1, i2, i3, -⟩ := updateInformation_spec h1 k
  obtain ⟨b1, b2⟩ := updateInformation_same c k
  refine (updateData_result (c := c.updateInformation k) hkeep hres i2 i3 (fun j => ?_)).trans (congrArg (fun x => byHand run _ x k) (b2.trans h3))
  rw [b1]; exact h2 j

/-- calls that keep the members in the domain of the theorem -/
theorem calls_dom {dom : S → Prop} {run' : S → M → Option (Except Fail M × S)} (heq : ∀ s m, dom s → run s m = run' s m)
    (hdom : ∀ s m r s', dom s → run s m = some (r, s') → dom s') {cs : List (ChainCall S M)}
    (hset : ∀ k tells g, ChainCall.set k tells g ∈ cs → ∀ s, dom s → dom (g s)) {c : Chain S M}
    (h : ∀ j, dom (c.stage j).members) :
    c.calls run pulls nothing cs = c.calls run' pulls nothing cs ∧
    ∀ d, c.calls run pulls nothing cs = some d → ∀ j, dom (d.stage j).members := by
  induction cs generalizing c with
  | nil => exact ⟨rfl, fun d hd => by cases hd; exact h⟩
  | cons x cs ih =>
    have ih' := fun {c} => ih (fun k tells g hg => hset k tells g (List.mem_cons_of_mem _ hg)) (c := c)
    have hcall : c.call run pulls nothing x = c.call run' pulls nothing x ∧
        ∀ d, c.call run pulls nothing x = some d → ∀ j, dom (d.stage j).members := by
      cases x with
      | set k tells g =>
        refine ⟨rfl, fun d hd j => ?_⟩
        unfold call at hd
        simp only [Option.some.injEq] at hd
        have hg := hset k tells g List.mem_cons_self _ (h k)
        subst hd
        split
        · by_cases hj : j = k
          · subst hj; dsimp only; rw [put_same]; exact hg
          · dsimp only; rw [put_other _ _ hj]; exact h j
        · by_cases hj : j = k
          · subst hj; rw [put_same]; exact hg
          · rw [put_other _ _ hj]; exact h j
      | input m => exact ⟨rfl, fun d hd j => by cases hd; exact h j⟩
      | update k w =>
        have h0 : ∀ j, dom ((c.updateInformation k).stage j).members := fun j => by
          rw [(updateInformation_same c k).1]; exact h j
        have he : c.update run pulls w nothing k = c.update run' pulls w nothing k := updateData_dom heq hdom h0
        refine ⟨?_, fun d hd => ?_⟩
        · unfold call
          dsimp only
          rw [he]
        · unfold call at hd
          dsimp only at hd
          split at hd
          · rename_i h1
            cases hd
            exact (updateData_track (Q := fun _ => dom) (fun _ => hdom) h0 h1).1
          · rename_i h1
            cases hd
            exact (updateData_track (Q := fun _ => dom) (fun _ => hdom) h0 h1).1
          · cases hd
    unfold calls
    rw [← hcall.1]
    rcases h1 : c.call run pulls nothing x with _ | d
    · exact ⟨rfl, fun d hd => by cases hd⟩
    · exact ih' (hcall.2 d h1)

end Chain
end Verif
