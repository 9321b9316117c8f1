import Verif.Properties.ChainFirst
/-
C72: a row with lists of cells that is used again and again, with a new input mesh and new lists each time.
-/
namespace Verif
set_option linter.unusedSectionVars false

namespace Chain
variable {S M : Type}

/-- if every filter on the way is out of date, `Update()` gives what the filters give by hand with the members they have -/
theorem gives_stale {run : S → M → Option (Except Fail M × S)} {pulls : S → Bool} {w : Chain.Around} {nothing : M}
    {c : Chain S M} (hc : c.Times) (k : Nat) (ho : ∀ j ≤ k, (c.stage j).updateMTime < c.latest j)
    (hp : ∀ j < k, pulls (c.stage (j + 1)).members = false) :
    gives k (c.update run pulls w nothing k) = byHand run (fun j => (c.stage j).members) c.source k := by
  obtain ⟨al, -, h3, -⟩ := updateInformation_times hc k
  have h := updateData_first (run := run) (pulls := pulls) (w := w) (nothing := nothing) (c := c.updateInformation k) k
    (fun j hj => by rw [h3 j hj, ← al.upd, ← al.latest]; exact ho j hj)
    (fun j hj => by rw [← al.members]; exact hp j hj)
  simp only [← al.members, ← al.source] at h
  unfold update
  rcases h1 : updateData run pulls w nothing k (c.updateInformation k) with _ | ⟨e | ⟨⟩, d⟩
  · rw [h1] at h; exact h.symm
  · rw [h1] at h; exact h.symm
  · rw [h1] at h; exact h.1.symm

theorem byHand_alike {run : S → M → Option (Except Fail M × S)} {s a : Nat → S} (m : M)
    {k : Nat} (h : ∀ j ≤ k, ∀ x, (run (s j) x).map Prod.fst = (run (a j) x).map Prod.fst) : byHand run s m k = byHand run a m k := by
  induction k with
  | zero => exact h 0 (Nat.le_refl _) m
  | succ k ih =>
    unfold byHand
    rw [ih fun j hj => h j (Nat.le_succ_of_le hj)]
    split
    · exact h _ (Nat.le_refl _) _
    · rfl

end Chain

variable {K P D : Type} [Field K] [Zero P] [Add P] [SMul K P] [LinearOrder K]

/-- the list of a cell filter -/
def AnyFilt.listed : AnyFilt K → List CId
  | .cell _ f => f.cells
  | _ => []

/-- The members are those asked for, but for what the runs leave behind: `L` says which places have cell filters with lists. -/
structure AsAsked (L : Nat → Prop) (j : Nat) (s a : AnyFilt K) : Prop where
  plain : s.plain = a.plain
  steady : ¬ L j → Steady s ∧ Steady a
  cell : L j → ∃ sch, sch ≠ Scheme.loop ∧ a.plain = .cell sch Filt.new

theorem AnyFilt.cell_of_plain {s : AnyFilt K} {sch : Scheme} (h : s.plain = .cell sch Filt.new) : ∃ f, s = .cell sch f := by
  cases s with
  | cell sch' f => cases h; exact ⟨f, rfl⟩
  | edge _ _ => cases h
  | iter _ _ => cases h
  | cond _ _ => cases h
  | condEdge _ _ => cases h

theorem onCell_plain (g : Filt → Filt) (s : AnyFilt K) : (onCell g s).plain = s.plain := by cases s <;> rfl

variable {L : Nat → Prop}

theorem AsAsked.run {lib : QELib} {cosn : Nat → K} {area : P → P → P → K} {len : P → P → K} {fuel j : Nat} {s s' a : AnyFilt K}
    {m : Mesh P D} {r : Except Fail (Mesh P D)} (h : AsAsked L j s a) (hr : anyRun lib cosn area len fuel s m = some (r, s')) :
    AsAsked L j s' a := by
  by_cases hl : L j
  · obtain ⟨sch, hs, ha⟩ := h.cell hl
    obtain ⟨f, rfl⟩ := AnyFilt.cell_of_plain (h.plain.trans ha)
    have : s' = .cell sch (cellUpdate sch lib cosn f m).2 := (congrArg Prod.snd (Option.some.inj hr)).symm
    exact ⟨by rw [this, ha]; rfl, fun hn => absurd hl hn, h.cell⟩
  · obtain ⟨h1, h2⟩ := h.steady hl
    obtain ⟨h3, h4⟩ := h1.run hr
    exact ⟨h4.trans h.plain, fun _ => ⟨h3, h2⟩, h.cell⟩

/-- a call of the theorem: those of `C72_row_of_filters_partial`, and `SetCellsToBeSubdivided` of the cell filters with lists -/
def ListCall (L : Nat → Prop) (x : ChainCall (AnyFilt K) (Mesh P D)) : Prop := IsChainCall x ∨ ∃ j l, L j ∧ x = chainSetCells j l

theorem AsAsked.set {j k : Nat} {tells : AnyFilt K → Bool} {g : AnyFilt K → AnyFilt K}
    (hx : ListCall (P := P) (D := D) L (.set k tells g)) {s a : AnyFilt K} (h : AsAsked L j s a) (hj : j = k) :
    AsAsked L j (g s) (g a) := by
  rcases hx with hx | ⟨i, l, hi, hx⟩
  · obtain ⟨g1, g2, -, -⟩ := hx.steady
    refine ⟨g2 _ _ h.plain, fun hn => ⟨g1 _ (h.steady hn).1, g1 _ (h.steady hn).2⟩, fun hl => ?_⟩
    obtain ⟨sch, hs, ha⟩ := h.cell hl
    refine ⟨sch, hs, ?_⟩
    rw [g2 a (.cell sch Filt.new) (ha.trans rfl)]
    generalize hc : ChainCall.set k tells g = c at hx
    cases hx <;> cases hc <;> rfl
  · cases hx
    exact ⟨by rw [onCell_plain, onCell_plain]; exact h.plain, fun hn => absurd (hj ▸ hi) hn, fun hl => by
      rw [onCell_plain]; exact h.cell hl⟩

theorem calls_follows {lib : QELib} {cosn : Nat → K} {area : P → P → P → K} {len : P → P → K} {fuel : Nat}
    {cs : List (ChainCall (AnyFilt K) (Mesh P D))} (hcs : ∀ x ∈ cs, ListCall L x) {s : Nat → AnyFilt K} {m : Mesh P D}
    {c d : Chain (AnyFilt K) (Mesh P D)} (h : ∀ j, AsAsked L j (c.stage j).members (s j)) (hm : c.source = m)
    (hx : c.calls (anyRun lib cosn area len fuel) AnyFilt.pulls Mesh.empty cs = some d) :
    (∀ j, AsAsked L j (d.stage j).members ((askedChain s m cs).1 j)) ∧ d.source = (askedChain s m cs).2 := by
  induction cs generalizing s m c with
  | nil => cases hx; exact ⟨h, hm⟩
  | cons x cs ih =>
    have ih' := fun {s m c} => ih (s := s) (m := m) (c := c) fun x hx => hcs x (List.mem_cons_of_mem _ hx)
    have hx0 := hcs x List.mem_cons_self
    unfold Chain.calls at hx
    split at hx
    · rename_i q hq
      cases x with
      | set i tells g =>
        unfold Chain.call at hq
        simp only [Option.some.injEq] at hq
        subst hq
        refine ih' (s := fun j => if j = i then g (s j) else s j) (m := m) ?_ ?_ hx
        · intro j
          by_cases hj : j = i
          · subst hj
            have := (h j).set hx0 rfl
            rw [if_pos rfl]
            split
            · dsimp only; rw [Chain.put_same]; exact this
            · rw [Chain.put_same]; exact this
          · rw [if_neg hj]
            split
            · dsimp only; rw [Chain.put_other _ _ hj]; exact h j
            · rw [Chain.put_other _ _ hj]; exact h j
        · split <;> exact hm
      | input m' =>
        unfold Chain.call at hq
        simp only [Option.some.injEq] at hq
        subst hq
        exact ih' (s := s) (m := m') (c := { c with source := m', sourceMTime := c.clock + 1, clock := c.clock + 1 }) h rfl hx
      | update i w =>
        unfold Chain.call at hq
        have hu : ∀ r e, c.update (anyRun lib cosn area len fuel) AnyFilt.pulls w Mesh.empty i = some (r, e) →
            (∀ j, AsAsked L j (e.stage j).members (s j)) ∧ e.source = m := by
          intro r e he
          obtain ⟨i1, i2⟩ := Chain.updateInformation_same c i
          obtain ⟨a1, a2⟩ := Chain.updateData_track (Q := fun j x => AsAsked L j x (s j)) (fun k x m r x' hx hr => hx.run hr)
            (fun j => by rw [i1]; exact h j) he
          exact ⟨a1, a2.trans (i2.trans hm)⟩
        dsimp only at hq
        rcases he : c.update (anyRun lib cosn area len fuel) AnyFilt.pulls w Mesh.empty i with _ | ⟨(e | e | _) | ⟨⟩, c'⟩
        · rw [he] at hq; cases hq
        · rw [he] at hq; cases hq; exact ih' (s := s) (m := m) (hu _ _ he).1 (hu _ _ he).2 hx
        · rw [he] at hq; cases hq
        · rw [he] at hq; cases hq
        · rw [he] at hq; cases hq; exact ih' (s := s) (m := m) (hu _ _ he).1 (hu _ _ he).2 hx
    · cases hx

/-- new lists: those of the places in `ls` are the lists asked for, and nothing becomes up to date -/
theorem lists_given {lib : QELib} {cosn : Nat → K} {area : P → P → P → K} {len : P → P → K} {fuel : Nat} {ls : List (Nat × List CId)}
    {s : Nat → AnyFilt K} {m : Mesh P D} {c d : Chain (AnyFilt K) (Mesh P D)}
    (h : ∀ j, (c.stage j).members.plain = (s j).plain)
    (hx : c.calls (anyRun lib cosn area len fuel) AnyFilt.pulls Mesh.empty (ls.map fun x => chainSetCells x.1 x.2) = some d) :
    (∀ j, (c.stage j).members.listed = (s j).listed ∨ j ∈ ls.map Prod.fst →
      (d.stage j).members.listed = ((askedChain s m (ls.map fun x => chainSetCells x.1 x.2)).1 j).listed) ∧
    d.sourceMTime = c.sourceMTime ∧ c.clock ≤ d.clock ∧ ∀ j, (d.stage j).updateMTime = (c.stage j).updateMTime ∧
      (d.stage j = c.stage j ∨ c.clock < (d.stage j).mtime) ∧ (j ∈ ls.map Prod.fst → c.clock < (d.stage j).mtime) := by
  induction ls generalizing s c with
  | nil =>
    cases hx
    exact ⟨fun j hj => hj.resolve_right (List.not_mem_nil), rfl, Nat.le_refl _, fun j => ⟨rfl, Or.inl rfl, fun h => absurd h List.not_mem_nil⟩⟩
  | cons x ls ih =>
    obtain ⟨i, l⟩ := x
    have e : ∀ j, ((c.put i { c.stage i with members := onCell (·.setCells l) (c.stage i).members, mtime := c.clock + 1 }).stage j).members =
        if j = i then onCell (·.setCells l) (c.stage j).members else (c.stage j).members := by
      intro j
      by_cases hj : j = i
      · subst hj; rw [Chain.put_same, if_pos rfl]
      · rw [Chain.put_other _ _ hj, if_neg hj]
    obtain ⟨h1, h2, h3, h4⟩ := ih (s := fun j => if j = i then onCell (·.setCells l) (s j) else s j)
      (c := { c.put i { c.stage i with members := onCell (·.setCells l) (c.stage i).members, mtime := c.clock + 1 } with clock := c.clock + 1 })
      (fun j => by
        dsimp only; rw [e]
        split
        · rw [onCell_plain, onCell_plain]; exact h j
        · exact h j)
      hx
    refine ⟨fun j hj => h1 j ?_, h2, Nat.le_of_succ_le h3, fun j => ?_⟩
    on_goal 2 =>
      obtain ⟨b1, b2, b3⟩ := h4 j
      by_cases hj : j = i
      · subst hj
        have hlt : c.clock < (d.stage j).mtime := by
          rcases b2 with b2 | b2
          · rw [b2]; dsimp only; rw [Chain.put_same]; exact Nat.lt_succ_self _
          · exact Nat.lt_of_succ_lt b2
        refine ⟨?_, Or.inr hlt, fun _ => hlt⟩
        rw [b1]; dsimp only; rw [Chain.put_same]
      · dsimp only at b1 b2
        rw [Chain.put_other _ _ hj] at b1 b2
        refine ⟨b1, b2.imp_right Nat.lt_of_succ_lt, fun hm => ?_⟩
        rcases List.mem_cons.1 hm with hm | hm
        · exact absurd hm hj
        · exact Nat.lt_of_succ_lt (b3 hm)
    dsimp only; rw [e]
    by_cases hji : j = i
    · left
      rw [if_pos hji, if_pos hji]
      have := h j
      cases hm : (c.stage j).members <;> cases ha : s j <;> rw [hm, ha] at this <;> first | rfl | cases this
    · rw [if_neg hji, if_neg hji]
      rcases hj with hj | hj
      · exact Or.inl hj
      · right
        rcases List.mem_cons.1 hj with hj | hj
        · exact absurd hj hji
        · exact hj

theorem AnyFilt.plain_pulls (x : AnyFilt K) : x.plain.pulls = x.pulls := by cases x <;> rfl

/-- which filters are iterative does not change -/
theorem asked_pulls {cs : List (ChainCall (AnyFilt K) (Mesh P D))} (hcs : ∀ x ∈ cs, ListCall L x) {s : Nat → AnyFilt K} {m : Mesh P D}
    {j : Nat} : ((askedChain s m cs).1 j).pulls = (s j).pulls := by
  induction cs generalizing s m with
  | nil => rfl
  | cons x cs ih =>
    have ih' := fun {s m} => ih (s := s) (m := m) fun x hx => hcs x (List.mem_cons_of_mem _ hx)
    have hx0 := hcs x List.mem_cons_self
    cases x with
    | set i tells g =>
      refine (ih' (s := fun j => if j = i then g (s j) else s j) (m := m)).trans ?_
      split
      · rcases hx0 with hx0 | ⟨_, l, _, hx0⟩
        · generalize hc : ChainCall.set i tells g = c at hx0
          cases hx0 <;> cases hc <;> cases s j <;> rfl
        · cases hx0
          cases s j <;> rfl
      · rfl
    | input m' => exact ih' (s := s) (m := m')
    | update i w => exact ih' (s := s) (m := m)

/-- what follows the last calls: new lists, at a time when all filters are out of date or will be -/
theorem gives_new_lists (lib : QELib) (cosn : Nat → K) (area : P → P → P → K) (len : P → P → K) (fuel : Nat)
    {s a : Nat → AnyFilt K} {c1 d : Chain (AnyFilt K) (Mesh P D)} (t1 : c1.Times) (f1 : ∀ j, AsAsked L j (c1.stage j).members (a j))
    (hsa : ∀ j, (a j).pulls = (s j).pulls) {ls : List (Nat × List CId)} (hls : ∀ x ∈ ls, L x.1)
    (hd1 : c1.calls (anyRun lib cosn area len fuel) AnyFilt.pulls Mesh.empty (ls.map fun x => chainSetCells x.1 x.2) = some d)
    (k : Nat) (hold : (∀ j, (c1.stage j).updateMTime < c1.sourceMTime) ∨ 0 ∈ ls.map Prod.fst)
    (hall : ∀ j ≤ k, L j → j ∈ ls.map Prod.fst) (hni : ∀ j < k, ∀ sch f, s (j + 1) ≠ .iter sch f) (w : Chain.Around) :
    gives k (d.update (anyRun lib cosn area len fuel) AnyFilt.pulls w Mesh.empty k) =
      byHand (anyRun lib cosn area len fuel) (askedChain a c1.source (ls.map fun x => chainSetCells x.1 x.2)).1 c1.source k := by
  have t2 := Chain.calls_times t1 hd1
  have hcs1 : ∀ x ∈ ls.map (fun x : Nat × List CId => chainSetCells (K := K) (P := P) (D := D) x.1 x.2), ListCall L x := by
    intro x hx
    obtain ⟨y, hy, rfl⟩ := List.mem_map.1 hx
    exact Or.inr ⟨y.1, y.2, hls y hy, rfl⟩
  obtain ⟨g1, g2⟩ := calls_follows (c := c1) (m := c1.source) hcs1 f1 rfl hd1
  obtain ⟨l1, l2, -, l3⟩ := lists_given (c := c1) (s := a) (m := c1.source) (fun j => (f1 j).plain) hd1
  have hsrc : (askedChain a c1.source (ls.map fun x => chainSetCells x.1 x.2)).2 = c1.source := by
    clear * -
    generalize c1.source = m
    induction ls generalizing a with
    | nil => rfl
    | cons x ls ih => exact ih
  rw [hsrc] at g2
  have hlate : ∀ j, (d.stage j).updateMTime < d.latest j := by
    intro j
    rcases hold with h | h
    · rw [(l3 j).1]
      exact Nat.lt_of_lt_of_le (h j) (l2 ▸ Chain.source_le_latest d j)
    · rw [(l3 j).1]
      exact Nat.lt_of_le_of_lt (t1.upd j) (Nat.lt_of_lt_of_le ((l3 0).2.2 h) (Chain.mtime_le_latest d (Nat.zero_le j)))
  have hp : ∀ j < k, ((d.stage (j + 1)).members).pulls = false := by
    intro j hj
    rw [← AnyFilt.plain_pulls, (g1 (j + 1)).plain, AnyFilt.plain_pulls, asked_pulls hcs1, hsa]
    rcases h : s (j + 1) with ⟨sch, f⟩ | ⟨sch, f⟩ | ⟨sch, f⟩ | ⟨sch, f⟩ | ⟨sch, f⟩
    · rfl
    · rfl
    · exact absurd h (hni j hj sch f)
    · rfl
    · rfl
  rw [Chain.gives_stale t2 k (fun j _ => hlate j) hp, g2]
  refine Chain.byHand_alike c1.source fun j hj x => ?_
  by_cases hlj : L j
  · obtain ⟨sch, hsch, hpa⟩ := (g1 j).cell hlj
    obtain ⟨f, hf⟩ := AnyFilt.cell_of_plain ((g1 j).plain.trans hpa)
    obtain ⟨f', hf'⟩ := AnyFilt.cell_of_plain hpa
    have hcells := l1 j (Or.inr (hall j hj hlj))
    rw [hf, hf'] at hcells ⊢
    exact congrArg some (cellUpdate_history hsch lib cosn x (f := f') (g := f) hcells).1
  · obtain ⟨h1, h2⟩ := (g1 j).steady hlj
    exact h1.same h2 (g1 j).plain x

/-- C72 with lists of cells, for a row that is used again and again.  Some of the places (`L`) have cell filters with lists, Linear,
ModifiedButterfly or SquareThree; the others are those of `C72_row_of_filters_partial`, and only the first may be iterative.  After any calls, any number
of updates that returned or threw among them: if a new input mesh and new lists are given (`ls`, to all filters with lists up to
place `k`), the next `Update()` gives what the filters give by hand.

What is missing: an `Update()` after which not all lists have been given anew, for which it is false (`C91_shared_list_refuted`);
Loop cell filters with lists (C25); lists of edges. -/
theorem C72_new_lists_partial (lib : QELib) (cosn : Nat → K) (area : P → P → P → K) (len : P → P → K) (fuel : Nat)
    {s : Nat → AnyFilt K} (hs : ∀ j, ¬ L j → Steady (s j)) (hl : ∀ j, L j → ∃ sch f, sch ≠ Scheme.loop ∧ s j = .cell sch f)
    {cs : List (ChainCall (AnyFilt K) (Mesh P D))} (hcs : ∀ x ∈ cs, ListCall L x) {inp inp' : Mesh P D}
    {ls : List (Nat × List CId)} (hls : ∀ x ∈ ls, L x.1) {c d : Chain (AnyFilt K) (Mesh P D)}
    (hx : (Chain.new s inp Mesh.empty).calls (anyRun lib cosn area len fuel) AnyFilt.pulls Mesh.empty cs = some c)
    (hd : c.calls (anyRun lib cosn area len fuel) AnyFilt.pulls Mesh.empty (.input inp' :: ls.map fun x => chainSetCells x.1 x.2) = some d)
    (k : Nat) (hall : ∀ j ≤ k, L j → j ∈ ls.map Prod.fst) (hni : ∀ j < k, ∀ sch f, s (j + 1) ≠ .iter sch f) (w : Chain.Around) :
    gives k (d.update (anyRun lib cosn area len fuel) AnyFilt.pulls w Mesh.empty k) =
      byHand (anyRun lib cosn area len fuel)
        (askedChain s inp (cs ++ .input inp' :: ls.map fun x => chainSetCells x.1 x.2)).1 inp' k := by
  have h0 : ∀ j, AsAsked L j ((Chain.new s inp Mesh.empty).stage j).members (s j) := fun j =>
    ⟨rfl, fun hn => ⟨hs j hn, hs j hn⟩, fun hj => by
      obtain ⟨sch, f, h1, h2⟩ := hl j hj
      exact ⟨sch, h1, by rw [h2]; rfl⟩⟩
  obtain ⟨f1, f2⟩ := calls_follows (m := inp) hcs h0 rfl hx
  have t1 := Chain.calls_times (Chain.new_times s inp Mesh.empty) hx
  generalize ha : askedChain s inp cs = a at f1 f2
  have hfin : askedChain s inp (cs ++ .input inp' :: ls.map fun x => chainSetCells x.1 x.2) =
      askedChain a.1 inp' (ls.map fun x => chainSetCells x.1 x.2) := by
    rw [← ha]; unfold askedChain; rw [List.foldl_append]; rfl
  rw [hfin]
  have t3 : ({ c with source := inp', sourceMTime := c.clock + 1, clock := c.clock + 1 } : Chain (AnyFilt K) (Mesh P D)).Times :=
    Chain.calls_times (run := anyRun lib cosn area len fuel) (pulls := AnyFilt.pulls) (nothing := Mesh.empty) (cs := [.input inp']) t1 rfl
  exact gives_new_lists lib cosn area len fuel (s := s) t3 f1 (fun j => by rw [← ha]; exact asked_pulls hcs) hls hd k
    (Or.inl fun j => Nat.lt_succ_of_le (t1.upd j)) hall hni w

/-- C72 with new lists for the same input mesh: the same, if the first filter is among those that are given new lists.  (That the
others are executed again follows from the time of the first.) -/
theorem C72_new_lists_same_input_partial (lib : QELib) (cosn : Nat → K) (area : P → P → P → K) (len : P → P → K) (fuel : Nat)
    {s : Nat → AnyFilt K} (hs : ∀ j, ¬ L j → Steady (s j)) (hl : ∀ j, L j → ∃ sch f, sch ≠ Scheme.loop ∧ s j = .cell sch f)
    {cs : List (ChainCall (AnyFilt K) (Mesh P D))} (hcs : ∀ x ∈ cs, ListCall L x) {inp : Mesh P D}
    {ls : List (Nat × List CId)} (hls : ∀ x ∈ ls, L x.1) {c d : Chain (AnyFilt K) (Mesh P D)}
    (hx : (Chain.new s inp Mesh.empty).calls (anyRun lib cosn area len fuel) AnyFilt.pulls Mesh.empty cs = some c)
    (hd : c.calls (anyRun lib cosn area len fuel) AnyFilt.pulls Mesh.empty (ls.map fun x => chainSetCells x.1 x.2) = some d)
    (k : Nat) (h0 : 0 ∈ ls.map Prod.fst) (hall : ∀ j ≤ k, L j → j ∈ ls.map Prod.fst)
    (hni : ∀ j < k, ∀ sch f, s (j + 1) ≠ .iter sch f) (w : Chain.Around) :
    gives k (d.update (anyRun lib cosn area len fuel) AnyFilt.pulls w Mesh.empty k) =
      byHand (anyRun lib cosn area len fuel) (askedChain s inp (cs ++ ls.map fun x => chainSetCells x.1 x.2)).1
        (askedChain s inp cs).2 k := by
  have h1 : ∀ j, AsAsked L j ((Chain.new s inp Mesh.empty).stage j).members (s j) := fun j =>
    ⟨rfl, fun hn => ⟨hs j hn, hs j hn⟩, fun hj => by
      obtain ⟨sch, f, h1, h2⟩ := hl j hj
      exact ⟨sch, h1, by rw [h2]; rfl⟩⟩
  obtain ⟨f1, f2⟩ := calls_follows (m := inp) hcs h1 rfl hx
  have t1 := Chain.calls_times (Chain.new_times s inp Mesh.empty) hx
  have hfin : askedChain s inp (cs ++ ls.map fun x => chainSetCells x.1 x.2) =
      askedChain (askedChain s inp cs).1 (askedChain s inp cs).2 (ls.map fun x => chainSetCells x.1 x.2) := by
    unfold askedChain; rw [List.foldl_append]
  rw [hfin, ← f2]
  exact gives_new_lists lib cosn area len fuel (s := s) t1 f1 (fun j => asked_pulls hcs) hls hd k (Or.inr h0) hall hni w

section examples

/-- the row of `listRow`, used twice: after the first use the lists are ids of output cells -/
def twiceCalls : List (ChainCall (AnyFilt ℚ) (Mesh Q3 Nat)) := listRowCalls ++ [.update 1 always]
def newLists : List (Nat × List CId) := [(0, [2]), (1, [0, 5])]

example (w : Chain.Around) (c d : Chain (AnyFilt ℚ) (Mesh Q3 Nat))
    (h : (Chain.new listRow tetraMesh Mesh.empty).calls (anyRun someLib cos0 shadow taxi 1) AnyFilt.pulls Mesh.empty twiceCalls = some c)
    (h' : c.calls (anyRun someLib cos0 shadow taxi 1) AnyFilt.pulls Mesh.empty (.input tetraMesh :: newLists.map fun x => chainSetCells x.1 x.2) =
      some d) :
    gives 1 (d.update (anyRun someLib cos0 shadow taxi 1) AnyFilt.pulls w Mesh.empty 1) =
      byHand (anyRun someLib cos0 shadow taxi 1)
        (askedChain listRow tetraMesh (twiceCalls ++ .input tetraMesh :: newLists.map fun x => chainSetCells x.1 x.2)).1 tetraMesh 1 := by
  refine C72_new_lists_partial (L := fun j => j ≤ 1) someLib cos0 shadow taxi 1 (fun j _ => .cell .linear rfl rfl)
    (fun j _ => ⟨.linear, Filt.new, by decide, rfl⟩) ?_ ?_ h h' 1 ?_ (fun _ _ _ _ h => nomatch h) w
  · intro x hx
    simp only [twiceCalls, listRowCalls, List.mem_append, List.mem_cons, List.not_mem_nil, or_false] at hx
    rcases hx with (rfl | rfl | rfl) | rfl
    · exact Or.inr ⟨0, _, by decide, rfl⟩
    · exact Or.inr ⟨1, _, by decide, rfl⟩
    · exact Or.inl (.input _)
    · exact Or.inl (.update _ _)
  · decide
  · decide

/-- the calls return, and both ways give a mesh with as many triangles -/
example : (((Chain.new listRow tetraMesh Mesh.empty).calls (anyRun someLib cos0 shadow taxi 1) AnyFilt.pulls Mesh.empty
      (twiceCalls ++ .input tetraMesh :: newLists.map fun x => chainSetCells x.1 x.2)).bind fun d =>
        (gives 1 (d.update (anyRun someLib cos0 shadow taxi 1) AnyFilt.pulls quietly Mesh.empty 1)).bind
          fun r => r.toOption.map fun m => decide (tetraMesh.tris.length < m.tris.length)) = some true := by
  decide +kernel

/-- the same with new lists only -/
example (w : Chain.Around) (c d : Chain (AnyFilt ℚ) (Mesh Q3 Nat))
    (h : (Chain.new listRow tetraMesh Mesh.empty).calls (anyRun someLib cos0 shadow taxi 1) AnyFilt.pulls Mesh.empty twiceCalls = some c)
    (h' : c.calls (anyRun someLib cos0 shadow taxi 1) AnyFilt.pulls Mesh.empty (newLists.map fun x => chainSetCells x.1 x.2) = some d) :
    gives 1 (d.update (anyRun someLib cos0 shadow taxi 1) AnyFilt.pulls w Mesh.empty 1) =
      byHand (anyRun someLib cos0 shadow taxi 1)
        (askedChain listRow tetraMesh (twiceCalls ++ newLists.map fun x => chainSetCells x.1 x.2)).1 patchMesh 1 := by
  refine C72_new_lists_same_input_partial (L := fun j => j ≤ 1) someLib cos0 shadow taxi 1 (fun j _ => .cell .linear rfl rfl)
    (fun j _ => ⟨.linear, Filt.new, by decide, rfl⟩) ?_ ?_ h h' 1 ?_ ?_ (fun _ _ _ _ h => nomatch h) w
  · intro x hx
    simp only [twiceCalls, listRowCalls, List.mem_append, List.mem_cons, List.not_mem_nil, or_false] at hx
    rcases hx with (rfl | rfl | rfl) | rfl
    · exact Or.inr ⟨0, _, by decide, rfl⟩
    · exact Or.inr ⟨1, _, by decide, rfl⟩
    · exact Or.inl (.input _)
    · exact Or.inl (.update _ _)
  · decide
  · decide
  · decide

example : (((Chain.new listRow tetraMesh Mesh.empty).calls (anyRun someLib cos0 shadow taxi 1) AnyFilt.pulls Mesh.empty
      (twiceCalls ++ newLists.map fun x => chainSetCells x.1 x.2)).bind fun d =>
        (gives 1 (d.update (anyRun someLib cos0 shadow taxi 1) AnyFilt.pulls quietly Mesh.empty 1)).bind
          fun r => r.toOption.map fun m => decide (patchMesh.tris.length < m.tris.length)) = some true := by
  decide +kernel

end examples
end Verif
