import Verif.Proofs.ChainRuns
import Verif.Properties.Pipeline
/-
C72: in a row of filters, `Update()` of any of them gives what the filters give when they are run by hand, one after the
other.
-/
namespace Verif
set_option linter.unusedSectionVars false
variable {K P D : Type} [Field K] [Zero P] [Add P] [SMul K P] [LinearOrder K]

/-- the part of the members that the results depend on -/
def AnyFilt.plain : AnyFilt K → AnyFilt K
  | .cell sch _ => .cell sch Filt.new
  | .edge sch _ => .edge sch Filt.new
  | .iter sch f => .iter sch ⟨f.cells, f.levels, []⟩
  | .cond sch f => .cond sch ⟨⟨Filt.new, []⟩, f.maxArea⟩
  | .condEdge sch f => .condEdge sch ⟨⟨Filt.new, []⟩, f.maxLen⟩

theorem Steady.plain {s : AnyFilt K} (h : Steady s) : Steady s.plain := by
  cases h with
  | cell sch h h' => exact .cell sch rfl rfl
  | edge sch h => exact .edge sch rfl
  | iter sch f => exact .iter sch _
  | cond h f => exact .cond h _
  | condEdge sch f => exact .condEdge sch _

/-- a run keeps these filters what they are -/
theorem Steady.run {lib : QELib} {cosn : Nat → K} {area : P → P → P → K} {len : P → P → K} {fuel : Nat} {s s' : AnyFilt K} (h : Steady s)
    {m : Mesh P D} {r : Except Fail (Mesh P D)} (hr : anyRun lib cosn area len fuel s m = some (r, s')) :
    Steady s' ∧ s'.plain = s.plain := by
  cases h with
  | @cell sch f h h' =>
    have : s' = .cell sch (cellUpdate sch lib cosn f m).2 := by
      have hr := Option.some.inj hr
      exact (congrArg Prod.snd hr).symm
    rw [this]
    have hu := cellUpdate_uni sch lib cosn (f := f) ⟨h, h'⟩ m
    exact ⟨.cell sch hu.1 hu.2, rfl⟩
  | @edge sch f h =>
    have : s' = .edge sch (edgeUpdate sch lib cosn f m).2 := by
      have hr := Option.some.inj hr
      exact (congrArg Prod.snd hr).symm
    rw [this]
    exact ⟨.edge sch ((edgeUpdate_kept sch lib cosn f m).trans h), rfl⟩
  | iter sch f =>
    have : s' = .iter sch (iterUpdate sch lib cosn f m).2 := by
      have hr := Option.some.inj hr
      exact (congrArg Prod.snd hr).symm
    rw [this]
    obtain ⟨h1, h2⟩ := iterUpdate_cells sch lib cosn f m
    refine ⟨.iter sch _, ?_⟩
    unfold AnyFilt.plain
    dsimp only
    rw [h1, h2]
  | @cond sch h f =>
    unfold anyRun condAreaRun at hr
    dsimp only at hr
    cases hg : condGenerate lib (condCellUpd sch lib cosn) (some (areaCompute area f.maxArea)) fuel f.cond m with
    | none => rw [hg] at hr; cases hr
    | some x => rw [hg] at hr; cases hr; exact ⟨.cond h _, rfl⟩
  | condEdge sch f =>
    unfold anyRun condLengthRun at hr
    dsimp only at hr
    cases hg : condGenerate lib (condEdgeUpd sch lib cosn) (some (lengthCompute len f.maxLen)) fuel f.cond m with
    | none => rw [hg] at hr; cases hr
    | some x => rw [hg] at hr; cases hr; exact ⟨.condEdge sch _, rfl⟩

/-- the result depends on `plain` only -/
theorem Steady.same {lib : QELib} {cosn : Nat → K} {area : P → P → P → K} {len : P → P → K} {fuel : Nat} {s a : AnyFilt K} (h : Steady s)
    (h' : Steady a) (he : s.plain = a.plain) (m : Mesh P D) :
    (anyRun lib cosn area len fuel s m).map Prod.fst = (anyRun lib cosn area len fuel a m).map Prod.fst := by
  cases h with
  | @cell sch f h1 h2 =>
    cases h' with
    | @cell sch' g h3 h4 =>
      cases he
      exact congrArg some (cellUpdate_uni_same sch lib cosn (f := g) (g := f) ⟨h3, h4⟩ ⟨h1, h2⟩ m)
    | edge _ _ => cases he
    | iter _ _ => cases he
    | cond _ _ => cases he
    | condEdge _ _ => cases he
  | @edge sch f h1 =>
    cases h' with
    | @edge sch' g h3 =>
      cases he
      refine congrArg some (edgeUpdate_same sch lib cosn m ?_)
      rw [h1, h3]
      exact SameEdges.rfl
    | cell _ _ _ => cases he
    | iter _ _ => cases he
    | cond _ _ => cases he
    | condEdge _ _ => cases he
  | iter sch f =>
    cases h' with
    | iter sch' g =>
      have e : sch = sch' ∧ f.cells = g.cells ∧ f.levels = g.levels := by
        unfold AnyFilt.plain at he
        simp only [AnyFilt.iter.injEq, Iter.mk.injEq, and_true] at he
        exact he
      obtain ⟨rfl, e1, e2⟩ := e
      show some (iterUpdate sch lib cosn f m).1 = some (iterUpdate sch lib cosn g m).1
      rw [iterUpdate_eq, iterUpdate_eq, e1, e2]
    | cell _ _ _ => cases he
    | edge _ _ => cases he
    | cond _ _ => cases he
    | condEdge _ _ => cases he
  | @cond sch h f =>
    cases h' with
    | @cond sch' h3 g =>
      have e : sch = sch' ∧ f.maxArea = g.maxArea := by
        unfold AnyFilt.plain at he
        simp only [AnyFilt.cond.injEq, CondArea.mk.injEq, true_and] at he
        exact he
      obtain ⟨rfl, e1⟩ := e
      have := condGenerate_members (upd := condCellUpd (D := D) sch lib cosn) (crit := areaCompute area g.maxArea)
        (fun s s' sel m => (cellUpdate_history h lib cosn m (f := s'.setCells sel) (g := s.setCells sel) rfl).1)
        (fun m l l' => rfl) lib fuel f.cond g.cond m
      unfold anyRun condAreaRun
      dsimp only
      rw [e1, Option.map_map, Option.map_map, Option.map_map, Option.map_map]
      exact this
    | cell _ _ _ => cases he
    | edge _ _ => cases he
    | iter _ _ => cases he
    | condEdge _ _ => cases he
  | condEdge sch f =>
    cases h' with
    | condEdge sch' g =>
      have e : sch = sch' ∧ f.maxLen = g.maxLen := by
        unfold AnyFilt.plain at he
        simp only [AnyFilt.condEdge.injEq, CondLength.mk.injEq, true_and] at he
        exact he
      obtain ⟨rfl, e1⟩ := e
      have := condGenerate_members (upd := condEdgeUpd (D := D) sch lib cosn) (crit := lengthCompute len g.maxLen)
        (fun s s' sel m => edgeUpdate_same sch lib cosn m SameEdges.rfl) (fun m l l' => rfl) lib fuel f.cond g.cond m
      unfold anyRun condLengthRun
      dsimp only
      rw [e1, Option.map_map, Option.map_map, Option.map_map, Option.map_map]
      exact this
    | cell _ _ _ => cases he
    | edge _ _ => cases he
    | iter _ _ => cases he
    | cond _ _ => cases he

/-- what the settings do to these filters -/
theorem IsChainCall.steady {k : Nat} {tells : AnyFilt K → Bool} {g : AnyFilt K → AnyFilt K}
    (this : IsChainCall (K := K) (P := P) (D := D) (.set k tells g)) : (∀ s, Steady s → Steady (g s)) ∧
    (∀ s a : AnyFilt K, s.plain = a.plain → (g s).plain = (g a).plain) ∧ (∀ s, tells s = false → (g s).plain = s.plain) ∧
    (∀ s, ¬ Steady s → tells s = false → g s = s) := by
  generalize hc : ChainCall.set k tells g = c at this
  cases this with
  | iterSet k l =>
    cases hc
    refine ⟨fun s hs => ?_, fun s a h => ?_, fun s ht => (by cases ht), fun s _ ht => (by cases ht)⟩
    · cases hs with
      | cell sch h h' => exact .cell sch h h'
      | edge sch h => exact .edge sch h
      | iter sch f => exact .iter sch _
      | cond h f => exact .cond h _
      | condEdge sch f => exact .condEdge sch _
    · cases s <;> cases a <;> simp_all [AnyFilt.plain, onIter, Iter.setCells]
  | iterAdd k i =>
    cases hc
    refine ⟨fun s hs => ?_, fun s a h => ?_, fun s ht => (by cases ht), fun s _ ht => (by cases ht)⟩
    · cases hs with
      | cell sch h h' => exact .cell sch h h'
      | edge sch h => exact .edge sch h
      | iter sch f => exact .iter sch _
      | cond h f => exact .cond h _
      | condEdge sch f => exact .condEdge sch _
    · cases s <;> cases a <;> simp_all [AnyFilt.plain, onIter, Iter.addCell]
  | levels k n =>
    cases hc
    refine ⟨fun s hs => ?_, fun s a h => ?_, fun s ht => ?_, fun s hs ht => ?_⟩
    · cases hs with
      | cell sch h h' => exact .cell sch h h'
      | edge sch h => exact .edge sch h
      | iter sch f => exact .iter sch _
      | cond h f => exact .cond h _
      | condEdge sch f => exact .condEdge sch _
    · cases s <;> cases a <;> simp_all [AnyFilt.plain, onIter, Iter.setLevels]
    · cases s <;> simp_all [AnyFilt.plain, onIter, Iter.setLevels]
    · cases s with
      | iter sch f => exact absurd (.iter sch f) hs
      | cell sch f => rfl
      | edge sch f => rfl
      | cond sch f => rfl
      | condEdge sch f => rfl
  | criterion k a =>
    cases hc
    refine ⟨fun s hs => ?_, fun s a h => ?_, fun s ht => (by cases ht), fun s _ ht => (by cases ht)⟩
    · cases hs with
      | cell sch h h' => exact .cell sch h h'
      | edge sch h => exact .edge sch h
      | iter sch f => exact .iter sch _
      | cond h f => exact .cond h _
      | condEdge sch f => exact .condEdge sch _
    · cases s <;> cases a <;> simp_all [AnyFilt.plain, onCond]
  | lengthCriterion k a =>
    cases hc
    refine ⟨fun s hs => ?_, fun s a h => ?_, fun s ht => (by cases ht), fun s _ ht => (by cases ht)⟩
    · cases hs with
      | cell sch h h' => exact .cell sch h h'
      | edge sch h => exact .edge sch h
      | iter sch f => exact .iter sch _
      | cond h f => exact .cond h _
      | condEdge sch f => exact .condEdge sch _
    · cases s <;> cases a <;> simp_all [AnyFilt.plain, onCondEdge]
  | input m => cases hc
  | update k w => cases hc

/-- C72.  A row of filters of any length: cell and edge filters on the whole mesh, iterative filters with and without lists,
conditional filters, in any order.  After any calls on any of them — settings, changes of the input mesh, calls of
`Update()` at any place that returned or threw — the next `Update()`, at any place, gives what the filters with the settings
and the input mesh asked for give by hand: the same mesh, or the same failure.  Which filters the pipeline executes for
this, and how often, is left to it (`Around`).

What is missing: filters that have been given a list of cells, `C72_list_before_iterative_refuted`; lists of edges; and
`SetMaximumArea` and `SetMaximumLength` on a criterion (C48). -/
theorem C72_row_of_filters_partial (lib : QELib) (cosn : Nat → K) (area : P → P → P → K) (len : P → P → K) (fuel : Nat) {s : Nat → AnyFilt K}
    (hs : ∀ k, Steady (s k)) {cs : List (ChainCall (AnyFilt K) (Mesh P D))} (hcs : ∀ c ∈ cs, IsChainCall c) {inp : Mesh P D}
    {c : Chain (AnyFilt K) (Mesh P D)}
    (hx : (Chain.new s inp Mesh.empty).calls (anyRun lib cosn area len fuel) AnyFilt.pulls Mesh.empty cs = some c) (k : Nat)
    (w : Chain.Around) :
    gives k (c.update (anyRun lib cosn area len fuel) AnyFilt.pulls w Mesh.empty k) =
      byHand (anyRun lib cosn area len fuel) (askedChain s inp cs).1 (askedChain s inp cs).2 k := by
  classical
  let run' : AnyFilt K → Mesh P D → Option (Except Fail (Mesh P D) × AnyFilt K) :=
    fun f m => if Steady f then anyRun lib cosn area len fuel f m else none
  let key : AnyFilt K → AnyFilt K := fun f => if Steady f then f.plain else f
  have heq : ∀ s (m : Mesh P D), Steady s → anyRun lib cosn area len fuel s m = run' s m := fun s m h => (if_pos h).symm
  have hdom : ∀ s (m : Mesh P D) r s', Steady s → anyRun lib cosn area len fuel s m = some (r, s') → Steady s' :=
    fun s m r s' h hr => (h.run hr).1
  have hg : ∀ k tells g, ChainCall.set k tells g ∈ cs → (∀ s, Steady s → Steady (g s)) ∧
      (∀ s a : AnyFilt K, s.plain = a.plain → (g s).plain = (g a).plain) ∧ (∀ s, tells s = false → (g s).plain = s.plain) ∧
      (∀ s, ¬ Steady s → tells s = false → g s = s) := fun k tells g hg => (hcs _ hg).steady
  have hkey : ∀ s a, key s = key a → (Steady s ∧ Steady a ∧ s.plain = a.plain) ∨ s = a := by
    intro s a h
    by_cases h1 : Steady s <;> by_cases h2 : Steady a
    · have : s.plain = a.plain := by simpa only [key, if_pos h1, if_pos h2] using h
      exact Or.inl ⟨h1, h2, this⟩
    · have : s.plain = a := by simpa only [key, if_pos h1, if_neg h2] using h
      exact absurd (this ▸ h1.plain) h2
    · have : s = a.plain := by simpa only [key, if_neg h1, if_pos h2] using h
      exact absurd (this ▸ h2.plain) h1
    · have : s = a := by simpa only [key, if_neg h1, if_neg h2] using h
      exact Or.inr this
  have hkey' : ∀ s a, Steady s → Steady a → s.plain = a.plain → key s = key a := by
    intro s a h1 h2 h
    simp only [key, if_pos h1, if_pos h2, h]
  obtain ⟨h1, h2⟩ := Chain.calls_dom (nothing := Mesh.empty) (pulls := AnyFilt.pulls) (dom := Steady) heq hdom
    (fun k tells g h => (hg k tells g h).1) (c := Chain.new s inp Mesh.empty) hs
  have hc := h2 c hx
  have hask : ∀ k, Steady ((askedChain s inp cs).1 k) := by
    have : ∀ (cs : List (ChainCall (AnyFilt K) (Mesh P D))), (∀ k tells g, ChainCall.set k tells g ∈ cs → ∀ s, Steady s → Steady (g s)) →
        ∀ (s : Nat → AnyFilt K) (m : Mesh P D), (∀ k, Steady (s k)) → ∀ k, Steady ((askedChain s m cs).1 k) := by
      intro cs
      induction cs with
      | nil => intro _ s m h k; exact h k
      | cons x cs ih =>
        intro hcs s m h k
        have ih' := ih fun k tells g hg => hcs k tells g (List.mem_cons_of_mem _ hg)
        cases x with
        | set j tells g =>
          refine ih' (fun i => if i = j then g (s i) else s i) m (fun i => ?_) k
          split
          · exact hcs j tells g List.mem_cons_self _ (h i)
          · exact h i
        | input m' => exact ih' s m' h k
        | update j w => exact ih' s m h k
    exact this cs (fun k tells g h => (hg k tells g h).1) s inp hs
  rw [h1] at hx
  have e1 : c.update (anyRun lib cosn area len fuel) AnyFilt.pulls w Mesh.empty k = c.update run' AnyFilt.pulls w Mesh.empty k := by
    refine Chain.updateData_dom (dom := Steady) heq hdom fun j => ?_
    rw [(Chain.updateInformation_same c k).1]
    exact hc j
  have e2 : byHand (anyRun lib cosn area len fuel) (askedChain s inp cs).1 (askedChain s inp cs).2 k =
      byHand run' (askedChain s inp cs).1 (askedChain s inp cs).2 k := by
    clear e1 hx
    induction k with
    | zero => exact congrArg (Option.map Prod.fst) (heq _ _ (hask 0))
    | succ k ih =>
      unfold byHand
      rw [← ih]
      split
      · rw [heq _ _ (hask _)]
      · rfl
  rw [e1, e2]
  refine Chain.update_gives (key := key) (fun s m r s' hr => ?_) (fun s a m h => ?_) (fun k tells g h s a hsa => ?_)
    (fun k tells g h s ht => ?_) hx k
  · have hst : Steady s := by
      by_contra hn
      have : run' s m = none := if_neg hn
      rw [this] at hr
      cases hr
    rw [← heq s m hst] at hr
    exact hkey' _ _ (hst.run hr).1 hst (hst.run hr).2
  · rcases hkey s a h with ⟨a1, a2, a3⟩ | rfl
    · rw [← heq s m a1, ← heq a m a2]
      exact a1.same a2 a3 m
    · rfl
  · rcases hkey s a hsa with ⟨a1, a2, a3⟩ | rfl
    · exact hkey' _ _ ((hg k tells g h).1 s a1) ((hg k tells g h).1 a a2) ((hg k tells g h).2.1 s a a3)
    · rfl
  · by_cases hst : Steady s
    · exact hkey' _ _ ((hg k tells g h).1 s hst) hst ((hg k tells g h).2.2.1 s ht)
    · rw [(hg k tells g h).2.2.2 s hst ht]

section list
variable {K P D : Type} [Field K] [Zero P] [Add P] [SMul K P] [LinearOrder K]

/-- C72 is false for a cell filter with a list in front of an iterative filter.  The iterative filter updates its input a
second time, from within its own run (itkIterative….hxx:61-63), and the cell filter, whose list has been replaced by ids of
cells of its output, is executed again if the pipeline asks (C48): with a list of more than a quarter of the cells already the
first `Update()` has undefined behaviour, although the cell filter by itself gives a mesh. -/
theorem C72_list_before_iterative_refuted {sch : Scheme} (hs : sch ≠ .sqrt3) (sch' : Scheme) (lib : QELib) (cosn : Nat → K)
    (area : P → P → P → K) (len : P → P → K) (fuel : Nat) {inp : Mesh P D} (hn : sch.Needs inp) {l : List CId} (hsel : inp.SelOK l)
    (hd : l.Nodup) (hbig : inp.cells.length < 4 * l.length) (f : Iter) {w : Chain.Around} (hw : ∀ k t, w.again k t = true)
    {s : Nat → AnyFilt K} (h0 : s 0 = .cell sch Filt.new) (h1 : s 1 = .iter sch' f) :
    ∃ c out d, (Chain.new s inp Mesh.empty).calls (anyRun lib cosn area len fuel) AnyFilt.pulls Mesh.empty [chainSetCells 0 l] =
        some c ∧
      byHand (anyRun lib cosn area len fuel) (askedChain s inp [chainSetCells 0 l]).1 inp 0 = some (.ok out) ∧
      c.update (anyRun lib cosn area len fuel) AnyFilt.pulls w Mesh.empty 1 = some (.error (.ub .missingKey), d) := by
  have hne : l ≠ [] := by
    rintro rfl
    exact absurd hbig (Nat.not_lt_zero _)
  obtain ⟨out, f', h, -⟩ := C01_face_split_completes hs lib cosn (f := Filt.new.setCells l) hn hsel
  have hlong := recorded_length hs hn (f := Filt.new.setCells l) hsel hne hd h
  have hnd := ((C16_selection_after_run hs hn (f := Filt.new.setCells l) hsel h).2 hne).2.1
  have hub := C36_absent_id_refuted lib cosn (f := f') hn (not_selOK_of_long hnd (Nat.lt_of_lt_of_le hbig hlong))
  have hrun1 : anyRun lib cosn area len fuel (.cell sch (Filt.new.setCells l)) inp = some (.ok out, .cell sch f') := by
    show some ((cellUpdate sch lib cosn (Filt.new.setCells l) inp).1, AnyFilt.cell sch (cellUpdate sch lib cosn (Filt.new.setCells l) inp).2) = _
    rw [h]
  obtain ⟨f2, hrun2⟩ : ∃ f2, anyRun lib cosn area len fuel (.cell sch f') inp = some (.error (.ub .missingKey), f2) :=
    ⟨.cell sch (cellUpdate sch lib cosn f' inp).2, congrArg some (Prod.ext hub rfl)⟩
  obtain ⟨c, hc⟩ : ∃ c, (Chain.new s inp Mesh.empty).calls (anyRun lib cosn area len fuel) AnyFilt.pulls Mesh.empty
      [chainSetCells 0 l] = some c := ⟨_, rfl⟩
  have hc' : c = { (Chain.new s inp Mesh.empty).put 0 { (Chain.new s inp Mesh.empty).stage 0 with
      members := .cell sch (Filt.new.setCells l), mtime := 3 } with clock := 3 } := by
    have e : onCell (K := K) (·.setCells l) (s 0) = .cell sch (Filt.new.setCells l) := by rw [h0]; rfl
    cases hc
    rw [← e]; rfl
  obtain ⟨i1, i2⟩ := Chain.updateInformation_same c 1
  have m0 : ((c.updateInformation 1).stage 0).members = .cell sch (Filt.new.setCells l) := by
    rw [i1, hc']; rfl
  have m1 : ((c.updateInformation 1).stage 1).members = .iter sch' f := by
    rw [i1, hc']; exact h1
  have msrc : (c.updateInformation 1).source = inp := by rw [i2, hc']; rfl
  generalize hd : c.updateInformation 1 = d at m0 m1 msrc
  -- the first execution of the cell filter
  obtain ⟨d1, hd1, m2, m3, m4⟩ : ∃ d1, d.generate (anyRun lib cosn area len fuel) (w.touch 0 d.clock) Mesh.empty 0 = some (.ok (), d1) ∧
      (d1.stage 0).members = .cell sch f' ∧ (d1.stage 1).members = .iter sch' f ∧ d1.source = inp := by
    unfold Chain.generate
    have : d.input 0 = inp := msrc
    rw [m0, this, hrun1]
    exact ⟨_, rfl, by dsimp only; rw [Chain.put_same], by dsimp only; rw [Chain.put_other _ _ (by decide)]; exact m1, msrc⟩
  have hu0 : ∀ e : Chain (AnyFilt K) (Mesh P D), Chain.updateData (anyRun lib cosn area len fuel) AnyFilt.pulls w Mesh.empty 0 e =
      e.generate (anyRun lib cosn area len fuel) (w.touch 0 e.clock) Mesh.empty 0 := by
    intro e
    unfold Chain.updateData
    exact if_pos (Or.inr (hw 0 _))
  -- the second
  obtain ⟨d2, hd2⟩ : ∃ d2, Chain.updateData (anyRun lib cosn area len fuel) AnyFilt.pulls w Mesh.empty 0 (d1.updateInformation 0) =
      some (.error (.ub .missingKey), d2) := by
    rw [hu0]
    unfold Chain.generate
    obtain ⟨b1, b2⟩ := Chain.updateInformation_same d1 0
    have : (d1.updateInformation 0).input 0 = inp := b2.trans m4
    rw [b1, m2, this, hrun2]
    exact ⟨_, rfl⟩
  have hx : c.update (anyRun lib cosn area len fuel) AnyFilt.pulls w Mesh.empty 1 =
      some (.error (.ub .missingKey), d2.put 1 { d2.stage 1 with output := Mesh.empty }) := by
    unfold Chain.update
    rw [hd]
    unfold Chain.updateData
    rw [if_pos (Or.inr (hw 1 _)), hu0, hd1]
    dsimp only
    rw [show (d1.stage (0 + 1)).members = .iter sch' f from m3, if_pos (show AnyFilt.pulls (.iter sch' f) = true from rfl), hd2]
  refine ⟨c, out, _, hc, ?_, hx⟩
  show (anyRun lib cosn area len fuel (onCell (·.setCells l) (s 0)) inp).map Prod.fst = _
  rw [h0]
  show (anyRun lib cosn area len fuel (.cell sch (Filt.new.setCells l)) inp).map Prod.fst = _
  rw [hrun1]; rfl

end list

section count
variable {S M : Type}

/-- runs that are counted, each filter object by itself -/
def counted (run : S → M → Option (Except Fail M × S)) (s : S × Nat) (m : M) : Option (Except Fail M × (S × Nat)) :=
  (run s.1 m).map fun r => (r.1, (r.2, s.2 + 1))

theorem generate_counted {run : S → M → Option (Except Fail M × S)} {nothing : M} {touch : Bool} {k : Nat}
    {c d : Chain (S × Nat) M} {r : Except Fail Unit} (hx : c.generate (counted run) touch nothing k = some (r, d)) (j : Nat) :
    (d.stage j).members.2 = (c.stage j).members.2 + if j = k then 1 else 0 := by
  unfold Chain.generate counted at hx
  cases hr : run (c.stage k).members.1 (c.input k) with
  | none => rw [hr] at hx; cases hx
  | some x =>
    rw [hr] at hx
    obtain ⟨r', s⟩ := x
    cases r' with
    | error e =>
      simp only [Option.map_some, Option.some.injEq, Prod.mk.injEq] at hx
      obtain ⟨-, rfl⟩ := hx
      by_cases hj : j = k
      · subst hj; dsimp only; rw [Chain.put_same, if_pos rfl]
      · dsimp only; rw [Chain.put_other _ _ hj, if_neg hj]; rfl
    | ok out =>
      simp only [Option.map_some, Option.some.injEq, Prod.mk.injEq] at hx
      obtain ⟨-, rfl⟩ := hx
      by_cases hj : j = k
      · subst hj; dsimp only; rw [Chain.put_same, if_pos rfl]
      · dsimp only; rw [Chain.put_other _ _ hj, if_neg hj]; rfl

/-- How often the filters are executed by one `Update()` that returns, when all of them update their input themselves, as the
iterative filter does, and the pipeline asks again whenever it can: the filter that is `i` places before the one that has
been called, `2 ^ i` times. -/
theorem C72_runs_double {run : S → M → Option (Except Fail M × S)} {pulls : S × Nat → Bool} {w : Chain.Around} {nothing : M}
    (hp : ∀ s, pulls s = true) (hw : ∀ k t, w.again k t = true) {k : Nat} {c d : Chain (S × Nat) M}
    (hx : c.update (counted run) pulls w nothing k = some (.ok (), d)) {j : Nat} (hj : j ≤ k) :
    (d.stage j).members.2 = (c.stage j).members.2 + 2 ^ (k - j) := by
  have key : ∀ (k : Nat) (c d : Chain (S × Nat) M), Chain.updateData (counted run) pulls w nothing k c = some (.ok (), d) →
      (∀ j ≤ k, (d.stage j).members.2 = (c.stage j).members.2 + 2 ^ (k - j)) ∧
      ∀ j, k < j → (d.stage j).members.2 = (c.stage j).members.2 := by
    intro k
    induction k with
    | zero =>
      intro c d hx
      unfold Chain.updateData at hx
      rw [if_pos (Or.inr (hw 0 _))] at hx
      have := generate_counted hx
      refine ⟨fun j hj => ?_, fun j hj => ?_⟩
      · obtain rfl : j = 0 := by omega
        rw [this]; rfl
      · rw [this, if_neg (by omega)]; rfl
    | succ k ih =>
      intro c d hx
      unfold Chain.updateData at hx
      rw [if_pos (Or.inr (hw (k + 1) _))] at hx
      rcases h1 : Chain.updateData (counted run) pulls w nothing k c with _ | ⟨_ | ⟨⟩, c1⟩
      · rw [h1] at hx; cases hx
      · rw [h1] at hx; cases hx
      · rw [h1] at hx
        dsimp only at hx
        rw [if_pos (hp _)] at hx
        rcases h2 : Chain.updateData (counted run) pulls w nothing k (c1.updateInformation k) with _ | ⟨_ | ⟨⟩, c2⟩
        · rw [h2] at hx; cases hx
        · rw [h2] at hx; cases hx
        · rw [h2] at hx
          obtain ⟨a1, a2⟩ := ih _ _ h1
          obtain ⟨b1, b2⟩ := ih _ _ h2
          have hs := (Chain.updateInformation_same c1 k).1
          have hg := generate_counted hx
          refine ⟨fun j hj => ?_, fun j hj => ?_⟩
          · by_cases hjk : j = k + 1
            · subst hjk
              rw [hg, if_pos rfl, b2 _ (by omega), hs, a2 _ (by omega), Nat.sub_self]; rfl
            · rw [hg, if_neg hjk, b1 j (by omega), hs, a1 j (by omega)]
              have : k + 1 - j = (k - j) + 1 := by omega
              rw [this, Nat.pow_succ]; omega
          · rw [hg, if_neg (by omega), b2 _ (by omega), hs, a2 _ (by omega)]; rfl
  rw [(key k _ _ hx).1 j hj, (Chain.updateInformation_same c k).1]

/-- The same when the pipeline asks again for no other reason than the times: each filter is executed at most once, whatever
calls came before, and even if the `Update()` throws. -/
theorem C72_runs_once {run : S → M → Option (Except Fail M × S)} {pulls : S × Nat → Bool} {w : Chain.Around} {nothing : M}
    (hw : ∀ k t, w.again k t = false) {s : Nat → S × Nat} {m : M} {cs : List (ChainCall (S × Nat) M)} {c d : Chain (S × Nat) M}
    (hc : (Chain.new s m nothing).calls (counted run) pulls nothing cs = some c) {k : Nat} {r : Except Fail Unit}
    (hx : c.update (counted run) pulls w nothing k = some (r, d)) (j : Nat) :
    (c.stage j).members.2 ≤ (d.stage j).members.2 ∧ (d.stage j).members.2 ≤ (c.stage j).members.2 + 1 := by
  have key : ∀ (k : Nat) (c d : Chain (S × Nat) M) (r : Except Fail Unit), c.Times →
      (∀ j ≤ k, (c.stage j).pipelineMTime = c.latest j) → Chain.updateData (counted run) pulls w nothing k c = some (r, d) →
      ∀ j, (c.stage j).members.2 ≤ (d.stage j).members.2 ∧ (d.stage j).members.2 ≤ (c.stage j).members.2 + if j ≤ k then 1 else 0 := by
    intro k
    induction k with
    | zero =>
      intro c d r hc hp hx j
      unfold Chain.updateData at hx
      split at hx
      · rw [generate_counted hx]
        by_cases hj : j = 0
        · rw [if_pos hj, if_pos (by omega)]; omega
        · rw [if_neg hj, if_neg (by omega)]; omega
      · cases hx; omega
    | succ k ih =>
      intro c d r hc hp hx j
      unfold Chain.updateData at hx
      split at hx
      · split at hx
        · cases hx
        · rename_i e c1 h1
          cases hx
          rw [Chain.empty_same]
          have := ih _ _ _ hc (fun j hj => hp j (by omega)) h1 j
          split at this <;> split <;> omega
        · rename_i c1 h1
          have a1 := ih _ _ _ hc (fun j hj => hp j (by omega)) h1 j
          have t1 := Chain.updateData_times hc (fun j hj => hp j (by omega)) h1
          have hs := (Chain.updateInformation_same c1 k).1 j
          have hskip : Chain.updateData (counted run) pulls w nothing k (c1.updateInformation k) =
              some (.ok (), c1.updateInformation k) := by
            obtain ⟨i1, i2, i3, -⟩ := Chain.updateInformation_times t1.1 k
            have hn : ¬ ((((c1.updateInformation k).stage k).updateMTime < ((c1.updateInformation k).stage k).pipelineMTime) ∨
                w.again k (c1.updateInformation k).clock = true) := by
              rw [hw, i3 k (Nat.le_refl _)]
              rintro (h | h)
              · exact t1.2 rfl ((i1.old k).2 h)
              · cases h
            cases k with
            | zero => unfold Chain.updateData; exact if_neg hn
            | succ k => unfold Chain.updateData; exact if_neg hn
          rw [hskip] at hx
          dsimp only at hx
          have hfin : ∀ e touch, Chain.generate (counted run) touch nothing (k + 1) e = some (r, d) →
              (e.stage j).members.2 = (c1.stage j).members.2 →
              (c.stage j).members.2 ≤ (d.stage j).members.2 ∧
              (d.stage j).members.2 ≤ (c.stage j).members.2 + if j ≤ k + 1 then 1 else 0 := by
            intro e touch he hm
            rw [generate_counted he, hm]
            by_cases hj : j = k + 1
            · rw [if_pos hj, if_pos (by omega)]
              rw [if_neg (by omega)] at a1
              omega
            · rw [if_neg hj]
              split at a1 <;> split <;> omega
          split at hx
          · exact hfin _ _ hx (by rw [hs])
          · exact hfin _ _ hx rfl
      · cases hx; omega
  have ht := Chain.calls_times (Chain.new_times s m nothing) hc
  obtain ⟨-, i2, i3, -⟩ := Chain.updateInformation_times ht k
  have := key k _ _ _ i2 i3 hx j
  rw [(Chain.updateInformation_same c k).1] at this
  split at this <;> omega

end count

-- the theorems apply
section examples

/-- an iterative filter, a cell filter, two conditional filters, and edge filters behind them -/
def someRow : Nat → AnyFilt ℚ
  | 0 => .iter .linear Iter.new
  | 1 => .cell .sqrt3 Filt.new
  | 2 => .cond .linear ⟨⟨Filt.new, []⟩, 16⟩
  | 3 => .condEdge .loop ⟨⟨Filt.new, []⟩, 5⟩
  | _ => .edge .linear Filt.new

theorem someRow_steady (k : Nat) : Steady (someRow k) :=
  match k with
  | 0 => .iter _ _
  | 1 => .cell _ rfl rfl
  | 2 => .cond (by decide) _
  | 3 => .condEdge _ _
  | _ + 4 => .edge _ rfl

/-- the pipeline asks again only for old data / always -/
def quietly : Chain.Around := ⟨fun _ _ => false, fun _ _ => true⟩
def always : Chain.Around := ⟨fun _ _ => true, fun _ _ => false⟩

def someCalls : List (ChainCall (AnyFilt ℚ) (Mesh Q3 Nat)) :=
  [.update 0 always, chainIterSetCells 0 [0], .update 1 quietly, chainCriterion 2 12, chainLengthCriterion 3 4, .input tetraMesh, chainLevels 0 1]

theorem someCalls_ok : ∀ c ∈ someCalls, IsChainCall c := by
  intro c hc
  simp only [someCalls, List.mem_cons, List.not_mem_nil, or_false] at hc
  rcases hc with rfl | rfl | rfl | rfl | rfl | rfl | rfl
  · exact .update _ _
  · exact .iterSet _ _
  · exact .update _ _
  · exact .criterion _ _
  · exact .lengthCriterion _ _
  · exact .input _
  · exact .levels _ _

/-- the calls return, and the number of triangles in the end is that of the filters by hand -/
example : (((Chain.new someRow patchMesh Mesh.empty).calls (anyRun someLib cos0 shadow taxi 2) AnyFilt.pulls Mesh.empty someCalls).bind
      fun c => gives 1 (c.update (anyRun someLib cos0 shadow taxi 2) AnyFilt.pulls quietly Mesh.empty 1)).bind
        (fun r => r.toOption.map fun m => m.tris.length) =
    (byHand (anyRun someLib cos0 shadow taxi 2) (askedChain someRow patchMesh someCalls).1 tetraMesh 1).bind
        (fun r => r.toOption.map fun m => m.tris.length) ∧
    (byHand (anyRun someLib cos0 shadow taxi 2) (askedChain someRow patchMesh someCalls).1 tetraMesh 1).isSome = true := by
  constructor <;> decide +kernel

example (c : Chain (AnyFilt ℚ) (Mesh Q3 Nat))
    (h : (Chain.new someRow patchMesh Mesh.empty).calls (anyRun someLib cos0 shadow taxi 2) AnyFilt.pulls Mesh.empty someCalls = some c)
    (w : Chain.Around) (k : Nat) :
    gives k (c.update (anyRun someLib cos0 shadow taxi 2) AnyFilt.pulls w Mesh.empty k) =
      byHand (anyRun someLib cos0 shadow taxi 2) (askedChain someRow patchMesh someCalls).1 tetraMesh k :=
  C72_row_of_filters_partial someLib cos0 shadow taxi 2 someRow_steady someCalls_ok h k w

/-- two of the four triangles of `patchMesh` are selected in front of an iterative filter -/
example (sch : Scheme) (hs : sch ≠ .sqrt3) : ∃ c out d,
    (Chain.new (fun k => if k = 0 then AnyFilt.cell sch Filt.new else .iter .linear Iter.new) patchMesh Mesh.empty).calls
      (anyRun someLib cos0 shadow taxi 1) AnyFilt.pulls Mesh.empty [chainSetCells 0 [1, 3]] = some c ∧
    byHand (anyRun someLib cos0 shadow taxi 1) (askedChain (M := Mesh Q3 Nat)
      (fun k => if k = 0 then AnyFilt.cell sch Filt.new else .iter .linear Iter.new) patchMesh [chainSetCells 0 [1, 3]]).1
        patchMesh 0 = some (.ok out) ∧
    c.update (anyRun someLib cos0 shadow taxi 1) AnyFilt.pulls always Mesh.empty 1 = some (.error (.ub .missingKey), d) :=
  C72_list_before_iterative_refuted hs .linear someLib cos0 shadow taxi 1 (patchMesh_needs _) patchMesh_sel (by decide) (by decide)
    Iter.new (w := always) (fun _ _ => rfl) rfl rfl

/-- four filters in a row that count themselves what they do: the first is executed eight times, or once -/
example :
    let row : Chain (Unit × Nat) Nat := Chain.new (fun _ => ((), 0)) 5 0
    let run : Unit → Nat → Option (Except Fail Nat × Unit) := fun _ m => some (.ok (4 * m), ())
    ((row.update (counted run) (fun _ => true) always 0 3).map fun x =>
      (x.1.toOption.isSome, (List.range 5).map fun k => (x.2.stage k).members.2)) = some (true, [8, 4, 2, 1, 0]) ∧
    ((row.update (counted run) (fun _ => true) quietly 0 3).map fun x =>
      (x.1.toOption.isSome, (List.range 5).map fun k => (x.2.stage k).members.2)) = some (true, [1, 1, 1, 1, 0]) := by
  constructor <;> decide +kernel

end examples

end Verif
