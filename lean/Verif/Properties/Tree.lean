import Verif.Proofs.Tree
import Verif.Properties.Chain
/-
C91: filters that read the same mesh do not disturb each other.
-/
namespace Verif
set_option linter.unusedSectionVars false
variable {K P D : Type} [Field K] [Zero P] [Add P] [SMul K P] [LinearOrder K]

/-- the settings asked for are those of filters of the theorem -/
theorem askedTree_steady {cs : List ((Nat → Nat) × ChainCall (AnyFilt K) (Mesh P D))}
    (hcs : ∀ b k tells g, (b, ChainCall.set k tells g) ∈ cs → ∀ s, Steady s → Steady (g s)) {s : List Nat → AnyFilt K}
    (m : Mesh P D) (h : ∀ l, Steady (s l)) (l : List Nat) : Steady ((askedTree s m cs).1 l) := by
  induction cs generalizing s m with
  | nil => exact h l
  | cons x cs ih =>
    obtain ⟨b, x⟩ := x
    have ih' := fun {s} m => ih (s := s) (fun b k tells g hg => hcs b k tells g (List.mem_cons_of_mem _ hg)) m
    cases x with
    | set j tells g =>
      refine ih' (s := fun l => if l = addr b j then g (s l) else s l) m fun l => ?_
      split
      · exact hcs b j tells g List.mem_cons_self _ (h l)
      · exact h l
    | input m' => exact ih' m' h
    | update j w => exact ih' m h

/-- the runs of these filters, and the part of the members that they depend on -/
theorem steady_runs (lib : QELib) (cosn : Nat → K) (area : P → P → P → K) (len : P → P → K) (fuel : Nat) :
    ∃ (run' : AnyFilt K → Mesh P D → Option (Except Fail (Mesh P D) × AnyFilt K)) (key : AnyFilt K → AnyFilt K),
      (∀ s m, Steady s → anyRun lib cosn area len fuel s m = run' s m) ∧
      (∀ s m r s', run' s m = some (r, s') → key s' = key s) ∧
      (∀ s a m, key s = key a → (run' s m).map Prod.fst = (run' a m).map Prod.fst) ∧
      ∀ k tells g, IsChainCall (K := K) (P := P) (D := D) (.set k tells g) →
        (∀ s a, key s = key a → key (g s) = key (g a)) ∧ ∀ s, tells s = false → key (g s) = key s := by
  classical
  let run' : AnyFilt K → Mesh P D → Option (Except Fail (Mesh P D) × AnyFilt K) :=
    fun f m => if Steady f then anyRun lib cosn area len fuel f m else none
  let key : AnyFilt K → AnyFilt K := fun f => if Steady f then f.plain else f
  have heq : ∀ s (m : Mesh P D), Steady s → anyRun lib cosn area len fuel s m = run' s m := fun s m h => (if_pos h).symm
  have hkey : ∀ s a, key s = key a → (Steady s ∧ Steady a ∧ s.plain = a.plain) ∨ s = a := by
    intro s a h
    by_cases h1 : Steady s <;> by_cases h2 : Steady a
    · have : s.plain = a.plain := by simpa only [key, if_pos h1, if_pos h2] using h
      exact Or.inl ⟨h1, h2, this⟩
    · have : s.plain = a := by simpa only [key, if_pos h1, if_neg h2] using h
      exact absurd (this ▸ h1.plain) h2
    · have : s = a.plain := by simpa only [key, if_neg h1, if_pos h2] using h
      exact absurd (this ▸ h2.plain) h1
    · have : s = a := by simpa only [key, if_neg h1, if_neg h2] using h
      exact Or.inr this
  have hkey' : ∀ s a, Steady s → Steady a → s.plain = a.plain → key s = key a := by
    intro s a h1 h2 h
    simp only [key, if_pos h1, if_pos h2, h]
  refine ⟨run', key, heq, fun s m r s' hr => ?_, fun s a m h => ?_, fun k tells g h => ⟨fun s a hsa => ?_, fun s ht => ?_⟩⟩
  · have hst : Steady s := by
      by_contra hn
      have : run' s m = none := if_neg hn
      rw [this] at hr
      cases hr
    rw [← heq s m hst] at hr
    exact hkey' _ _ (hst.run hr).1 hst (hst.run hr).2
  · rcases hkey s a h with ⟨a1, a2, a3⟩ | rfl
    · rw [← heq s m a1, ← heq a m a2]
      exact a1.same a2 a3 m
    · rfl
  · rcases hkey s a hsa with ⟨a1, a2, a3⟩ | rfl
    · exact hkey' _ _ (h.steady.1 s a1) (h.steady.1 a a2) (h.steady.2.1 s a a3)
    · rfl
  · by_cases hst : Steady s
    · exact hkey' _ _ (h.steady.1 s hst) hst (h.steady.2.2.1 s ht)
    · rw [h.steady.2.2.2 s hst ht]

/-- C91.  A pipeline that branches in any way: any number of filters read the input mesh, any number of filters read the
output of each filter; cell and edge filters on the whole mesh, iterative filters with and without lists, conditional
filters.  After any calls on any of them, the next `Update()` of any filter gives what the filters on the way to it, with the
settings and the input mesh asked for, give by hand: the same mesh, or the same failure.

What is missing is what is missing in C72: filters that have been given a list of cells (`C91_shared_list_refuted`)
or edges, and `SetMaximumArea` and `SetMaximumLength` on a criterion. -/
theorem C91_branches_partial (lib : QELib) (cosn : Nat → K) (area : P → P → P → K) (len : P → P → K) (fuel : Nat) {s : List Nat → AnyFilt K}
    (hs : ∀ l, Steady (s l)) {cs : List ((Nat → Nat) × ChainCall (AnyFilt K) (Mesh P D))} (hcs : ∀ c ∈ cs, IsChainCall c.2)
    {inp : Mesh P D} {t : Tree (AnyFilt K) (Mesh P D)}
    (hx : (Tree.new s inp Mesh.empty).calls (anyRun lib cosn area len fuel) AnyFilt.pulls Mesh.empty cs = some t) (b : Nat → Nat)
    (k : Nat) (w : Chain.Around) :
    gives k ((t.along b).update (anyRun lib cosn area len fuel) AnyFilt.pulls w Mesh.empty k) =
      byHand (anyRun lib cosn area len fuel) (fun j => (askedTree s inp cs).1 (addr b j)) (askedTree s inp cs).2 k := by
  obtain ⟨run', key, heq, hkeep, hres, hset⟩ := steady_runs (P := P) (D := D) lib cosn area len fuel
  have hdom : ∀ s (m : Mesh P D) r s', Steady s → anyRun lib cosn area len fuel s m = some (r, s') → Steady s' :=
    fun s m r s' h hr => (h.run hr).1
  obtain ⟨h1, h2⟩ := Tree.calls_dom (nothing := Mesh.empty) (pulls := AnyFilt.pulls) (dom := Steady) heq hdom
    (fun b k tells g h => (hcs _ h).steady.1) (t := Tree.new s inp Mesh.empty) (fun b k => hs _)
  have hc := h2 t hx
  have hask : ∀ l, Steady ((askedTree s inp cs).1 l) := askedTree_steady (fun b k tells g h => (hcs _ h).steady.1) inp hs
  rw [h1] at hx
  have e1 : (t.along b).update (anyRun lib cosn area len fuel) AnyFilt.pulls w Mesh.empty k =
      (t.along b).update run' AnyFilt.pulls w Mesh.empty k := by
    refine Chain.updateData_dom (dom := Steady) heq hdom fun j => ?_
    rw [(Chain.updateInformation_same (t.along b) k).1]
    exact hc b j
  have e2 : byHand (anyRun lib cosn area len fuel) (fun j => (askedTree s inp cs).1 (addr b j)) (askedTree s inp cs).2 k =
      byHand run' (fun j => (askedTree s inp cs).1 (addr b j)) (askedTree s inp cs).2 k := by
    clear e1 hx
    induction k with
    | zero => exact congrArg (Option.map Prod.fst) (heq _ _ (hask _))
    | succ k ih =>
      unfold byHand
      rw [← ih]
      split
      · rw [heq _ _ (hask _)]
      · rfl
  rw [e1, e2]
  exact Tree.update_gives hkeep hres (fun b k tells g h => (hset k tells g (hcs _ h)).1)
    (fun b k tells g h => (hset k tells g (hcs _ h)).2) hx b k

/-- C91.  Work is not done twice for two readers: `[0]` is read by `[0, 0]` and `[1, 0]`, say; `Update()` of `[0, 0]` has
returned, and nothing has been changed since.  Then `Update()` of `[1, 0]` does not execute `[0]`, whatever it gives: `[0]` and
its output are what they were, with their times.  The same for all filters that are on the way to both.  The pipeline asks
again for no other reason than the times (`hw`).  (`_partial`: as in `C91_branches_partial`.) -/
theorem C91_shared_work_partial (lib : QELib) (cosn : Nat → K) (area : P → P → P → K) (len : P → P → K) (fuel : Nat) {s : List Nat → AnyFilt K}
    (hs : ∀ l, Steady (s l)) {cs : List ((Nat → Nat) × ChainCall (AnyFilt K) (Mesh P D))} (hcs : ∀ c ∈ cs, IsChainCall c.2)
    {inp : Mesh P D} {t : Tree (AnyFilt K) (Mesh P D)}
    (hx : (Tree.new s inp Mesh.empty).calls (anyRun lib cosn area len fuel) AnyFilt.pulls Mesh.empty cs = some t)
    {b b' : Nat → Nat} {j k k' : Nat} (hj : j ≤ k) (hj' : j ≤ k') (hb : addr b j = addr b' j) {w w' : Chain.Around}
    {d d' : Chain (AnyFilt K) (Mesh P D)} {r : Except Fail Unit}
    (hd : (t.along b).update (anyRun lib cosn area len fuel) AnyFilt.pulls w Mesh.empty k = some (.ok (), d))
    (hw : ∀ k t, w'.again k t = false)
    (hd' : ((t.back b d).along b').update (anyRun lib cosn area len fuel) AnyFilt.pulls w' Mesh.empty k' = some (r, d')) :
    (d'.stage j).members = (d.stage j).members ∧ (d'.stage j).output = (d.stage j).output ∧
    (d'.stage j).mtime = (d.stage j).mtime ∧ (d'.stage j).outMTime = (d.stage j).outMTime ∧
    (d'.stage j).updateMTime = (d.stage j).updateMTime := by
  obtain ⟨run', key, heq, hkeep, hres, hset⟩ := steady_runs (P := P) (D := D) lib cosn area len fuel
  have hdom : ∀ s (m : Mesh P D) r s', Steady s → anyRun lib cosn area len fuel s m = some (r, s') → Steady s' :=
    fun s m r s' h hr => (h.run hr).1
  have hupd : ∀ (c : Chain (AnyFilt K) (Mesh P D)) w k, (∀ j, Steady (c.stage j).members) →
      c.update (anyRun lib cosn area len fuel) AnyFilt.pulls w Mesh.empty k = c.update run' AnyFilt.pulls w Mesh.empty k := by
    intro c w k h
    refine Chain.updateData_dom (dom := Steady) heq hdom fun j => ?_
    rw [(Chain.updateInformation_same c k).1]
    exact h j
  obtain ⟨h1, h2⟩ := Tree.calls_dom (nothing := Mesh.empty) (pulls := AnyFilt.pulls) (dom := Steady) heq hdom
    (fun b k tells g h => (hcs _ h).steady.1) (t := Tree.new s inp Mesh.empty) (fun b k => hs _)
  have hc := h2 t hx
  rw [h1] at hx
  have hdd : ∀ j, Steady (d.stage j).members := by
    refine (Chain.updateData_track (Q := fun _ => Steady) (fun _ => hdom) (c := (t.along b).updateInformation k) (fun j => ?_) hd).1
    rw [(Chain.updateInformation_same (t.along b) k).1]
    exact hc b j
  have hbb : ∀ i, Steady (((t.back b d).along b').stage i).members := by
    intro i
    by_cases ha : addr b' i = addr b i
    · have : ((t.back b d).along b').stage i = d.stage i := Tree.back_same t d ha
      rw [this]; exact hdd i
    · have : ((t.back b d).along b').stage i = t.stage (addr b' i) := Tree.back_other t d ha
      rw [this]; exact hc b' i
  rw [hupd _ _ _ (hc b)] at hd
  rw [hupd _ _ _ hbb] at hd'
  have := Tree.update_shared hkeep hres (fun b k tells g h => (hset k tells g (hcs _ h)).1)
    (fun b k tells g h => (hset k tells g (hcs _ h)).2) hx hj hj' hb hd hw hd'
  exact ⟨this.members, this.output, this.mtime, this.out, this.upd⟩

/-- the settings on the way to a filter, and the input mesh, come from the calls that concern it -/
theorem askedTree_concerns {S M : Type} (b : Nat → Nat) (k : Nat) [DecidablePred (Concerns (S := S) (M := M) b k)]
    (cs : List ((Nat → Nat) × ChainCall S M)) {s s' : List Nat → S} (m : M) (h : ∀ j ≤ k, s (addr b j) = s' (addr b j)) :
    (∀ j ≤ k, (askedTree s m cs).1 (addr b j) = (askedTree s' m (cs.filter (Concerns b k ·))).1 (addr b j)) ∧
    (askedTree s m cs).2 = (askedTree s' m (cs.filter (Concerns b k ·))).2 := by
  induction cs generalizing s s' m with
  | nil => exact ⟨h, rfl⟩
  | cons x cs ih =>
    obtain ⟨b', x⟩ := x
    by_cases hx : Concerns b k (b', x)
    · rw [List.filter_cons_of_pos (by simpa using hx)]
      cases x with
      | set i tells g =>
        refine ih (s := fun l => if l = addr b' i then g (s l) else s l) (s' := fun l => if l = addr b' i then g (s' l) else s' l) m
          fun j hj => ?_
        rw [h j hj]
      | input m' => exact ih m' h
      | update i w => exact absurd hx id
    · rw [List.filter_cons_of_neg (by simpa using hx)]
      cases x with
      | set i tells g =>
        refine ih (s := fun l => if l = addr b' i then g (s l) else s l) m fun j hj => ?_
        rw [if_neg fun e => hx ⟨j, hj, e⟩]
        exact h j hj
      | input m' => exact absurd trivial hx
      | update i w => exact ih m h

theorem byHand_congr {S M : Type} {run : S → M → Option (Except Fail M × S)} {s s' : Nat → S} (m : M) {k : Nat}
    (h : ∀ j ≤ k, s j = s' j) : byHand run s m k = byHand run s' m k := by
  induction k with
  | zero => unfold byHand; rw [h 0 (Nat.le_refl _)]
  | succ k ih =>
    unfold byHand
    rw [ih fun j hj => h j (Nat.le_succ_of_le hj), h (k + 1) (Nat.le_refl _)]

/-- C91.  Filters that read the same mesh do not disturb each other: two programs that make the same settings on the way to a
filter, and the same changes of the input mesh, get the same from its `Update()`, whatever they do with the other filters and
whenever they call `Update()` of any of them.  (`_partial`: as in `C91_branches_partial`.) -/
theorem C91_independent_partial (lib : QELib) (cosn : Nat → K) (area : P → P → P → K) (len : P → P → K) (fuel : Nat)
    {s s' : List Nat → AnyFilt K} (hs : ∀ l, Steady (s l)) (hs' : ∀ l, Steady (s' l))
    {cs cs' : List ((Nat → Nat) × ChainCall (AnyFilt K) (Mesh P D))} (hcs : ∀ c ∈ cs, IsChainCall c.2)
    (hcs' : ∀ c ∈ cs', IsChainCall c.2) {inp : Mesh P D} {t t' : Tree (AnyFilt K) (Mesh P D)}
    (hx : (Tree.new s inp Mesh.empty).calls (anyRun lib cosn area len fuel) AnyFilt.pulls Mesh.empty cs = some t)
    (hx' : (Tree.new s' inp Mesh.empty).calls (anyRun lib cosn area len fuel) AnyFilt.pulls Mesh.empty cs' = some t')
    (b : Nat → Nat) (k : Nat) [DecidablePred (Concerns (S := AnyFilt K) (M := Mesh P D) b k)]
    (hway : ∀ j ≤ k, s (addr b j) = s' (addr b j)) (hsame : cs.filter (Concerns b k ·) = cs'.filter (Concerns b k ·))
    (w w' : Chain.Around) :
    gives k ((t.along b).update (anyRun lib cosn area len fuel) AnyFilt.pulls w Mesh.empty k) =
      gives k ((t'.along b).update (anyRun lib cosn area len fuel) AnyFilt.pulls w' Mesh.empty k) := by
  rw [C91_branches_partial lib cosn area len fuel hs hcs hx, C91_branches_partial lib cosn area len fuel hs' hcs' hx']
  obtain ⟨a1, a2⟩ := askedTree_concerns b k cs inp hway
  obtain ⟨b1, b2⟩ := askedTree_concerns b k cs' (s := s') inp fun _ _ => rfl
  rw [a2, b2, hsame]
  exact byHand_congr _ fun j hj => by rw [a1 j hj, b1 j hj, hsame]

/-- C91, who is who: two ways lead to the same filter if and only if they are equally long and agree in all steps; the filters of
different branches are different objects, and a filter has the same address on all ways to it. -/
theorem C91_ways {b b' : Nat → Nat} {k k' : Nat} : addr b k = addr b' k' ↔ k = k' ∧ ∀ j ≤ k, b j = b' j := by
  constructor
  · intro h
    obtain rfl := addr_inj h
    refine ⟨rfl, ?_⟩
    induction k with
    | zero =>
      intro j hj
      obtain rfl := Nat.le_zero.1 hj
      simpa [addr] using h
    | succ k ih =>
      intro j hj
      simp only [addr, List.cons.injEq] at h
      rcases Nat.le_succ_iff.1 hj with hj | rfl
      · exact ih h.2 j hj
      · exact h.1
  · rintro ⟨rfl, h⟩
    induction k with
    | zero => simp [addr, h 0 (Nat.le_refl _)]
    | succ k ih => simp only [addr, h (k + 1) (Nat.le_refl _), ih fun j hj => h j (Nat.le_succ_of_le hj)]

-- the theorems apply
section examples

/-- `[0]` and `[1]` read the input mesh; all of `0 :: l`, `1 :: l` read the output of `l` -/
def someTree : List Nat → AnyFilt ℚ
  | [0] => .iter .linear Iter.new
  | [1] => .cell .sqrt3 Filt.new
  | 0 :: _ => .cond .linear ⟨⟨Filt.new, []⟩, 16⟩
  | _ => .edge .linear Filt.new

theorem someTree_steady (l : List Nat) : Steady (someTree l) := by
  unfold someTree
  split
  · exact .iter _ _
  · exact .cell _ rfl rfl
  · exact .cond (by decide) _
  · exact .edge _ rfl

/-- the ways that go to the left, to the right, and first to the left and then to the right -/
def left : Nat → Nat := fun _ => 0
def right : Nat → Nat := fun _ => 1
def bent : Nat → Nat := fun k => if k = 0 then 0 else 1

example : addr left 0 = addr bent 0 ∧ addr left 1 ≠ addr bent 1 :=
  ⟨C91_ways.2 ⟨rfl, by decide⟩, fun h => absurd ((C91_ways.1 h).2 1 (by decide)) (by decide)⟩

/-- the filter `[0]` is read by the filters `[0, 0]` and `[1, 0]`; between the updates of the two its list is changed -/
def treeCalls : List ((Nat → Nat) × ChainCall (AnyFilt ℚ) (Mesh Q3 Nat)) :=
  [(left, .update 0 quietly), (left, chainIterSetCells 0 [0]), (left, chainCriterion 1 12), (right, .input tetraMesh),
    (right, .update 0 quietly)]

theorem treeCalls_ok : ∀ c ∈ treeCalls, IsChainCall c.2 := by
  intro c hc
  simp only [treeCalls, List.mem_cons, List.not_mem_nil, or_false] at hc
  rcases hc with rfl | rfl | rfl | rfl | rfl
  · exact .update _ _
  · exact .iterSet _ _
  · exact .criterion _ _
  · exact .input _
  · exact .update _ _

/-- the calls return, and the number of triangles of `[0]` in the end is that of the filter by hand -/
example : ((Tree.new someTree patchMesh Mesh.empty).calls (anyRun someLib cos0 shadow taxi 2) AnyFilt.pulls Mesh.empty
      treeCalls).isSome = true ∧
    (((Tree.new someTree patchMesh Mesh.empty).calls (anyRun someLib cos0 shadow taxi 2) AnyFilt.pulls Mesh.empty
        (treeCalls.take 4)).bind fun t => gives 0 ((t.along bent).update (anyRun someLib cos0 shadow taxi 2) AnyFilt.pulls quietly
          Mesh.empty 0)).bind (fun r => r.toOption.map fun m => m.tris.length) = some 10 ∧
    (byHand (anyRun someLib cos0 shadow taxi 2) (fun j => (askedTree someTree patchMesh treeCalls).1 (addr bent j)) tetraMesh 0).bind
        (fun r => r.toOption.map fun m => m.tris.length) = some 10 := by
  refine ⟨?_, ?_, ?_⟩ <;> decide +kernel

/-- The first filter is read by two others.  Its number is changed after the first of them has been updated: the second gives
what it should, and so does the first when it is updated again. -/
example :
    let run : Nat → Nat → Option (Except Fail Nat × Nat) := fun s m => some (.ok (s * m), s)
    let tree : Tree Nat Nat := Tree.new (fun l => l.length + l.headD 0) 5 0
    let made := tree.calls run (fun _ => true) 0
      [(left, .update 1 always), (left, .set 0 (fun _ => true) (fun s => s + 2)), (bent, .update 1 quietly)]
    (tree.calls run (fun _ => true) 0 [(left, .update 1 always)]).map (fun t => (t.stage [0, 0]).output) = some 10 ∧
    made.map (fun t => ((t.stage [0, 0]).output, (t.stage [1, 0]).output)) = some (10, 45) ∧
    made.bind (fun t => (gives 1 ((t.along left).update run (fun _ => true) quietly 0 1)).bind Except.toOption) = some 30 := by
  decide

example (t : Tree (AnyFilt ℚ) (Mesh Q3 Nat))
    (h : (Tree.new someTree patchMesh Mesh.empty).calls (anyRun someLib cos0 shadow taxi 2) AnyFilt.pulls Mesh.empty treeCalls = some t)
    (b : Nat → Nat) (k : Nat) (w : Chain.Around) :
    gives k ((t.along b).update (anyRun someLib cos0 shadow taxi 2) AnyFilt.pulls w Mesh.empty k) =
      byHand (anyRun someLib cos0 shadow taxi 2) (fun j => (askedTree someTree patchMesh treeCalls).1 (addr b j)) tetraMesh k :=
  C91_branches_partial someLib cos0 shadow taxi 2 someTree_steady treeCalls_ok h b k w

/-- the filter `[0]` has been updated for `[0, 0]` -/
example (t : Tree (AnyFilt ℚ) (Mesh Q3 Nat))
    (h : (Tree.new someTree patchMesh Mesh.empty).calls (anyRun someLib cos0 shadow taxi 2) AnyFilt.pulls Mesh.empty treeCalls = some t)
    (d d' : Chain (AnyFilt ℚ) (Mesh Q3 Nat)) (r : Except Fail Unit)
    (hd : (t.along left).update (anyRun someLib cos0 shadow taxi 2) AnyFilt.pulls always Mesh.empty 1 = some (.ok (), d))
    (hd' : ((t.back left d).along bent).update (anyRun someLib cos0 shadow taxi 2) AnyFilt.pulls quietly Mesh.empty 1 = some (r, d')) :
    (d'.stage 0).updateMTime = (d.stage 0).updateMTime :=
  (C91_shared_work_partial someLib cos0 shadow taxi 2 someTree_steady treeCalls_ok h (b := left) (b' := bent) (j := 0) (k := 1) (k' := 1)
    (Nat.zero_le 1) (Nat.zero_le 1) rfl (w := always) (w' := quietly) hd (fun _ _ => rfl) hd').2.2.2.2

/-- three filters that count their runs: the first, and two that read its output -/
example :
    let run : Unit × Nat → Nat → Option (Except Fail Nat × (Unit × Nat)) := counted fun _ m => some (.ok (4 * m), ())
    let tree : Tree (Unit × Nat) Nat := Tree.new (fun _ => ((), 0)) 5 0
    ((tree.calls run (fun _ => false) 0 [(left, .update 1 quietly), (bent, .update 1 quietly)]).map fun t =>
      ((t.stage [0]).members.2, (t.stage [0, 0]).members.2, (t.stage [1, 0]).members.2)) = some (1, 1, 1) := by
  decide

/-- what a program has to do that uses `[1, 0]` only -/
def bentCalls : List ((Nat → Nat) × ChainCall (AnyFilt ℚ) (Mesh Q3 Nat)) :=
  [(left, chainIterSetCells 0 [0]), (right, .input tetraMesh)]

open Classical in
example (t t' : Tree (AnyFilt ℚ) (Mesh Q3 Nat))
    (h : (Tree.new someTree patchMesh Mesh.empty).calls (anyRun someLib cos0 shadow taxi 2) AnyFilt.pulls Mesh.empty treeCalls = some t)
    (h' : (Tree.new someTree patchMesh Mesh.empty).calls (anyRun someLib cos0 shadow taxi 2) AnyFilt.pulls Mesh.empty bentCalls = some t')
    (w w' : Chain.Around) :
    gives 1 ((t.along bent).update (anyRun someLib cos0 shadow taxi 2) AnyFilt.pulls w Mesh.empty 1) =
      gives 1 ((t'.along bent).update (anyRun someLib cos0 shadow taxi 2) AnyFilt.pulls w' Mesh.empty 1) := by
  have hok : ∀ c ∈ bentCalls, IsChainCall c.2 := by
    intro c hc
    simp only [bentCalls, List.mem_cons, List.not_mem_nil, or_false] at hc
    rcases hc with rfl | rfl
    · exact .iterSet _ _
    · exact .input _
  refine C91_independent_partial someLib cos0 shadow taxi 2 someTree_steady someTree_steady treeCalls_ok hok h h' bent 1 (fun _ _ => rfl) ?_ w w'
  have h1 : ∀ b j w, ¬ Concerns (S := AnyFilt ℚ) (M := Mesh Q3 Nat) bent 1 (b, .update j w) := fun _ _ _ => id
  have h2 : Concerns (S := AnyFilt ℚ) (M := Mesh Q3 Nat) bent 1 (left, chainIterSetCells 0 [0]) := ⟨0, by decide, rfl⟩
  have h3 : ¬ Concerns (S := AnyFilt ℚ) (M := Mesh Q3 Nat) bent 1 (left, chainCriterion 1 12) := by
    rintro ⟨i, -, hi⟩
    obtain rfl := addr_inj hi
    exact absurd hi (by decide)
  have h4 : Concerns (S := AnyFilt ℚ) (M := Mesh Q3 Nat) bent 1 (right, .input tetraMesh) := trivial
  simp only [treeCalls, bentCalls, List.filter_cons, List.filter_nil, decide_eq_true_eq, if_neg (h1 _ _ _), if_pos h2, if_neg h3, if_pos h4]

end examples
end Verif
