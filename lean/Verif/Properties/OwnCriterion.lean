import Verif.Proofs.OwnCriterion
import Verif.Properties.CondKeeps
import Verif.Properties.Whole
/-
C84: the conditional filter with a criterion of the user's own.
-/
namespace Verif
set_option linter.unusedSectionVars false

section any
variable {K P D T : Type} [Field K] [Zero P] [Add P] [SMul K P] {lib : QELib} {cosn : Nat → K} {inp : Mesh P D}

/-- C84 for cells. Whatever a criterion does with its own members, as long as on valid meshes it lists existing cells (with
SquareThree none of them twice) or throws: the run never has undefined behaviour, the only exceptions are those that the
criterion throws, and what is returned is a valid mesh in which the criterion has just found nothing, with the Euler
characteristic of the input, closed iff the input is, with the points of the input at their places unless the scheme is Loop,
and with no fewer cells. -/
theorem C84_cell_criterion {sch : Scheme} (cosn : Nat → K) (hv : inp.Valid) (hl : sch = .loop ∨ sch = .butterfly → lib.Lawful)
    (hi : sch = .loop → inp.NoIsolated) (n : Nat)
    (hmax : sch = .sqrt3 → inp.points.length + 4 ^ n * inp.cells.length ≤ idMax)
    {crit : CritObj T P D CId} (hc : CellCrit (sch = .sqrt3) crit) (c : Cond Filt CId) (t : T) :
    OwnOutcome crit (fun out => out.Valid ∧ out.euler = inp.euler ∧ (inp.Closed ↔ out.Closed) ∧
      (sch ≠ .loop → ∀ v p, inp.pos v = some p → out.pos v = some p) ∧ inp.cells.length ≤ out.cells.length)
      (condGenerateC lib (condCellUpd sch lib cosn) crit n c t inp) := by
  refine OwnOutcome.mono ?_ (ownCell_induct (cosn := cosn) hv hl hi hmax hc c t (Descendant (sch ≠ .loop) inp)
    (descendant_copy lib hv _) ?_)
  · rintro m ⟨-, d⟩
    exact ⟨d.valid, d.euler, d.closed, d.kept, d.cells⟩
  · intro cur m sel s f' hn hn' hsel hnd hne hmx hlen h d
    by_cases hs : sch = .sqrt3
    · subst hs
      exact ⟨hn'.valid, (C17_euler_preserved_sqrt3 d.valid (f := s.setCells sel) hsel (hmx rfl) (hnd rfl) h).trans d.euler,
        d.closed.trans (C18_boundary_preserved_sqrt3 d.valid (f := s.setCells sel) hsel (hmx rfl) h).2,
        fun hk v p hp => C06_original_points_kept hk d.valid.points_dense h v p (d.kept hk v p hp), d.cells.trans hlen⟩
    · exact ⟨hn'.valid, (C17_euler_preserved hs hn (f := s.setCells sel) hsel h).trans d.euler,
        d.closed.trans (C18_boundary_preserved hs hn (f := s.setCells sel) hsel h).2,
        fun hk v p hp => C06_original_points_kept hk d.valid.points_dense h v p (d.kept hk v p hp), d.cells.trans hlen⟩

/-- C84 for edges. -/
theorem C84_edge_criterion {sch : EdgeScheme} (cosn : Nat → K) (hv : inp.Valid)
    (hl : sch = .loop ∨ sch = .butterfly → lib.Lawful) (hi : sch = .loop → inp.NoIsolated) (n : Nat)
    {crit : CritObj T P D (Option Edge)} (hc : EdgeCrit crit) (c : Cond Filt (Option Edge)) (t : T) :
    OwnOutcome crit (fun out => out.Valid ∧ out.euler = inp.euler ∧ (inp.Closed ↔ out.Closed) ∧
      (∀ v p, inp.pos v = some p → out.pos v = some p) ∧ inp.cells.length ≤ out.cells.length)
      (condGenerateC lib (condEdgeUpd sch lib cosn) crit n c t inp) := by
  refine OwnOutcome.mono ?_ (ownEdge_induct (cosn := cosn) hv hl hi hc c t (Descendant True inp) (descendant_copy lib hv _) ?_)
  · rintro m ⟨-, d⟩
    exact ⟨d.valid, d.euler, d.closed, d.kept trivial, d.cells⟩
  · intro cur m l s f' hn hn' hne hsel hD hlen h d
    have hd : DistinctEdges (cur.selectedEdges (s.setEdges (l.map some)).edgeSel) := by
      have : (s.setEdges (l.map some)).edgeSel = l.map some := rfl
      rw [this, selectedEdges_some _ hne]; exact hD
    exact ⟨hn'.valid, (C17_euler_preserved_edge hn (f := s.setEdges (l.map some)) hsel hd h).trans d.euler,
      d.closed.trans (C18_boundary_preserved_edge hn (f := s.setEdges (l.map some)) hsel h).2,
      fun hk v p hp => C06_original_points_kept_edge d.valid.points_dense h v p (d.kept hk v p hp), d.cells.trans hlen⟩

/-- C84: choosing cells by any test, and keeping any notes, is allowed. -/
theorem C84_any_test (test : T → Mesh P D → CId → Bool) (next : T → Mesh P D → T) (once : Prop) :
    CellCrit once (pickCrit test next) := by
  intro t m old hm
  exact ⟨fun k hk => (List.mem_filter.1 hk).1, fun _ => ((hm.cells_sorted.imp fun h => Nat.ne_of_lt h).filter _)⟩

/-- C84: so is choosing edges by any test. -/
theorem C84_any_edge_test (test : T → Mesh P D → Edge → Bool) (next : T → Mesh P D → T) : EdgeCrit (pickEdges test next) := by
  intro t m old hm
  exact ⟨_, rfl, fun e he => Or.inl (List.mem_filter.1 he).1, hm.edges_once.filter _⟩

/-- C84: with a criterion without members of its own this is the filter of the other properties. -/
theorem C84_plain {S ι : Type} (lib : QELib) (upd : S → List ι → Mesh P D → Except Fail (Mesh P D) × S)
    (crit : Mesh P D → Prog (List ι) Unit) (n : Nat) (c : Cond S ι) (inp : Mesh P D) :
    condGenerateC lib upd (plainCrit crit) n c () inp =
      (condGenerate lib upd (some crit) n c inp).map fun r => (r.1, r.2, ()) := by
  unfold condGenerateC condGenerate
  simp only [plainCrit]
  rcases crit (copyGeometry lib inp) c.sel with ⟨e | u, l⟩
  · rfl
  · exact condLoopC_plain upd crit n _ _

/-- C84: a criterion that gives up - some number goes down with each call that lists anything - makes the filter return,
with every inner filter and all meshes, after at most that number of iterations. -/
theorem C84_giving_up {S ι : Type} (upd : S → List ι → Mesh P D → Except Fail (Mesh P D) × S) {crit : CritObj T P D ι}
    (μ : T → Nat) (hμ : ∀ t m old l t', crit t m old = ((.ok (), l), t') → l ≠ [] → μ t' < μ t) {n : Nat} (c : Cond S ι) {t : T}
    (hn : μ t ≤ n) : condGenerateC lib upd crit n c t inp ≠ none := by
  have key : ∀ (n : Nat) (c : Cond S ι) (t : T) (cur : Mesh P D), (c.sel ≠ [] → μ t < n) → condLoopC upd crit n c t cur ≠ none := by
    intro n
    induction n with
    | zero =>
      intro c t cur h
      rw [condLoopC_done (not_not.1 fun hs => absurd (h hs) (Nat.not_lt_zero _))]
      exact Option.some_ne_none _
    | succ n ih =>
      intro c t cur h
      by_cases hs : c.sel = []
      · rw [condLoopC_done hs]; exact Option.some_ne_none _
      · unfold condLoopC
        rw [if_neg (by simpa using hs)]
        rcases hu : upd c.inner c.sel cur with ⟨e | m, s'⟩
        · exact Option.some_ne_none _
        · simp only
          rcases hk : crit t m c.sel with ⟨⟨e | u, l⟩, t'⟩
          · exact Option.some_ne_none _
          · exact ih _ _ _ fun hl => Nat.lt_of_lt_of_le (hμ _ _ _ _ _ hk hl) (Nat.lt_succ_iff.1 (h hs))
  unfold condGenerateC
  rcases hk : crit t (copyGeometry lib inp) c.sel with ⟨⟨e | u, l⟩, t'⟩
  · exact Option.some_ne_none _
  · exact key _ _ _ _ fun hl => Nat.lt_of_lt_of_le (hμ _ _ _ _ _ hk hl) hn

/-- C84: a criterion has to clear the list that it is given.  One that only adds to it ends the run normally only if the list
was empty (it may hold what an earlier run that ended by an exception has left) and its first call finds nothing; otherwise
the run does not end normally with any inner filter. -/
theorem C84_must_clear {S ι : Type} {upd : S → List ι → Mesh P D → Except Fail (Mesh P D) × S}
    {find : T → Mesh P D → List ι × T} {n : Nat} {c c' : Cond S ι} {t t' : T} {out : Mesh P D}
    (h : condGenerateC lib upd (appendCrit find) n c t inp = some (.ok out, c', t')) :
    c.sel = [] ∧ (find t (copyGeometry lib inp)).1 = [] ∧ out = copyGeometry lib inp := by
  have key : ∀ (n : Nat) (c : Cond S ι) (t : T) (cur : Mesh P D), c.sel ≠ [] →
      condLoopC upd (appendCrit find) n c t cur ≠ some (.ok out, c', t') := by
    intro n
    induction n with
    | zero => intro c t cur hs; rw [condLoopC_zero hs]; exact fun h => nomatch h
    | succ n ih =>
      intro c t cur hs
      unfold condLoopC
      rw [if_neg (by simpa using hs)]
      rcases hu : upd c.inner c.sel cur with ⟨e | m, s'⟩
      · exact fun h => nomatch h
      · exact ih _ _ _ (by simpa using fun h => absurd h hs)
  unfold condGenerateC at h
  simp only [appendCrit] at h
  by_cases hs : c.sel ++ (find t (copyGeometry lib inp)).1 = []
  · rw [condLoopC_done hs] at h
    cases h
    exact ⟨(List.append_eq_nil_iff.1 hs).1, (List.append_eq_nil_iff.1 hs).2, rfl⟩
  · exact absurd h (key _ _ _ _ hs)

/-- C84: with the criterion "all cells, `n` times" the conditional filter is the iterative filter with `n` levels, applied to
the copy of the input that it starts with (schemes other than Loop, whose object keeps a flag from run to run, see C54). -/
theorem C84_times_is_levels {sch : Scheme} (hs : sch ≠ .loop) (cosn : Nat → K)
    (hv : inp.Valid) (hl : sch = .butterfly → lib.Lawful) (hne : inp.cells ≠ []) {n : Nat}
    (hid : sch.IdsLeft (n + 1) (copyGeometry lib inp) []) (c : Cond Filt CId) (f : Iter) :
    ∃ out c', condGenerateC lib (condCellUpd sch lib cosn) timesCrit (n + 1) c (n + 1) inp = some (.ok out, c', 0) ∧
      (iterUpdate sch lib cosn ((f.setLevels (n + 1)).setCells []) (copyGeometry lib inp)).1 = .ok out := by
  have hlaw : sch = .loop ∨ sch = .butterfly → lib.Lawful := fun h => h.elim (fun h => absurd h hs) hl
  have key : ∀ (k : Nat) (m : Mesh P D) (s : Filt), sch.Needs m → m.cells ≠ [] → sch.IdsLeft (k + 1) m [] →
      ∃ out c', condLoopC (condCellUpd sch lib cosn) timesCrit (k + 1) ⟨s, m.cells.map Prod.fst⟩ k m = some (.ok out, c', 0) ∧
        manyLevels sch lib cosn (k + 1) (m, []) = .ok (out, []) := by
    intro k
    induction k with
    | zero =>
      intro m s hm hne hid
      obtain ⟨m1, f₁, f₂, h1, h2, h3, h4⟩ := whole_run (lib := lib) (cosn := cosn) (f := s) (g := Filt.new) hm
        (fun hs => by have := IdsLeft.now hid hs; simpa [Mesh.selected] using this) (fun h => absurd h hs)
      have g2 : oneLevel sch lib cosn (m, []) = .ok (m1, []) := by
        unfold oneLevel; simp only [h2, h3]
      refine ⟨m1, ⟨f₁, []⟩, ?_, ?_⟩
      · rw [condLoopC_step (m := m1) (s' := f₁) (sel' := []) (t' := 0) (by simpa using hne) h1 rfl]
        exact condLoopC_done rfl
      · unfold manyLevels; rw [g2]; rfl
    | succ k ih =>
      intro m s hm hne hid
      obtain ⟨m1, f₁, f₂, h1, h2, h3, h4⟩ := whole_run (lib := lib) (cosn := cosn) (f := s) (g := Filt.new) hm
        (fun hs => by have := IdsLeft.now hid hs; simpa [Mesh.selected] using this) (fun h => absurd h hs)
      obtain ⟨m1', s1, g1, hn1, -, hid1, hu1, -⟩ := oneLevel_ok cosn hlaw hm (sel := []) (fun k hk => by cases hk) hid
      have g2 : oneLevel sch lib cosn (m, []) = .ok (m1, []) := by
        unfold oneLevel; simp only [h2, h3]
      rw [g2] at g1
      cases g1
      have hne1 : m1.cells ≠ [] := by
        have h5 := (hu1 rfl).2
        have h6 := List.length_pos_of_ne_nil hne
        have h7 : 0 < sch.factor := by cases sch <;> decide
        exact List.ne_nil_of_length_pos (by rw [h5]; exact Nat.mul_pos h7 h6)
      obtain ⟨out, c', k1, k2⟩ := ih m1 f₁ hn1 hne1 hid1
      refine ⟨out, c', ?_, ?_⟩
      · rw [condLoopC_step (m := m1) (s' := f₁) (sel' := m1.cells.map Prod.fst) (t' := k) (by simpa using hne) h1 rfl]
        exact k1
      · unfold manyLevels; rw [g2]; exact k2
  have hne' : (copyGeometry lib inp).cells ≠ [] :=
    List.ne_nil_of_length_pos (by rw [cells_length_copyGeometry lib hv]; exact List.length_pos_of_ne_nil hne)
  obtain ⟨out, c', h1, h2⟩ := key n _ c.inner (copyGeometry_needs hv hlaw fun h => absurd h hs) hne' hid
  refine ⟨out, c', h1, ?_⟩
  rw [iterUpdate_eq, ← levelsOf_eq]
  show (manyLevels sch lib cosn (max 1 (n + 1)) (copyGeometry lib inp, [])).map Prod.fst = _
  rw [Nat.max_eq_right (by omega), h2]
  rfl

attribute [local irreducible] OwnOutcome condGenerateC

/-- a criterion that counts its calls: every other cell, beginning with cell 0 or 1, until the count reaches 2 -/
def everyOther : CritObj Nat Q3 Nat CId := pickCrit (fun t _ k => decide (t < 2) && decide ((k + t) % 2 = 0)) fun t _ => t + 1

theorem everyOther_ok (once : Prop) : CellCrit once everyOther := C84_any_test _ _ once

example : OwnOutcome everyOther (fun out => out.Valid ∧ out.euler = patchMesh.euler ∧ (patchMesh.Closed ↔ out.Closed) ∧
      (Scheme.loop ≠ .loop → ∀ v p, patchMesh.pos v = some p → out.pos v = some p) ∧ patchMesh.cells.length ≤ out.cells.length)
    (condGenerateC someLib (condCellUpd .loop someLib cos0) everyOther 9 ⟨usedFilt [1], [7]⟩ 0 patchMesh) :=
  C84_cell_criterion (sch := .loop) cos0 patchMesh_ok.1 (fun _ => someLib_lawful) (fun _ => patchMesh_ok.2.2.1) 9 (fun h => nomatch h)
    (everyOther_ok _) _ _

example : OwnOutcome (pickEdges (fun t _ e => decide (e.1 = t)) fun t _ => t + 1) (fun out => out.Valid ∧
      out.euler = patchMesh.euler ∧ (patchMesh.Closed ↔ out.Closed) ∧
      (∀ v p, patchMesh.pos v = some p → out.pos v = some p) ∧ patchMesh.cells.length ≤ out.cells.length)
    (condGenerateC someLib (condEdgeUpd .butterfly someLib cos0) (pickEdges (fun t _ e => decide (e.1 = t)) fun t _ => t + 1) 5
      ⟨Filt.new, []⟩ 0 patchMesh) :=
  C84_edge_criterion (sch := .butterfly) cos0 patchMesh_ok.1 (fun _ => someLib_lawful) (fun h => nomatch h) 5 (C84_any_edge_test _ _) _ _

/-- `timesCrit` gives up; the inner filter may be any, here Linear -/
example (inp : Mesh Q3 Nat) (c : Cond Filt CId) :
    condGenerateC someLib (condCellUpd .linear someLib cos0) timesCrit 4 c 4 inp ≠ none :=
  C84_giving_up _ id (by
    rintro (_ | t) m old l t' h hl <;> cases h
    · exact absurd rfl hl
    · exact Nat.lt_succ_self _) _ (Nat.le_refl _)

/-- cell 0 is added to the list in each call: the run does not return -/
example (n : Nat) (c : Cond Filt CId) (out : Mesh Q3 Nat) (c' : Cond Filt CId) :
    condGenerateC someLib (condCellUpd .linear someLib cos0) (appendCrit fun (t : Unit) _ => ([0], t)) n c () patchMesh ≠
      some (.ok out, c', ()) :=
  fun h => List.cons_ne_nil (0 : CId) [] (C84_must_clear h).2.1

example : ∃ out c', condGenerateC someLib (condCellUpd .butterfly someLib cos0) timesCrit 3 ⟨usedFilt [2], [7]⟩ 3 patchMesh =
      some (.ok out, c', 0) ∧
    (iterUpdate .butterfly someLib cos0 ((Iter.new.setLevels 3).setCells []) (copyGeometry someLib patchMesh)).1 = .ok out :=
  C84_times_is_levels (sch := .butterfly) (n := 2) (by decide) cos0 patchMesh_ok.1 (fun _ => someLib_lawful) (by decide) (fun h => nomatch h) _ _

end any

section geometry
variable {K P D T : Type} [Field K] [LinearOrder K] [IsStrictOrderedRing K] [AddCommGroup P] [Module K P]
  {inp : Mesh P D} {lib : QELib} {cosn : Nat → K}

/-- C84: schemes other than ModifiedButterfly keep the points in the convex hull of the input, whatever the criterion (Loop:
meshes with a simple boundary, see C20). -/
theorem C84_hull {sch : Scheme} (hs : sch ≠ .butterfly) (hcos : sch = .loop → ∀ n, -1 ≤ cosn n ∧ cosn n ≤ 1)
    (hl : sch = .loop → lib.Lawful) (hv : inp.Valid) (hi : sch = .loop → inp.NoIsolated)
    (hsb : sch = .loop → inp.SimpleBoundary) (n : Nat)
    (hmax : sch = .sqrt3 → inp.points.length + 4 ^ n * inp.cells.length ≤ idMax)
    {crit : CritObj T P D CId} (hc : CellCrit (sch = .sqrt3) crit) (c : Cond Filt CId) (t : T) :
    OwnOutcome crit (fun out => ∀ v p, out.pos v = some p → p ∈ inp.hull K)
      (condGenerateC lib (condCellUpd sch lib cosn) crit n c t inp) := by
  refine OwnOutcome.mono ?_ (ownCell_induct (cosn := cosn) hv (fun h => h.elim hl fun h => absurd h hs) hi hmax hc c t
    (fun m => m.hull K ⊆ inp.hull K ∧ (sch = .loop → m.SimpleBoundary))
    ⟨(hull_copy lib hv).subset, fun hb => simple_copy lib hv (hsb hb)⟩ ?_)
  · rintro m ⟨-, d, -⟩ v p hp
    exact d (subset_convexHull K _ ⟨v, hp⟩)
  · rintro cur m sel s f' hn hn' hsel hnd hne hmx hlen h ⟨h1, h2⟩
    exact ⟨(hull_mono (cellUpdate_hull hs hcos hn h2 (f := s.setCells sel) hsel hmx h)).trans h1, fun hb => by
      subst hb; exact simple_split (by decide) hn (f := s.setCells sel) hsel h (h2 rfl)⟩

attribute [local irreducible] OwnOutcome condGenerateC in
example : OwnOutcome everyOther (fun out => ∀ v p, out.pos v = some p → p ∈ patchMesh.hull ℚ)
    (condGenerateC someLib (condCellUpd .sqrt3 someLib cos0) everyOther 3 ⟨usedFilt [1], [7]⟩ 0 patchMesh) :=
  C84_hull (sch := .sqrt3) (by decide) (fun h => nomatch h) (fun h => nomatch h) patchMesh_ok.1 (fun h => nomatch h) (fun h => nomatch h) 3
    (fun _ => by decide) (everyOther_ok _) _ _

end geometry

section surface
variable {E D T : Type} [NormedAddCommGroup E] [InnerProductSpace ℝ E] {inp : Mesh E D} {lib : QELib} {cosn : Nat → ℝ}

/-- C84: with the Linear filters every criterion leaves the surface and its area as they are. -/
theorem C84_surface (hv : inp.Valid) (n : Nat) :
    (∀ {crit : CritObj T E D CId}, CellCrit False crit → ∀ (c : Cond Filt CId) (t : T),
      OwnOutcome crit (fun out => out.surface = inp.surface ∧ out.totalArea = inp.totalArea)
        (condGenerateC lib (condCellUpd .linear lib cosn) crit n c t inp)) ∧
    ∀ {crit : CritObj T E D (Option Edge)}, EdgeCrit crit → ∀ (c : Cond Filt (Option Edge)) (t : T),
      OwnOutcome crit (fun out => out.surface = inp.surface ∧ out.totalArea = inp.totalArea)
        (condGenerateC lib (condEdgeUpd .linear lib cosn) crit n c t inp) := by
  constructor
  · intro crit hc c t
    have hc' : CellCrit (Scheme.linear = .sqrt3) crit := by
      have : (Scheme.linear = .sqrt3) = False := by simp
      rw [this]; exact hc
    refine OwnOutcome.mono ?_ (ownCell_induct (cosn := cosn) hv (by simp) (by simp) (by simp) hc' c t
      (fun m => m.surface = inp.surface ∧ m.totalArea = inp.totalArea) (surface_copy lib hv) ?_)
    · exact fun m h => h.2
    · rintro cur m sel s f' hn hn' hsel hnd hne hmx hlen h ⟨h1, h2⟩
      obtain ⟨a, b, -⟩ := C21_linear_same_surface hn.valid (f := s.setCells sel) hsel h
      exact ⟨a.trans h1, b.trans h2⟩
  · intro crit hc c t
    refine OwnOutcome.mono ?_ (ownEdge_induct (cosn := cosn) hv (by simp) (by simp) hc c t
      (fun m => m.surface = inp.surface ∧ m.totalArea = inp.totalArea) (surface_copy lib hv) ?_)
    · exact fun m h => h.2
    · rintro cur m l s f' hn hn' hne hsel hD hlen h ⟨h1, h2⟩
      obtain ⟨a, b, -⟩ := C21_linear_edge_same_surface hn.valid (f := s.setEdges (l.map some)) hsel h
      exact ⟨a.trans h1, b.trans h2⟩

attribute [local irreducible] OwnOutcome condGenerateC in
example (test : Unit → Mesh R2 Nat → CId → Bool) : OwnOutcome (pickCrit test fun t _ => t)
    (fun out => out.surface = patchP.surface ∧ out.totalArea = patchP.totalArea)
    (condGenerateC someLib (condCellUpd .linear someLib realCos) (pickCrit test fun t _ => t) 7 ⟨Filt.new, []⟩ () patchP) :=
  (C84_surface patchP_ok.1 7).1 (C84_any_test _ _ _) _ _

end surface

end Verif
