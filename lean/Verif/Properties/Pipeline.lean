import Verif.Proofs.UniformKept
import Verif.Proofs.Recorded
import Verif.Properties.FaceSplit
import Verif.Properties.Rejected
import Verif.Properties.Conditional
/-
C48: after `Update()` the output is that of a new filter object with the settings and the input asked for.
-/
namespace Verif
set_option linter.unusedSectionVars false
variable {K P D : Type} [Field K] [Zero P] [Add P] [SMul K P]

/-- C48 for the iterative filter.  After any calls — settings, changes of the input, earlier calls of `Update()` that
returned or threw — an `Update()` that returns leaves as output the mesh that a new filter with the settings and the input
asked for computes.  (It may or may not execute the filter again: `again`.) -/
theorem C48_iterative_up_to_date (sch : Scheme) (lib : QELib) (cosn : Nat → K) {cs : List (PipeCall Iter (Mesh P D))}
    (hcs : ∀ c ∈ cs, IsIterCall c) {inp : Mesh P D} {p p' : Pipe Iter (Mesh P D)}
    (hx : (Pipe.new Iter.new inp Mesh.empty).calls (iterRun sch lib cosn) Mesh.empty cs = some p) {again touch : Bool}
    (hu : p.update (iterRun sch lib cosn) again touch Mesh.empty = some (.ok (), p')) :
    (iterUpdate sch lib cosn (asked Iter.new inp cs).1 (asked Iter.new inp cs).2).1 = .ok p'.output := by
  have key := Pipe.up_to_date (run := iterRun sch lib cosn) (fun s a => s.cells = a.cells ∧ s.levels = a.levels)
    (fun _ => ⟨rfl, rfl⟩)
    (fun s a m r s' h hr => by
      unfold iterRun at hr
      have : s' = (iterUpdate sch lib cosn s m).2 := by
        simp only [Option.some.injEq] at hr; rw [hr]
      obtain ⟨h1, h2⟩ := iterUpdate_cells sch lib cosn s m
      rw [this, h1, h2]; exact h)
    (fun s a m h => by
      show some (iterUpdate sch lib cosn s m).1 = some (iterUpdate sch lib cosn a m).1
      rw [iterUpdate_eq, iterUpdate_eq, h.1, h.2])
    (cs := cs)
    (fun tells g hg s a h => by
      have := hcs _ hg
      generalize hc : PipeCall.set tells g = c at this
      cases this with
      | set l => cases hc; exact ⟨rfl, h.2⟩
      | add c => cases hc; exact ⟨congrArg (· ++ [c]) h.1, h.2⟩
      | levels n => cases hc; exact ⟨h.1, rfl⟩
      | input m => cases hc
      | update a t => cases hc)
    (fun tells g hg s ht => by
      have := hcs _ hg
      generalize hc : PipeCall.set tells g = c at this
      cases this with
      | set l => cases hc; cases ht
      | add c => cases hc; cases ht
      | levels n =>
        cases hc
        refine ⟨rfl, ?_⟩
        have : s.levels = n := by simpa using ht
        exact this.symm
      | input m => cases hc
      | update a t => cases hc)
    hx hu
  exact Option.some.inj key

/-- C48 for the edge filters, in the same way. -/
theorem C48_edge_up_to_date (sch : EdgeScheme) (lib : QELib) (cosn : Nat → K) {cs : List (PipeCall Filt (Mesh P D))}
    (hcs : ∀ c ∈ cs, IsEdgeCall c) {inp : Mesh P D} {p p' : Pipe Filt (Mesh P D)}
    (hx : (Pipe.new Filt.new inp Mesh.empty).calls (edgeRun sch lib cosn) Mesh.empty cs = some p) {again touch : Bool}
    (hu : p.update (edgeRun sch lib cosn) again touch Mesh.empty = some (.ok (), p')) :
    (edgeUpdate sch lib cosn (asked Filt.new inp cs).1 (asked Filt.new inp cs).2).1 = .ok p'.output := by
  have key := Pipe.up_to_date (run := edgeRun sch lib cosn) (fun s a => s.edgeSel = a.edgeSel)
    (fun _ => rfl)
    (fun s a m r s' h hr => by
      unfold edgeRun at hr
      have : s' = (edgeUpdate sch lib cosn s m).2 := by
        simp only [Option.some.injEq] at hr; rw [hr]
      rw [this, edgeUpdate_kept]; exact h)
    (fun s a m h => by
      show some (edgeUpdate sch lib cosn s m).1 = some (edgeUpdate sch lib cosn a m).1
      refine congrArg some (edgeUpdate_same sch lib cosn m ?_)
      rw [h]
      exact SameEdges.rfl)
    (cs := cs)
    (fun tells g hg s a h => by
      have := hcs _ hg
      generalize hc : PipeCall.set tells g = c at this
      cases this with
      | set l => cases hc; rfl
      | add e => cases hc; exact congrArg (· ++ [e]) h
      | input m => cases hc
      | update a t => cases hc)
    (fun tells g hg s ht => by
      have := hcs _ hg
      generalize hc : PipeCall.set tells g = c at this
      cases this with
      | set l => cases hc; cases ht
      | add c => cases hc; cases ht
      | input m => cases hc
      | update a t => cases hc)
    hx hu
  exact Option.some.inj key

theorem asked_noset : ∀ (cs : List (PipeCall Filt (Mesh P D))), (∀ c ∈ cs, ∀ tells g, c ≠ .set tells g) → ∀ f m,
    (asked f m cs).1 = f := by
  intro cs
  induction cs with
  | nil => intro _ f m; rfl
  | cons c cs ih =>
    intro h f m
    have h' := fun d hd => h d (List.mem_cons_of_mem c hd)
    cases c with
    | set tells g => exact absurd rfl (h _ List.mem_cons_self tells g)
    | input m' => exact ih h' f m'
    | update a t => exact ih h' f m

/-- C48 for the four cell filters when no list is ever given.  What is missing: see
`C48_cell_again_refuted`. -/
theorem C48_uniform_cell_partial (sch : Scheme) (lib : QELib) (cosn : Nat → K) {cs : List (PipeCall Filt (Mesh P D))}
    (hcs : ∀ c ∈ cs, ∀ tells g, c ≠ .set tells g) {inp : Mesh P D} {p p' : Pipe Filt (Mesh P D)}
    (hx : (Pipe.new Filt.new inp Mesh.empty).calls (cellRun sch lib cosn) Mesh.empty cs = some p) {again touch : Bool}
    (hu : p.update (cellRun sch lib cosn) again touch Mesh.empty = some (.ok (), p')) :
    (cellUpdate sch lib cosn Filt.new (asked Filt.new inp cs).2).1 = .ok p'.output := by
  classical
  let run' : Filt → Mesh P D → Option (Except Fail (Mesh P D) × Filt) :=
    fun f m => if f.Uni then cellRun sch lib cosn f m else none
  have hdom : ∀ (s : Filt) (m : Mesh P D) r s', s.Uni → cellRun sch lib cosn s m = some (r, s') → s'.Uni := by
    intro s m r s' h hr
    have : s' = (cellUpdate sch lib cosn s m).2 := by
      unfold cellRun at hr
      simp only [Option.some.injEq] at hr; rw [hr]
    rw [this]
    exact cellUpdate_uni sch lib cosn h m
  have heq : ∀ (s : Filt) (m : Mesh P D), s.Uni → cellRun sch lib cosn s m = run' s m :=
    fun s m h => (if_pos h).symm
  have hnew : Filt.new.Uni := ⟨rfl, rfl⟩
  have hset : ∀ tells g, PipeCall.set tells g ∈ cs → ∀ s : Filt, s.Uni → (g s).Uni :=
    fun tells g hg => absurd rfl (hcs _ hg tells g)
  obtain ⟨h1, h2⟩ := Pipe.calls_dom (nothing := Mesh.empty) Filt.Uni heq hdom hset (p := Pipe.new Filt.new inp Mesh.empty) hnew
  have hp := h2 p hx
  rw [h1] at hx
  rw [(Pipe.update_dom (nothing := Mesh.empty) Filt.Uni heq hdom hp again touch).1] at hu
  have key := Pipe.up_to_date (run := run') (fun s a => s = a ∨ s.Uni ∧ a.Uni)
    (fun _ => Or.inl rfl)
    (fun s a m r s' h hr => by
      by_cases hs : s.Uni
      · have hs' : s'.Uni := hdom s m r s' hs ((heq s m hs).trans hr)
        refine Or.inr ⟨hs', ?_⟩
        rcases h with rfl | h
        · exact hs
        · exact h.2
      · have : run' s m = none := if_neg hs
        rw [this] at hr
        cases hr)
    (fun s a m h => by
      rcases h with rfl | ⟨h1, h2⟩
      · rfl
      · rw [← heq s m h1, ← heq a m h2]
        exact congrArg some (cellUpdate_uni_same sch lib cosn h2 h1 m))
    (cs := cs)
    (fun tells g hg => absurd rfl (hcs _ hg tells g))
    (fun tells g hg => absurd rfl (hcs _ hg tells g))
    hx hu
  have hask : (asked Filt.new inp cs).1 = Filt.new := asked_noset cs hcs _ _
  rw [hask, ← heq _ _ hnew] at key
  exact Option.some.inj key

/-- C48 for Linear, ModifiedButterfly and SquareThree when `SetCellsToBeSubdivided` has been called after the last
`Update()`, followed by any other calls.  What is missing: `Update()` without that, see `C48_cell_again_refuted`; and
Loop, whose output depends on `m_Uniform` as the last run left it (C25). -/
theorem C48_cell_set_partial {sch : Scheme} (hs : sch ≠ .loop) (lib : QELib) (cosn : Nat → K)
    {cs cs' : List (PipeCall Filt (Mesh P D))} {l : List CId} (hcs : ∀ c ∈ cs', IsCellCall c)
    (hno : ∀ again touch, PipeCall.update again touch ∉ cs') {inp : Mesh P D} {p p' : Pipe Filt (Mesh P D)}
    (hx : (Pipe.new Filt.new inp Mesh.empty).calls (cellRun sch lib cosn) Mesh.empty (cs ++ callSetCells l :: cs') = some p)
    {again touch : Bool} (hu : p.update (cellRun sch lib cosn) again touch Mesh.empty = some (.ok (), p')) :
    (cellUpdate sch lib cosn (asked Filt.new inp (cs ++ callSetCells l :: cs')).1
      (asked Filt.new inp (cs ++ callSetCells l :: cs')).2).1 = .ok p'.output := by
  obtain ⟨s0, h1, h2⟩ := Pipe.update_after_set (fun s a : Filt => s.cells = a.cells) (g := (·.setCells l)) hno
    (fun _ _ => rfl)
    (fun tells g hg s a h => by
      have := hcs _ hg
      generalize hc : PipeCall.set tells g = c at this
      cases this with
      | set l => cases hc; rfl
      | add c => cases hc; exact congrArg (· ++ [c]) h
      | input m => cases hc
      | update a t => cases hc) hx hu
  have h2 := Option.some.inj h2
  rw [← h2]
  exact (cellUpdate_history hs lib cosn _ h1.symm).1

/-- C48 for Linear, ModifiedButterfly and SquareThree when no list was given up to the last `Update()`, and
`AddSubdividedCellId` is called after it, followed by any other calls: the filter runs again, on the cells that were added.
What is missing is the same as for `C48_cell_set_partial`. -/
theorem C48_cell_add_partial {sch : Scheme} (hs : sch ≠ .loop) (lib : QELib) (cosn : Nat → K)
    {cs cs' : List (PipeCall Filt (Mesh P D))} {k : CId} (hset : ∀ c ∈ cs, ∀ tells g, c ≠ .set tells g)
    (hcs : ∀ c ∈ cs', IsCellCall c)
    (hno : ∀ again touch, PipeCall.update again touch ∉ cs') {inp : Mesh P D} {p p' : Pipe Filt (Mesh P D)}
    (hx : (Pipe.new Filt.new inp Mesh.empty).calls (cellRun sch lib cosn) Mesh.empty (cs ++ callAddCell k :: cs') = some p)
    {again touch : Bool} (hu : p.update (cellRun sch lib cosn) again touch Mesh.empty = some (.ok (), p')) :
    (cellUpdate sch lib cosn (asked Filt.new inp (cs ++ callAddCell k :: cs')).1
      (asked Filt.new inp (cs ++ callAddCell k :: cs')).2).1 = .ok p'.output := by
  have hdom : ∀ (s : Filt) (m : Mesh P D) r s', s.Uni → cellRun sch lib cosn s m = some (r, s') → s'.Uni := by
    intro s m r s' h hr
    have : s' = (cellUpdate sch lib cosn s m).2 := by
      unfold cellRun at hr
      simp only [Option.some.injEq] at hr; rw [hr]
    rw [this]
    exact cellUpdate_uni sch lib cosn h m
  obtain ⟨s0, h1, h2⟩ := Pipe.update_after_set (fun s a : Filt => s.cells = a.cells) (g := (·.addCell k)) hno
    (fun q hq => by
      have hU := (Pipe.calls_dom (nothing := Mesh.empty) (run' := cellRun sch lib cosn) Filt.Uni (fun _ _ _ => rfl) hdom
        (fun tells g hg => absurd rfl (hset _ hg tells g)) (p := Pipe.new Filt.new inp Mesh.empty) ⟨rfl, rfl⟩).2 q hq
      rw [asked_noset cs hset]
      exact congrArg (· ++ [k]) hU.1)
    (fun tells g hg s a h => by
      have := hcs _ hg
      generalize hc : PipeCall.set tells g = c at this
      cases this with
      | set l => cases hc; rfl
      | add c => cases hc; exact congrArg (· ++ [c]) h
      | input m => cases hc
      | update a t => cases hc) hx hu
  have h2 := Option.some.inj h2
  rw [← h2]
  exact (cellUpdate_history hs lib cosn _ h1.symm).1

/-- C48 is false for a cell filter with a list: the run replaces the list by ids of cells of the *output*
(itkTriangleCell….hxx:91, 241-262), and the next run looks them up in the *input*.  Select more than a quarter of the
cells, update, mark the input as modified and update: the second
`Update()` has undefined behaviour, where a new filter with the same list and the same input gives a mesh. -/
theorem C48_cell_again_refuted {sch : Scheme} (hs : sch ≠ .sqrt3) (lib : QELib) (cosn : Nat → K) {inp : Mesh P D}
    (hn : sch.Needs inp) {l : List CId} (hsel : inp.SelOK l) (hd : l.Nodup) (hbig : inp.cells.length < 4 * l.length)
    (again touch again' touch' : Bool) :
    ∃ out p p', (cellUpdate sch lib cosn (Filt.new.setCells l) inp).1 = .ok out ∧
      (Pipe.new Filt.new inp Mesh.empty).calls (cellRun sch lib cosn) Mesh.empty
        [callSetCells l, .update again touch, .input inp] = some p ∧
      p.update (cellRun sch lib cosn) again' touch' Mesh.empty = some (.error (.ub .missingKey), p') := by
  have hne : l ≠ [] := by
    rintro rfl
    exact absurd hbig (Nat.not_lt_zero _)
  obtain ⟨out, f', h, -⟩ := C01_face_split_completes hs lib cosn (f := Filt.new.setCells l) hn hsel
  have hlong := recorded_length hs hn (f := Filt.new.setCells l) hsel hne hd h
  have hnd := ((C16_selection_after_run hs hn (f := Filt.new.setCells l) hsel h).2 hne).2.1
  have hub := C36_absent_id_refuted lib cosn (f := f') hn (not_selOK_of_long hnd (Nat.lt_of_lt_of_le hbig hlong))
  have hrun1 : cellRun sch lib cosn (Filt.new.setCells l) inp = some (.ok out, f') := congrArg some h
  obtain ⟨f2, hrun2⟩ : ∃ f2, cellRun sch lib cosn f' inp = some (.error (.ub .missingKey), f2) :=
    ⟨(cellUpdate sch lib cosn f' inp).2, congrArg some (Prod.ext hub rfl)⟩
  -- the first `Update()`
  have hI0 := Pipe.new_inv (good := fun _ _ _ => True) Filt.new inp Mesh.empty
  obtain ⟨p0, hp0⟩ : ∃ p0, p0 = { Pipe.new Filt.new inp Mesh.empty with members := Filt.new.setCells l, mtime := 3, clock := 3 } :=
    ⟨_, rfl⟩
  have hd0 : ¬ p0.updateInformation.pipelineMTime ≤ p0.updateMTime := by
    rw [hp0]
    exact Pipe.set_dirty hI0 (Filt.new.setCells l)
  have hr0 : cellRun sch lib cosn p0.members p0.input = some (.ok out, f') := by rw [hp0]; exact hrun1
  obtain ⟨p1, hu1, hm1, hi1, -⟩ := Pipe.update_executes (nothing := Mesh.empty) hd0 hr0 again touch
  have hc0 : (Pipe.new Filt.new inp Mesh.empty).call (cellRun sch lib cosn) Mesh.empty (callSetCells l) = some p0 := by
    rw [hp0]; rfl
  have hc1 : p0.call (cellRun sch lib cosn) Mesh.empty (.update again touch) = some p1 := by
    unfold Pipe.call
    dsimp only
    rw [hu1]; rfl
  have hI1 : p1.Inv (fun _ _ _ => True) := by
    refine Pipe.calls_order (run := cellRun sch lib cosn) (nothing := Mesh.empty) (cs := [callSetCells l, .update again touch]) hI0 ?_
    unfold Pipe.calls
    rw [hc0]
    dsimp only
    unfold Pipe.calls
    rw [hc1]; rfl
  -- the second
  have hd2 := Pipe.input_dirty hI1 inp
  obtain ⟨p3, hu3, -⟩ := Pipe.update_executes (run := cellRun sch lib cosn) (nothing := Mesh.empty)
    (p := { p1 with input := inp, inputMTime := p1.clock + 1, clock := p1.clock + 1 }) hd2
    (by dsimp only; rw [hm1]; exact hrun2) again' touch'
  refine ⟨out, _, p3, congrArg Prod.fst h, ?_, hu3⟩
  unfold Pipe.calls
  rw [hc0]
  dsimp only
  unfold Pipe.calls
  rw [hc1]; rfl

example (sch : Scheme) (hs : sch ≠ .sqrt3) : ∃ out p p',
    (cellUpdate sch someLib cos0 (Filt.new.setCells [1, 3]) patchMesh).1 = .ok out ∧
      (Pipe.new Filt.new patchMesh Mesh.empty).calls (cellRun sch someLib cos0) Mesh.empty
        [callSetCells [1, 3], .update false false, .input patchMesh] = some p ∧
      p.update (cellRun sch someLib cos0) false false Mesh.empty = some (.error (.ub .missingKey), p') :=
  C48_cell_again_refuted hs _ _ (patchMesh_needs _) patchMesh_sel (by decide) (by decide) _ _ _ _

/-- the output of a pipeline after some calls and an `Update()`, and the settings it then has -/
def afterUpdate {S M : Type} (run : S → M → Option (Except Fail M × S)) (nothing : M) (p : Pipe S M) (cs : List (PipeCall S M)) :
    Option M :=
  match p.calls run nothing cs with
  | none => none
  | some p =>
    match p.update run false false nothing with
    | some (.ok _, p) => some p.output
    | _ => none

/-- With fewer selected cells the second `Update()` may return, with a wrong mesh: cell 0 of `patchMesh` has been selected,
and the whole mesh is subdivided (16 triangles) instead of it and its neighbours (10 triangles). -/
theorem C48_cell_again_other_refuted :
    (afterUpdate (cellRun .linear someLib cos0) Mesh.empty (Pipe.new Filt.new patchMesh Mesh.empty)
      [callSetCells [0], .update false false, .input patchMesh]).map (fun m => m.tris.length) = some 16 ∧
    (cellUpdate .linear someLib cos0 (Filt.new.setCells [0]) patchMesh).1.toOption.map (fun m => m.tris.length) = some 10 := by
  constructor <;> decide +kernel

section cond
variable [LinearOrder K]

/-- C48 for the conditional filter with the area criterion and Linear, ModifiedButterfly or SquareThree, as long as the
threshold is changed with `SetSubdivisionCriterion` only.  What is missing: `SetMaximumArea` on the criterion, see
`C48_maximum_area_refuted`; and Loop (C25). -/
theorem C48_conditional_partial {sch : Scheme} (hs : sch ≠ .loop) (lib : QELib) (cosn : Nat → K) (area : P → P → P → K)
    (fuel : Nat) {cs : List (PipeCall (CondArea K) (Mesh P D))} (hcs : ∀ c ∈ cs, IsCondCall c) {c0 : CondArea K}
    {inp : Mesh P D} {p p' : Pipe (CondArea K) (Mesh P D)}
    (hx : (Pipe.new c0 inp Mesh.empty).calls (condAreaRun sch lib cosn area fuel) Mesh.empty cs = some p)
    {again touch : Bool} (hu : p.update (condAreaRun sch lib cosn area fuel) again touch Mesh.empty = some (.ok (), p')) :
    (condAreaRun sch lib cosn area fuel (asked c0 inp cs).1 (asked c0 inp cs).2).map Prod.fst = some (.ok p'.output) := by
  refine Pipe.up_to_date (run := condAreaRun sch lib cosn area fuel) (fun s a => s.maxArea = a.maxArea)
    (fun _ => rfl)
    (fun s a m r s' h hr => by
      unfold condAreaRun at hr
      cases hg : condGenerate lib (condCellUpd sch lib cosn) (some (areaCompute area s.maxArea)) fuel s.cond m with
      | none => rw [hg] at hr; cases hr
      | some x => rw [hg] at hr; cases hr; exact h)
    (fun s a m h => by
      unfold condAreaRun
      rw [h]
      have := condGenerate_members (upd := condCellUpd (D := D) sch lib cosn) (crit := areaCompute area a.maxArea)
        (fun s s' sel m => (cellUpdate_history hs lib cosn m (f := s'.setCells sel) (g := s.setCells sel) rfl).1) (fun m l l' => rfl) lib fuel s.cond a.cond m
      rw [Option.map_map, Option.map_map]
      exact this)
    (cs := cs)
    (fun tells g hg s a h => by
      have := hcs _ hg
      generalize hc : PipeCall.set tells g = c at this
      cases this with
      | criterion l => cases hc; rfl
      | input m => cases hc
      | update a t => cases hc)
    (fun tells g hg s ht => by
      have := hcs _ hg
      generalize hc : PipeCall.set tells g = c at this
      cases this with
      | criterion l => cases hc; cases ht
      | input m => cases hc
      | update a t => cases hc)
    hx hu

/-- C48 is false for `criterion->SetMaximumArea(a)`: the filter does not look at the time stamp of its criterion, and
after an `Update()` that returned, the next one (if the pipeline does not ask again for other reasons) returns the same
mesh, whatever the new threshold. -/
theorem C48_maximum_area_refuted {sch : Scheme} {lib : QELib} {cosn : Nat → K} {area : P → P → P → K} {fuel : Nat}
    {cs : List (PipeCall (CondArea K) (Mesh P D))} {c0 : CondArea K} {inp : Mesh P D} {p p1 : Pipe (CondArea K) (Mesh P D)}
    (hx : (Pipe.new c0 inp Mesh.empty).calls (condAreaRun sch lib cosn area fuel) Mesh.empty cs = some p)
    {again touch : Bool} (hu : p.update (condAreaRun sch lib cosn area fuel) again touch Mesh.empty = some (.ok (), p1))
    (a : K) (touch' : Bool) :
    ∃ p2 p3, p1.call (condAreaRun sch lib cosn area fuel) Mesh.empty (callMaximumArea a) = some p2 ∧
      p2.members.maxArea = a ∧
      p2.update (condAreaRun sch lib cosn area fuel) false touch' Mesh.empty = some (.ok (), p3) ∧ p3.output = p1.output := by
  have hI := Pipe.calls_order (Pipe.new_inv (good := fun _ _ _ => True) c0 inp Mesh.empty) hx
  have hc := Pipe.update_clean hI hu
  have hc2 : (Pipe.updateInformation { p1 with members := { p1.members with maxArea := a } }).pipelineMTime ≤ p1.updateMTime := by
    unfold Pipe.updateInformation at hc ⊢
    split at hc
    · rename_i hlt; rw [if_pos hlt]; exact hc
    · rename_i hlt; rw [if_neg hlt]; exact hc
  refine ⟨{ p1 with members := { p1.members with maxArea := a } }, _, rfl, rfl, Pipe.update_skips hc2 touch', ?_⟩
  exact (Pipe.updateInformation_same _).2.2.1

/-- Concretely: threshold 16 leaves the four triangles of `patchMesh`; after `SetMaximumArea(10)` they are all too large, and a
new filter would give 16 triangles, but `Update()` still gives the four. -/
theorem C48_maximum_area_witness_refuted :
    (afterUpdate (condAreaRun .linear someLib cos0 shadow 1) Mesh.empty
      (Pipe.new ⟨⟨Filt.new, []⟩, 16⟩ patchMesh Mesh.empty) [.update false false, callMaximumArea 10]).map
        (fun m => m.tris.length) = some 4 ∧
    ((condAreaRun .linear someLib cos0 shadow 1 ⟨⟨Filt.new, []⟩, 10⟩ patchMesh).bind fun r => r.1.toOption).map
      (fun m => m.tris.length) = some 16 := by
  constructor <;> decide +kernel

end cond

-- the theorems apply: calls that return, on a mesh that is then changed
example : (afterUpdate (iterRun .linear someLib cos0) Mesh.empty (Pipe.new Iter.new patchMesh Mesh.empty)
      [callLevels 2, callIterSetCells [0], .update false true, callIterAddCell 1, .update false true, .input tetraMesh]).isSome = true ∧
    (∀ c ∈ ([callLevels 2, callIterSetCells [0], .update false true, callIterAddCell 1, .update false true, .input tetraMesh] :
      List (PipeCall Iter (Mesh Q3 Nat))), IsIterCall c) := by
  refine ⟨by decide +kernel, ?_⟩
  intro c hc
  simp only [List.mem_cons, List.not_mem_nil, or_false] at hc
  rcases hc with rfl | rfl | rfl | rfl | rfl | rfl
  · exact .levels _
  · exact .set _
  · exact .update _ _
  · exact .add _
  · exact .update _ _
  · exact .input _

example : (afterUpdate (edgeRun .loop someLib cos0) Mesh.empty (Pipe.new Filt.new patchMesh Mesh.empty)
      [callSetEdges [some (0, 1)], .update false false, callAddEdge none, .update false false, .input tetraMesh]).isSome = true ∧
    (∀ c ∈ ([callSetEdges [some (0, 1)], .update false false, callAddEdge none, .update false false, .input tetraMesh] :
      List (PipeCall Filt (Mesh Q3 Nat))), IsEdgeCall c) := by
  refine ⟨by decide +kernel, ?_⟩
  intro c hc
  simp only [List.mem_cons, List.not_mem_nil, or_false] at hc
  rcases hc with rfl | rfl | rfl | rfl | rfl
  · exact .set _
  · exact .update _ _
  · exact .add _
  · exact .update _ _
  · exact .input _

example : (afterUpdate (cellRun .loop someLib cos0) Mesh.empty (Pipe.new Filt.new patchMesh Mesh.empty)
      [.update false false, .input tetraMesh, .update true false]).isSome = true ∧
    (afterUpdate (cellRun .butterfly someLib cos0) Mesh.empty (Pipe.new Filt.new patchMesh Mesh.empty)
      ([callSetCells [1, 3], .update false false, .input tetraMesh] ++ callSetCells [2] :: [callAddCell 0, .input patchMesh])).isSome
        = true := by
  constructor <;> decide +kernel

/-- the whole mesh has been subdivided into 16 triangles; then cell 0 is added, and the output has 10 -/
example : (afterUpdate (cellRun .linear someLib cos0) Mesh.empty (Pipe.new Filt.new patchMesh Mesh.empty)
      [.update false false]).map (fun m => m.tris.length) = some 16 ∧
    (afterUpdate (cellRun .linear someLib cos0) Mesh.empty (Pipe.new Filt.new patchMesh Mesh.empty)
      ([.update false false] ++ callAddCell 0 :: [])).map (fun m => m.tris.length) = some 10 := by
  constructor <;> decide +kernel

example : (afterUpdate (condAreaRun .linear someLib cos0 shadow 1) Mesh.empty
      (Pipe.new ⟨⟨Filt.new, []⟩, 16⟩ patchMesh Mesh.empty) [.update false false, callCriterion 10, .update false true]).isSome = true ∧
    (∀ c ∈ ([.update false false, callCriterion 10, .update false true] : List (PipeCall (CondArea ℚ) (Mesh Q3 Nat))), IsCondCall c) := by
  refine ⟨by decide +kernel, ?_⟩
  intro c hc
  simp only [List.mem_cons, List.not_mem_nil, or_false] at hc
  rcases hc with rfl | rfl | rfl
  · exact .update _ _
  · exact .criterion _
  · exact .update _ _

end Verif
