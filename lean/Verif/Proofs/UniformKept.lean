import Verif.Proofs.PipeRuns
import Verif.Proofs.Alike
/-
A uniform run of a cell filter leaves an empty list and the flag, on any mesh and with any outcome.
-/
namespace Verif
set_option linter.unusedSectionVars false
variable {K P D : Type}

/-- no cells are listed and `m_Uniform` is set -/
def Filt.Uni (f : Filt) : Prop := f.cells = [] ∧ f.uniform = true

/-- the program keeps this, also when it fails -/
def Stays {α : Type} (p : M P D α) : Prop := ∀ s, s.filt.Uni → (p s).2.filt.Uni

namespace Stays
variable {α β : Type}

/-- a program that keeps the two members -/
theorem same {p : M P D α} (h : ∀ s, (p s).2.filt = s.filt) : Stays p := fun s hs => by rw [h s]; exact hs
theorem pure (a : α) : Stays (P := P) (D := D) (Prog.pure a) := fun _ h => h
theorem fail (e : Fail) : Stays (P := P) (D := D) (Prog.fail e : M P D α) := fun _ h => h
theorem lift (r : Except Fail α) : Stays (P := P) (D := D) (Prog.lift r) := fun _ h => h
theorem modifyOut (g : Mesh P D → Mesh P D) : Stays (Verif.modifyOut g) := fun _ h => h
theorem modifyFilt {g : Filt → Filt} (h : ∀ f : Filt, f.Uni → (g f).Uni) : Stays (P := P) (D := D) (Verif.modifyFilt g) :=
  fun s => h s.filt

theorem bind {p : M P D α} {f : α → M P D β} (hp : Stays p) (hf : ∀ a, Stays (f a)) : Stays (Prog.bind p f) := by
  intro s hs
  have h := hp s hs
  unfold Prog.bind
  rcases hq : p s with ⟨_ | a, s'⟩
  · rw [hq] at h; exact h
  · rw [hq] at h; exact hf a s' h

theorem forEach {f : α → M P D Unit} (hf : ∀ a, Stays (f a)) (l : List α) : Stays (Prog.forEach f l) := by
  induction l with
  | nil => exact pure ()
  | cons x l ih => exact bind (hf x) fun _ => ih

end Stays

theorem setEpi_stays (e : Edge) (n : PId) : Stays (P := P) (D := D) (setEpi e n) := Stays.modifyFilt fun _ h => h

theorem addPass_stays (inp : Mesh P D) (id : CId) (a b c : PId) : Stays (P := P) (addPass inp id a b c) := by
  refine Stays.bind (Stays.same fun _ => rfl) fun _ => Stays.bind (Stays.same fun s => ?_) fun _ => Stays.pure _
  unfold passCellData
  split
  · rfl
  split
  · rfl
  split
  · rfl
  split <;> rfl

theorem readEdge_stays (sp : Split) (i : Nat) : Stays (P := P) (D := D) (sp.readEdge i) := by
  refine Stays.same fun s => ?_
  unfold Split.readEdge
  split <;> rfl

local macro "keep" : tactic => `(tactic| repeat (first
  | exact Stays.pure _
  | exact Stays.fail _
  | refine Stays.bind (readEdge_stays _ _) fun _ => ?_
  | refine Stays.bind (addPass_stays _ _ _ _ _) fun _ => ?_))

theorem outputCellsOfTriangle_stays (inp : Mesh P D) (id : CId) (t : PId × PId × PId) :
    Stays (P := P) (outputCellsOfTriangle inp id t) := by
  intro s hs
  unfold outputCellsOfTriangle
  simp only
  split
  · exact Stays.bind (addPass_stays inp id _ _ _) (fun _ => Stays.pure ()) s hs
  · refine (?_ : Stays (P := P) (splitOne inp _ _ id)) s hs
    unfold splitOne
    keep
  · refine (?_ : Stays (P := P) (splitTwo inp _ _ _ id)) s hs
    unfold splitTwo
    simp only
    split
    · keep
    split
    · keep
    split
    · keep
    · keep
  · rw [hs.2]
    refine (?_ : Stays (P := P) (splitThree inp _ true id)) s hs
    unfold splitThree
    simp only [if_true]
    keep

theorem generateOutputCells_stays (inp : Mesh P D) : Stays (P := P) (generateOutputCells inp) := by
  refine Stays.bind (Stays.modifyFilt fun _ h => ⟨rfl, h.2⟩) fun _ => Stays.forEach (fun c => ?_) _
  split
  · exact Stays.fail _
  · unfold actCell
    split
    · exact outputCellsOfTriangle_stays inp _ _
    · exact Stays.pure ()

theorem sq3Emit_stays (inp : Mesh P D) (id : CId) (a b c : PId) : Stays (P := P) (sq3Emit inp true id a b c) :=
  Stays.bind (addPass_stays inp id _ _ _) fun _ => Stays.pure ()

theorem sq3Darts_stays (inp : Mesh P D) (id : CId) (t : PId × PId × PId) (l : List (PId × PId)) :
    Stays (P := P) (sq3Darts inp true id t l) := by
  induction l with
  | nil => exact Stays.pure ()
  | cons xy l ih =>
    intro s h
    unfold sq3Darts
    split
    · exact Stays.bind (addPass_stays inp id _ _ _) (fun _ => Stays.pure ()) s h
    · split
      · split
        · exact Stays.bind (sq3Emit_stays inp id _ _ _) (fun _ => ih) s h
        · exact Stays.bind (sq3Emit_stays inp id _ _ _) (fun _ => Stays.bind (sq3Emit_stays inp id _ _ _) fun _ =>
            Stays.bind (setEpi_stays _ _) fun _ => ih) s h
      · exact ih s h

theorem sq3OutputCells_stays (inp : Mesh P D) : Stays (P := P) (sq3OutputCells inp) := by
  refine Stays.bind (Stays.modifyFilt fun _ h => ⟨rfl, h.2⟩) fun _ => Stays.forEach (fun c => ?_) _
  split
  · exact Stays.fail _
  · unfold sq3Act
    split
    · exact Stays.fail _
    · split
      · intro s h
        dsimp only
        rw [h.2]
        exact sq3Darts_stays inp _ _ _ s h
      · exact Stays.pure ()

section points
variable [Field K] [Zero P] [Add P] [SMul K P]

theorem requireTriangle_stays (c : Option Cell) : Stays (P := P) (D := D) (requireTriangle c) := by
  unfold requireTriangle
  split
  · exact Stays.fail _
  · split
    · exact Stays.pure _
    · exact Stays.fail _

theorem addEdgePoint_stays (inp : Mesh P D) (np : Edge → Except Fail P) (a b n : PId) : Stays (P := P) (addEdgePoint inp np a b n) := by
  unfold addEdgePoint
  split
  · exact Stays.fail _
  · intro s h
    dsimp only
    split
    · exact h
    · exact Stays.bind (Stays.lift _) (fun p => Stays.bind (setEpi_stays _ _) fun _ =>
        Stays.bind (setEpi_stays _ _) fun _ => Stays.bind (Stays.modifyOut _) fun _ => Stays.pure _) s h

theorem addThree_stays (inp : Mesh P D) (np : Edge → Except Fail P) (c : Option Cell) : Stays (P := P) (addThree inp np c) :=
  Stays.bind (requireTriangle_stays c) fun _ => Stays.bind (Stays.same fun _ => rfl) fun _ =>
    Stays.bind (addEdgePoint_stays inp np _ _ _) fun _ => Stays.bind (addEdgePoint_stays inp np _ _ _) fun _ =>
    Stays.bind (addEdgePoint_stays inp np _ _ _) fun _ => Stays.pure ()

theorem linearAddNew_stays (inp : Mesh P D) (c : Option Cell) : Stays (linearAddNew K inp c) :=
  Stays.bind (requireTriangle_stays c) fun _ => Stays.bind (Stays.same fun _ => rfl) fun _ =>
    Stays.bind (Stays.same fun _ => rfl) fun _ => Stays.bind (Stays.same fun _ => rfl) fun _ =>
    Stays.bind (Stays.same fun _ => rfl) fun _ =>
    Stays.bind (addEdgePoint_stays inp _ _ _ _) fun _ => Stays.bind (addEdgePoint_stays inp _ _ _ _) fun _ =>
    Stays.bind (addEdgePoint_stays inp _ _ _ _) fun _ => Stays.pure ()

theorem sq3AddNew_stays (inp : Mesh P D) (c : Option Cell) : Stays (P := P) (sq3AddNew K inp c) := by
  refine Stays.bind (requireTriangle_stays c) fun _ => Stays.bind (Stays.lift _) fun _ => Stays.bind (Stays.lift _) fun _ =>
    Stays.bind (Stays.lift _) fun _ => Stays.bind (Stays.same fun _ => rfl) fun _ =>
    Stays.bind (Stays.modifyOut _) fun _ => Stays.forEach (fun xy => ?_) _
  split
  · exact Stays.pure ()
  · intro s h
    dsimp only
    split
    · exact h
    · exact setEpi_stays _ _ s h

theorem writePoints_stays (val : PId → P → Except Fail P) (l : List (PId × P)) : Stays (D := D) (writePoints val l) :=
  Stays.forEach (fun _ => Stays.bind (Stays.lift _) fun _ => Stays.modifyOut _) l

theorem loopCopy_stays (cosn : Nat → K) (inp : Mesh P D) : Stays (loopCopy cosn inp) := by
  refine Stays.bind (Stays.modifyOut _) fun _ s h => ?_
  have e : ∀ (a b : Except Fail Unit × St P D), (if s.filt.uniform = true then a else b) = a := fun a b => if_pos h.2
  refine Eq.mpr (congrArg (fun r : Except Fail Unit × St P D => r.2.filt.Uni) (e _ _)) ?_
  exact writePoints_stays _ _ s h

theorem generateOutputPoints_stays {copy : M P D Unit} {addNew : Option Cell → M P D Unit} (inp : Mesh P D)
    (hc : Stays copy) (hn : ∀ c, Stays (addNew c)) : Stays (P := P) (generateOutputPoints copy addNew inp) := by
  refine Stays.bind hc fun _ => Stays.bind (Stays.modifyFilt fun _ h => h) fun _ =>
    Stays.bind (Stays.modifyFilt fun f h => ⟨h.1, by dsimp only; rw [h.1]; rfl⟩) fun _ s h => ?_
  have e : ∀ (a b : Except Fail Unit × St P D), (if s.filt.uniform = true then a else b) = a := fun a b => if_pos h.2
  refine Eq.mpr (congrArg (fun r : Except Fail Unit × St P D => r.2.filt.Uni) (e _ _)) ?_
  exact Stays.forEach (fun c : CId × Option Cell => hn c.2) _ s h

/-- a uniform run leaves an object that will do a uniform run -/
theorem cellUpdate_uni (sch : Scheme) (lib : QELib) (cosn : Nat → K) {f : Filt} (hf : f.Uni) (inp : Mesh P D) :
    (cellUpdate sch lib cosn f inp).2.Uni := by
  have key : Stays (cellGenerate sch cosn inp) := by
    cases sch with
    | linear => exact Stays.bind (generateOutputPoints_stays inp (Stays.modifyOut _) (linearAddNew_stays inp)) fun _ => generateOutputCells_stays inp
    | loop => exact Stays.bind (generateOutputPoints_stays inp (loopCopy_stays cosn inp) (addThree_stays inp _)) fun _ => generateOutputCells_stays inp
    | butterfly => exact Stays.bind (generateOutputPoints_stays inp (Stays.modifyOut _) (addThree_stays inp _)) fun _ => generateOutputCells_stays inp
    | sqrt3 => exact Stays.bind (generateOutputPoints_stays inp (Stays.modifyOut _) (sq3AddNew_stays inp)) fun _ => sq3OutputCells_stays inp
  have h := key ⟨f, Mesh.empty⟩ hf
  unfold cellUpdate runFilter
  split
  · rename_i hs; rw [hs] at h; exact h
  · rename_i hs; rw [hs] at h; exact h

/-- all such objects give the same result -/
theorem cellUpdate_uni_same (sch : Scheme) (lib : QELib) (cosn : Nat → K) {f g : Filt} (hf : f.Uni) (hg : g.Uni)
    (inp : Mesh P D) : (cellUpdate sch lib cosn g inp).1 = (cellUpdate sch lib cosn f inp).1 := by
  have hc : g.cells = f.cells := hg.1.trans hf.1.symm
  by_cases hs : sch = .loop
  · subst hs
    exact (cellUpdate_history_loop lib cosn inp hc (hg.2.trans hf.2.symm)).1
  · exact (cellUpdate_history hs lib cosn inp hc).1

end points

/-- the calls contain no `Update()`: they do not depend on the runs -/
theorem Pipe.calls_norun {S M : Type} {run run' : S → M → Option (Except Fail M × S)} {nothing : M}
    {cs : List (PipeCall S M)} (h : ∀ again touch, PipeCall.update again touch ∉ cs) (p : Pipe S M) :
    p.calls run nothing cs = p.calls run' nothing cs := by
  induction cs generalizing p with
  | nil => rfl
  | cons c cs ih =>
    have hc : p.call run nothing c = p.call run' nothing c := by
      cases c with
      | set tells g => rfl
      | input m => rfl
      | update again touch => exact absurd List.mem_cons_self (h again touch)
    unfold Pipe.calls
    rw [hc]
    cases p.call run' nothing c with
    | none => rfl
    | some q => exact ih (fun a t hm => h a t (List.mem_cons_of_mem _ hm)) q

theorem Pipe.calls_append {S M : Type} {run : S → M → Option (Except Fail M × S)} {nothing : M}
    (cs cs' : List (PipeCall S M)) (p : Pipe S M) :
    p.calls run nothing (cs ++ cs') = (p.calls run nothing cs).bind (Pipe.calls run nothing cs') := by
  induction cs generalizing p with
  | nil => rfl
  | cons c cs ih =>
    have hcons : ∀ ds, p.calls run nothing (c :: ds) = (p.call run nothing c).bind (Pipe.calls run nothing ds) := by
      intro ds
      conv_lhs => unfold Pipe.calls
      cases p.call run nothing c <;> rfl
    rw [List.cons_append, hcons, hcons]
    cases p.call run nothing c with
    | none => rfl
    | some q => exact ih q

theorem asked_append {S M : Type} (s : S) (m : M) (cs cs' : List (PipeCall S M)) :
    asked s m (cs ++ cs') = asked (asked s m cs).1 (asked s m cs).2 cs' := by
  unfold asked
  rw [List.foldl_append]

/-- the time stamps are in order, whatever the runs do -/
theorem Pipe.calls_order {S M : Type} {run : S → M → Option (Except Fail M × S)} {nothing : M} {cs : List (PipeCall S M)}
    {p p' : Pipe S M} (h : p.Inv (fun _ _ _ => True)) (hx : p.calls run nothing cs = some p') : p'.Inv (fun _ _ _ => True) := by
  have hupd : ∀ (p : Pipe S M) (again touch : Bool) (r : Except Fail Unit) (q : Pipe S M), p.Inv (fun _ _ _ => True) →
      p.update run again touch nothing = some (r, q) → q.Inv (fun _ _ _ => True) := by
    intro p again touch r q h hq
    have hi := h.updateInformation
    unfold Pipe.update at hq
    dsimp only at hq
    split at hq
    · obtain ⟨t1, t2, t3, t4, t5, t6, t7, t8, t9⟩ := p.updateInformation.touched_same touch
      have hb := t9 hi.mtime
      have hb1 := hi.inputMTime
      have hb2 := hi.infoMTime
      have hb3 := hi.pipelineMTime
      have hb4 := hi.updateMTime
      unfold Pipe.execute at hq
      split at hq
      · cases hq
      · dsimp only at hq
        split at hq
        all_goals
          cases hq
          refine ⟨?_, ?_, ?_, ?_, ?_, fun _ => trivial⟩
          all_goals
            dsimp only
            omega
    · cases hq
      exact hi
  induction cs generalizing p with
  | nil => cases hx; exact h
  | cons c cs ih =>
    have hb1 := h.mtime
    have hb2 := h.inputMTime
    have hb3 := h.infoMTime
    have hb4 := h.pipelineMTime
    have hb5 := h.updateMTime
    unfold Pipe.calls at hx
    split at hx
    · rename_i q hq
      refine ih ?_ hx
      cases c with
      | set tells g =>
        unfold Pipe.call at hq
        simp only [Option.some.injEq] at hq
        subst hq
        split
        all_goals
          refine ⟨?_, ?_, ?_, ?_, ?_, fun _ => trivial⟩
          all_goals
            dsimp only
            omega
      | input m =>
        unfold Pipe.call at hq
        simp only [Option.some.injEq] at hq
        subst hq
        refine ⟨?_, ?_, ?_, ?_, ?_, fun _ => trivial⟩
        all_goals
          dsimp only
          omega
      | update again touch =>
        unfold Pipe.call at hq
        dsimp only at hq
        split at hq
        · rename_i h1
          cases hq
          exact hupd _ _ _ _ _ h h1
        · rename_i h1
          cases hq
          exact hupd _ _ _ _ _ h h1
        · cases hq
    · cases hx

/-- If a call has told the filter that its settings changed, and there is no `Update()` after it, the next `Update()` runs
the filter with the settings and the input asked for. -/
theorem Pipe.update_after_set {S M : Type} {run : S → M → Option (Except Fail M × S)} {nothing : M} (rel : S → S → Prop)
    {cs cs' : List (PipeCall S M)} {g : S → S} {s : S} {m : M} (hno : ∀ again touch, PipeCall.update again touch ∉ cs')
    (hg : ∀ q, (Pipe.new s m nothing).calls run nothing cs = some q → rel (g q.members) (g (asked s m cs).1))
    (hset : ∀ tells g, PipeCall.set tells g ∈ cs' → ∀ s a, rel s a → rel (g s) (g a))
    {p p' : Pipe S M} {again touch : Bool}
    (hx : (Pipe.new s m nothing).calls run nothing (cs ++ .set (fun _ => true) g :: cs') = some p)
    (hu : p.update run again touch nothing = some (.ok (), p')) :
    ∃ s0, rel s0 (asked s m (cs ++ .set (fun _ => true) g :: cs')).1 ∧
      (run s0 (asked s m (cs ++ .set (fun _ => true) g :: cs')).2).map Prod.fst = some (.ok p'.output) := by
  rw [Pipe.calls_append] at hx
  cases h1 : (Pipe.new s m nothing).calls run nothing cs with
  | none => rw [h1] at hx; cases hx
  | some q0 =>
    rw [h1] at hx
    have hx : (Pipe.calls run nothing cs' { q0 with members := g q0.members, mtime := q0.clock + 1, clock := q0.clock + 1 }) =
        some p := hx
    have hi : q0.Inv (fun _ _ _ => True) := Pipe.calls_order (Pipe.new_inv s m nothing) h1
    have hb1 := hi.mtime
    have hb2 := hi.inputMTime
    have hb3 := hi.infoMTime
    have hb4 := hi.pipelineMTime
    have hb5 := hi.updateMTime
    -- so that the next `Update()` executes
    have hd : Pipe.Inv (fun _ _ _ => False)
        { q0 with members := g q0.members, mtime := q0.clock + 1, clock := q0.clock + 1 } := by
      refine ⟨Nat.le_refl _, ?_, ?_, hb4, ?_, fun hd => (Pipe.dirty_of_new ?_ ?_ hd).elim⟩
      all_goals
        dsimp only
        omega
    rw [Pipe.calls_norun (run' := fun _ _ => none) hno] at hx
    have hs : ∀ c ∈ cs', Pipe.Silent (fun (_ : S) (_ _ : M) => False) c := by
      intro c _
      cases c with
      | set tells g => exact fun _ _ _ _ h => h
      | input m => trivial
      | update again touch => trivial
    have hd' := Pipe.calls_inv (run := fun _ _ => none) (fun _ _ _ _ h => by cases h) (fun _ _ _ _ _ h => by cases h) hs hd hx
    have htr := Pipe.calls_track (run := fun _ _ => none) rel (fun _ _ _ _ _ _ h => by cases h) hset
      (a := g (asked s m cs).1) (hg q0 h1) hx
    have hin : q0.input = (asked s m cs).2 := (Pipe.calls_track (fun _ _ => True) (fun _ _ _ _ _ _ _ => trivial)
      (fun _ _ _ _ _ _ => trivial) (p := Pipe.new s m nothing) (a := s) trivial h1).2
    dsimp only at htr
    rw [hin] at htr
    rw [asked_append]
    change rel p.members (asked (asked s m cs).1 (asked s m cs).2 (.set (fun _ => true) g :: cs')).1 ∧
      p.input = (asked (asked s m cs).1 (asked s m cs).2 (.set (fun _ => true) g :: cs')).2 at htr
    refine ⟨p.members, htr.1, ?_⟩
    rw [← htr.2]
    obtain ⟨e1, e2, e3, e4, e5, e6⟩ := p.updateInformation_same
    unfold Pipe.update at hu
    dsimp only at hu
    have hlt : p.updateInformation.updateMTime < p.updateInformation.pipelineMTime := by
      rw [e4]
      exact Nat.lt_of_not_le hd'.good
    rw [if_pos (Or.inl hlt)] at hu
    unfold Pipe.execute at hu
    rw [e1, e2] at hu
    split at hu
    · cases hu
    · rename_i r s' hr
      dsimp only at hu
      split at hu
      · cases hu
      · cases hu
        rw [hr]; rfl

theorem Pipe.update_dom {S M : Type} {run run' : S → M → Option (Except Fail M × S)} {nothing : M} (dom : S → Prop)
    (heq : ∀ s m, dom s → run s m = run' s m) (hdom : ∀ s m r s', dom s → run s m = some (r, s') → dom s')
    {p : Pipe S M} (h : dom p.members) (again touch : Bool) :
    p.update run again touch nothing = p.update run' again touch nothing ∧
    ∀ r q, p.update run again touch nothing = some (r, q) → dom q.members := by
  obtain ⟨e1, e2, e3, e4, e5, e6⟩ := p.updateInformation_same
  have hx : p.updateInformation.execute run touch nothing = p.updateInformation.execute run' touch nothing := by
    unfold Pipe.execute
    rw [e1, e2, heq _ _ h]
  unfold Pipe.update
  dsimp only
  rw [hx]
  refine ⟨rfl, fun r q hq => ?_⟩
  split at hq
  · rw [← hx] at hq
    unfold Pipe.execute at hq
    rw [e1, e2] at hq
    split at hq
    · cases hq
    · rename_i hr
      dsimp only at hq
      split at hq
      all_goals
        cases hq
        exact hdom _ _ _ _ h hr
  · cases hq
    rw [e1]; exact h

/-- members that start in `dom` stay there, and only what runs do on `dom` matters -/
theorem Pipe.calls_dom {S M : Type} {run run' : S → M → Option (Except Fail M × S)} {nothing : M} (dom : S → Prop)
    (heq : ∀ s m, dom s → run s m = run' s m) (hdom : ∀ s m r s', dom s → run s m = some (r, s') → dom s')
    {cs : List (PipeCall S M)} (hset : ∀ tells g, PipeCall.set tells g ∈ cs → ∀ s, dom s → dom (g s))
    {p : Pipe S M} (h : dom p.members) :
    p.calls run nothing cs = p.calls run' nothing cs ∧ ∀ q, p.calls run nothing cs = some q → dom q.members := by
  induction cs generalizing p with
  | nil => exact ⟨rfl, fun q hq => by cases hq; exact h⟩
  | cons c cs ih =>
    have hc : p.call run nothing c = p.call run' nothing c ∧ ∀ q, p.call run nothing c = some q → dom q.members := by
      cases c with
      | set tells g =>
        refine ⟨rfl, fun q hq => ?_⟩
        have h1 := hset tells g List.mem_cons_self _ h
        unfold Pipe.call at hq
        simp only [Option.some.injEq] at hq
        subst hq
        split <;> exact h1
      | input m => exact ⟨rfl, fun q hq => by cases hq; exact h⟩
      | update again touch =>
        obtain ⟨h1, h2⟩ := Pipe.update_dom (nothing := nothing) dom heq hdom h again touch
        unfold Pipe.call
        dsimp only
        rw [← h1]
        refine ⟨rfl, fun q hq => ?_⟩
        split at hq
        · rename_i h3; cases hq; exact h2 _ _ h3
        · rename_i h3; cases hq; exact h2 _ _ h3
        · cases hq
    have hset' : ∀ tells g, PipeCall.set tells g ∈ cs → ∀ s, dom s → dom (g s) :=
      fun tells g hg => hset tells g (List.mem_cons_of_mem _ hg)
    unfold Pipe.calls
    rw [← hc.1]
    cases hq : p.call run nothing c with
    | none => exact ⟨rfl, fun q h => by cases h⟩
    | some q => exact ih hset' (hc.2 q hq)

/-- `Update()` when there is something to do -/
theorem Pipe.update_executes {S M : Type} {run : S → M → Option (Except Fail M × S)} {nothing : M} {p : Pipe S M}
    {r : Except Fail M} {s' : S} (hd : ¬ p.updateInformation.pipelineMTime ≤ p.updateMTime)
    (hr : run p.members p.input = some (r, s')) (again touch : Bool) :
    ∃ q, p.update run again touch nothing = some (r.map fun _ => (), q) ∧ q.members = s' ∧ q.input = p.input ∧
      ∀ out, r = .ok out → q.output = out := by
  obtain ⟨e1, e2, e3, e4, e5, e6⟩ := p.updateInformation_same
  obtain ⟨t1, t2, -⟩ := p.updateInformation.touched_same touch
  unfold Pipe.update
  dsimp only
  rw [if_pos (Or.inl (by rw [e4]; exact Nat.lt_of_not_le hd))]
  unfold Pipe.execute
  rw [e1, e2, hr]
  cases r with
  | error e => exact ⟨_, rfl, rfl, t2.trans e2, fun out h => by cases h⟩
  | ok out => exact ⟨_, rfl, rfl, t2.trans e2, fun out h => by cases h; rfl⟩

/-- `Update()` when there is nothing to do -/
theorem Pipe.update_skips {S M : Type} {run : S → M → Option (Except Fail M × S)} {nothing : M} {p : Pipe S M}
    (hc : p.updateInformation.pipelineMTime ≤ p.updateMTime) (touch : Bool) :
    p.update run false touch nothing = some (.ok (), p.updateInformation) := by
  obtain ⟨e1, e2, e3, e4, e5, e6⟩ := p.updateInformation_same
  unfold Pipe.update
  dsimp only
  rw [if_neg]
  rw [e4]
  rintro (h | h)
  · exact absurd h (Nat.not_lt.2 hc)
  · cases h

theorem Pipe.clean_of_new {S M : Type} {p : Pipe S M} (h1 : p.mtime ≤ p.updateMTime) (h2 : p.inputMTime ≤ p.updateMTime)
    (h3 : p.pipelineMTime ≤ p.updateMTime) : p.updateInformation.pipelineMTime ≤ p.updateMTime := by
  unfold Pipe.updateInformation
  split
  · exact Nat.max_le.2 ⟨h1, h2⟩
  · exact h3

/-- after an `Update()` that returned there is nothing to do -/
theorem Pipe.update_clean {S M : Type} {run : S → M → Option (Except Fail M × S)} {nothing : M} {p q : Pipe S M}
    {again touch : Bool} (h : p.Inv (fun _ _ _ => True)) (hu : p.update run again touch nothing = some (.ok (), q)) :
    q.updateInformation.pipelineMTime ≤ q.updateMTime := by
  have hi := h.updateInformation
  have hid := Pipe.updateInformation_idem h.mtime h.inputMTime
  unfold Pipe.update at hu
  dsimp only at hu
  split at hu
  · obtain ⟨t1, t2, t3, t4, t5, t6, t7, t8, t9⟩ := p.updateInformation.touched_same touch
    have hb := t9 hi.mtime
    have hb1 := hi.inputMTime
    have hb2 := hi.infoMTime
    have hb3 := hi.pipelineMTime
    unfold Pipe.execute at hu
    split at hu
    · cases hu
    · dsimp only at hu
      split at hu
      · cases hu
      · cases hu
        refine Pipe.clean_of_new ?_ ?_ ?_
        all_goals
          dsimp only
          omega
  · rename_i hn
    cases hu
    rw [hid]
    exact Nat.le_of_not_lt fun hlt => hn (Or.inl hlt)

/-- a call that says `Modified()` leaves something to do -/
theorem Pipe.input_dirty {S M : Type} {p : Pipe S M} (h : p.Inv (fun _ _ _ => True)) (m : M) :
    ¬ (Pipe.updateInformation { p with input := m, inputMTime := p.clock + 1, clock := p.clock + 1 }).pipelineMTime ≤ p.updateMTime := by
  have hb1 := h.mtime
  have hb3 := h.infoMTime
  have hb5 := h.updateMTime
  refine Pipe.dirty_of_new (p := { p with input := m, inputMTime := p.clock + 1, clock := p.clock + 1 }) ?_ ?_
  all_goals
    dsimp only
    omega

theorem Pipe.set_dirty {S M : Type} {p : Pipe S M} (h : p.Inv (fun _ _ _ => True)) (s : S) :
    ¬ (Pipe.updateInformation { p with members := s, mtime := p.clock + 1, clock := p.clock + 1 }).pipelineMTime ≤ p.updateMTime := by
  have hb2 := h.inputMTime
  have hb3 := h.infoMTime
  have hb5 := h.updateMTime
  refine Pipe.dirty_of_new (p := { p with members := s, mtime := p.clock + 1, clock := p.clock + 1 }) ?_ ?_
  all_goals
    dsimp only
    omega

end Verif
