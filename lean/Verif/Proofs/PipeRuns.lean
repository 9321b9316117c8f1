import Verif.Proofs.Pipeline
import Verif.Spec.Pipeline
import Verif.Proofs.Iterative
import Verif.Proofs.EdgeAlike
import Verif.Proofs.Conditional
/-
What the pipeline needs to know about runs: which members they keep, and on which members they depend.
-/
namespace Verif
set_option linter.unusedSectionVars false
variable {K P D : Type}

/-- the program keeps the list of edges, also when it fails -/
def Kept {α : Type} (p : M P D α) : Prop := ∀ s, (p s).2.filt.edgeSel = s.filt.edgeSel

namespace Kept
variable {α β : Type}

theorem pure (a : α) : Kept (P := P) (D := D) (Prog.pure a) := fun _ => rfl
theorem fail (e : Fail) : Kept (P := P) (D := D) (Prog.fail e : M P D α) := fun _ => rfl
theorem lift (r : Except Fail α) : Kept (P := P) (D := D) (Prog.lift r) := fun _ => rfl
theorem modifyOut (g : Mesh P D → Mesh P D) : Kept (Verif.modifyOut g) := fun _ => rfl
theorem modifyFilt {g : Filt → Filt} (h : ∀ f, (g f).edgeSel = f.edgeSel) : Kept (P := P) (D := D) (Verif.modifyFilt g) :=
  fun s => h s.filt

theorem bind {p : M P D α} {f : α → M P D β} (hp : Kept p) (hf : ∀ a, Kept (f a)) : Kept (Prog.bind p f) := by
  intro s
  have h := hp s
  unfold Prog.bind
  rcases hq : p s with ⟨_ | a, s'⟩
  · rw [hq] at h; exact h
  · rw [hq] at h; exact (hf a s').trans h

theorem forEach {f : α → M P D Unit} (hf : ∀ a, Kept (f a)) (l : List α) : Kept (Prog.forEach f l) := by
  induction l with
  | nil => exact pure ()
  | cons x l ih => exact bind (hf x) fun _ => ih

/-- a program that first looks at the state -/
theorem look {p : St P D → M P D α} (h : ∀ u, Kept (p u)) : Kept (fun s => p s s) := fun s => h s s

end Kept

theorem addFace_kept (a b c : PId) : Kept (P := P) (D := D) (addFace a b c) := fun _ => rfl

theorem passCellData_kept (inp : Mesh P D) (id : CId) (e : Option Edge) : Kept (P := P) (passCellData inp id e) := by
  intro s
  unfold passCellData
  split
  · rfl
  split
  · rfl
  split
  · rfl
  split <;> rfl

theorem addPass_kept (inp : Mesh P D) (id : CId) (a b c : PId) : Kept (P := P) (addPass inp id a b c) :=
  Kept.bind (addFace_kept a b c) fun _ => Kept.bind (passCellData_kept inp id _) fun _ => Kept.pure _

theorem pushChild_kept (q : Option Edge) : Kept (P := P) (D := D) (pushChild q) := by
  intro s
  unfold pushChild
  split
  · rfl
  split <;> rfl

theorem readEdge_kept (sp : Split) (i : Nat) : Kept (P := P) (D := D) (sp.readEdge i) := by
  intro s
  unfold Split.readEdge
  split <;> rfl

local macro "keep" : tactic => `(tactic| repeat (first
  | exact Kept.pure _
  | exact Kept.fail _
  | refine Kept.bind (readEdge_kept _ _) fun _ => ?_
  | refine Kept.bind (addPass_kept _ _ _ _ _) fun _ => ?_
  | refine Kept.bind (pushChild_kept _) fun _ => ?_))

theorem splitOne_kept (inp : Mesh P D) (sp : Split) (ii : Nat) (id : CId) : Kept (P := P) (splitOne inp sp ii id) := by
  unfold splitOne
  keep

theorem splitTwo_kept (inp : Mesh P D) (sp : Split) (ii jj : Nat) (id : CId) : Kept (P := P) (splitTwo inp sp ii jj id) := by
  unfold splitTwo
  simp only
  split
  · keep
  split
  · keep
  split
  · keep
  · keep

theorem splitThree_kept (inp : Mesh P D) (sp : Split) (u : Bool) (id : CId) : Kept (P := P) (splitThree inp sp u id) := by
  unfold splitThree
  simp only
  keep
  split
  · keep
  · keep

theorem outputCellsOfTriangle_kept (inp : Mesh P D) (id : CId) (t : PId × PId × PId) :
    Kept (P := P) (outputCellsOfTriangle inp id t) := by
  intro s
  unfold outputCellsOfTriangle
  simp only
  split
  · exact Kept.bind (addPass_kept inp id _ _ _) (fun _ => Kept.pure ()) s
  · exact splitOne_kept inp _ _ _ s
  · exact splitTwo_kept inp _ _ _ _ s
  · exact splitThree_kept inp _ _ _ s

theorem generateOutputCells_kept (inp : Mesh P D) : Kept (P := P) (generateOutputCells inp) := by
  refine Kept.bind (Kept.modifyFilt fun _ => rfl) fun _ => Kept.forEach (fun c => ?_) _
  split
  · exact Kept.fail _
  · unfold actCell
    split
    · exact outputCellsOfTriangle_kept inp _ _
    · exact Kept.pure ()

section points
variable [Field K] [Zero P] [Add P] [SMul K P]

theorem addNewEdgePoint_kept (np : Edge → Except Fail P) (e : Edge) : Kept (D := D) (addNewEdgePoint np e) :=
  Kept.bind (Kept.lift _) fun _ => Kept.bind (fun _ => rfl) fun _ => Kept.bind (Kept.modifyFilt fun _ => rfl) fun _ =>
    Kept.bind (Kept.modifyFilt fun _ => rfl) fun _ => Kept.modifyOut _

theorem writePoints_kept (val : PId → P → Except Fail P) (l : List (PId × P)) : Kept (D := D) (writePoints val l) :=
  Kept.forEach (fun _ => Kept.bind (Kept.lift _) fun _ => Kept.modifyOut _) l

theorem loopEdgeCopy_kept (cosn : Nat → K) (inp : Mesh P D) : Kept (loopEdgeCopy cosn inp) :=
  Kept.bind (Kept.modifyOut _) fun _ => Kept.look fun _ => writePoints_kept _ _

theorem edgeOutputPoints_kept {copy : M P D Unit} {addNew : Edge → M P D Unit} (inp : Mesh P D)
    (hc : Kept copy) (hn : ∀ e, Kept (addNew e)) : Kept (edgeOutputPoints copy addNew inp) := by
  refine Kept.bind hc fun _ => Kept.bind (Kept.modifyFilt fun _ => rfl) fun _ =>
    Kept.bind (Kept.modifyFilt fun _ => rfl) fun _ => ?_
  intro s
  dsimp only
  split
  · split
    · exact Kept.forEach hn _ s
    · rfl
  · refine Kept.forEach (fun oe => ?_) _ s
    split
    · exact hn _
    · exact Kept.pure ()

/-- an edge filter keeps its list in every run, also in one that fails, on any mesh -/
theorem edgeUpdate_kept (sch : EdgeScheme) (lib : QELib) (cosn : Nat → K) (f : Filt) (inp : Mesh P D) :
    (edgeUpdate sch lib cosn f inp).2.edgeSel = f.edgeSel := by
  have key : Kept (edgeGenerate sch cosn inp) := by
    cases sch with
    | linear => exact Kept.bind (edgeOutputPoints_kept inp (Kept.modifyOut _) (addNewEdgePoint_kept _)) fun _ => generateOutputCells_kept inp
    | loop => exact Kept.bind (edgeOutputPoints_kept inp (loopEdgeCopy_kept cosn inp) (addNewEdgePoint_kept _)) fun _ => generateOutputCells_kept inp
    | butterfly => exact Kept.bind (edgeOutputPoints_kept inp (Kept.modifyOut _) (addNewEdgePoint_kept _)) fun _ => generateOutputCells_kept inp
  have h := key ⟨f, Mesh.empty⟩
  unfold edgeUpdate runFilter
  split
  · rename_i hs; rw [hs] at h; exact h
  · rename_i hs; rw [hs] at h; exact h

/-- the result of the loop does not depend on the inner filter object, if that of one step does not -/
theorem condLoop_inner {S ι : Type} {upd : S → List ι → Mesh P D → Except Fail (Mesh P D) × S}
    {crit : Mesh P D → Prog (List ι) Unit} (hu : ∀ s s' sel m, (upd s sel m).1 = (upd s' sel m).1) (n : Nat) (s s' : S)
    (sel : List ι) (cur : Mesh P D) :
    (condLoop upd crit n ⟨s, sel⟩ cur).map Prod.fst = (condLoop upd crit n ⟨s', sel⟩ cur).map Prod.fst := by
  induction n generalizing s s' sel cur with
  | zero =>
    by_cases hs : sel = []
    · rw [condLoop_done (c := ⟨s, sel⟩) hs, condLoop_done (c := ⟨s', sel⟩) hs]; rfl
    · rw [condLoop_zero (c := ⟨s, sel⟩) hs, condLoop_zero (c := ⟨s', sel⟩) hs]
  | succ n ih =>
    by_cases hs : sel = []
    · rw [condLoop_done (c := ⟨s, sel⟩) hs, condLoop_done (c := ⟨s', sel⟩) hs]; rfl
    · have hne : ¬ sel.isEmpty = true := by simpa using hs
      have h := hu s s' sel cur
      unfold condLoop
      rw [if_neg hne, if_neg hne]
      dsimp only
      rcases h1 : upd s sel cur with ⟨r, t⟩
      rcases h2 : upd s' sel cur with ⟨r', t'⟩
      rw [h1, h2] at h
      dsimp only at h
      subst h
      cases r with
      | error e => rfl
      | ok m =>
        dsimp only
        rcases crit m sel with ⟨_ | _, sel'⟩
        · rfl
        · exact ih t t' sel' m

theorem condGenerate_members {S ι : Type} {upd : S → List ι → Mesh P D → Except Fail (Mesh P D) × S}
    {crit : Mesh P D → Prog (List ι) Unit} (hu : ∀ s s' sel m, (upd s sel m).1 = (upd s' sel m).1)
    (hc : ∀ m l l', crit m l = crit m l') (lib : QELib) (n : Nat) (c c' : Cond S ι) (inp : Mesh P D) :
    (condGenerate lib upd (some crit) n c inp).map Prod.fst = (condGenerate lib upd (some crit) n c' inp).map Prod.fst := by
  unfold condGenerate
  dsimp only
  rw [hc _ c.sel c'.sel]
  rcases crit (copyGeometry lib inp) c'.sel with ⟨_ | _, sel⟩
  · rfl
  · exact condLoop_inner hu n _ _ sel _

end points

/-- `members` are as if the runs had not been, up to `rel` -/
theorem Pipe.calls_track {S M : Type} {run : S → M → Option (Except Fail M × S)} {nothing : M} (rel : S → S → Prop)
    (hrun : ∀ s a m r s', rel s a → run s m = some (r, s') → rel s' a) {cs : List (PipeCall S M)}
    (hset : ∀ tells g, PipeCall.set tells g ∈ cs → ∀ s a, rel s a → rel (g s) (g a)) {p p' : Pipe S M} {a : S}
    (h : rel p.members a) (hx : p.calls run nothing cs = some p') :
    rel p'.members (asked a p.input cs).1 ∧ p'.input = (asked a p.input cs).2 := by
  have hupd : ∀ (p : Pipe S M) (a : S) (again touch : Bool) (r : Except Fail Unit) (q : Pipe S M), rel p.members a →
      p.update run again touch nothing = some (r, q) → rel q.members a ∧ q.input = p.input := by
    intro p a again touch r q h hq
    obtain ⟨e1, e2, e3, e4, e5, e6⟩ := p.updateInformation_same
    unfold Pipe.update at hq
    dsimp only at hq
    split at hq
    · unfold Pipe.execute at hq
      rw [e1, e2] at hq
      obtain ⟨t1, t2, -⟩ := p.updateInformation.touched_same touch
      split at hq
      · cases hq
      · rename_i r' s hr
        dsimp only at hq
        split at hq
        all_goals
          cases hq
          exact ⟨hrun _ _ _ _ _ h hr, t2.trans e2⟩
    · cases hq
      rw [e1]; exact ⟨h, e2⟩
  induction cs generalizing p a with
  | nil => cases hx; exact ⟨h, rfl⟩
  | cons c cs ih =>
    have hset' : ∀ tells g, PipeCall.set tells g ∈ cs → ∀ s a, rel s a → rel (g s) (g a) :=
      fun tells g hg => hset tells g (List.mem_cons_of_mem _ hg)
    unfold Pipe.calls at hx
    split at hx
    · rename_i q hq
      cases c with
      | set tells g =>
        have h1 := hset tells g List.mem_cons_self _ _ h
        unfold Pipe.call at hq
        simp only [Option.some.injEq] at hq
        have hm : q.members = g p.members ∧ q.input = p.input := by
          subst hq
          split <;> exact ⟨rfl, rfl⟩
        have := ih hset' (p := q) (a := g a) (by rw [hm.1]; exact h1) hx
        rw [hm.2] at this
        exact this
      | input m =>
        unfold Pipe.call at hq
        simp only [Option.some.injEq] at hq
        subst hq
        exact ih hset' (p := { p with input := m, inputMTime := p.clock + 1, clock := p.clock + 1 }) (a := a) h hx
      | update again touch =>
        unfold Pipe.call at hq
        dsimp only at hq
        split at hq
        · rename_i h1
          cases hq
          obtain ⟨h2, h3⟩ := hupd _ _ _ _ _ _ h h1
          have := ih hset' h2 hx
          rw [h3] at this
          exact this
        · rename_i h1
          cases hq
          obtain ⟨h2, h3⟩ := hupd _ _ _ _ _ _ h h1
          have := ih hset' h2 hx
          rw [h3] at this
          exact this
        · cases hq
    · cases hx

/-- A call of `Update()` that returns leaves what a run of a fresh object with the settings asked for would give, if runs
keep the settings (up to `rel`) and their results depend on nothing else. -/
theorem Pipe.up_to_date {S M : Type} {run : S → M → Option (Except Fail M × S)} {nothing : M} (rel : S → S → Prop)
    (hrefl : ∀ s, rel s s)
    (hkeep : ∀ s a m r s', rel s a → run s m = some (r, s') → rel s' a)
    (hres : ∀ s a m, rel s a → (run s m).map Prod.fst = (run a m).map Prod.fst)
    {cs : List (PipeCall S M)} (hset : ∀ tells g, PipeCall.set tells g ∈ cs → ∀ s a, rel s a → rel (g s) (g a))
    (hsilent : ∀ tells g, PipeCall.set tells g ∈ cs → ∀ s, tells s = false → rel (g s) s)
    {s : S} {m : M} {p p' : Pipe S M} (hx : (Pipe.new s m nothing).calls run nothing cs = some p) {again touch : Bool}
    (hu : p.update run again touch nothing = some (.ok (), p')) :
    (run (asked s m cs).1 (asked s m cs).2).map Prod.fst = some (.ok p'.output) := by
  let good : S → M → M → Prop := fun s m out => (run s m).map Prod.fst = some (.ok out)
  have hrun : ∀ s m out s', run s m = some (.ok out, s') → good s' m out := by
    intro s m out s' h
    show (run s' m).map Prod.fst = _
    rw [hres s' s m (hkeep _ _ _ _ _ (hrefl s) h), h]; rfl
  have hfail : ∀ s m e s' out, run s m = some (.error e, s') → ¬ good s m out := by
    intro s m e s' out h hg
    have hg : (run s m).map Prod.fst = some (.ok out) := hg
    rw [h] at hg
    cases hg
  have hs : ∀ c ∈ cs, Pipe.Silent good c := by
    intro c hc
    cases c with
    | set tells g =>
      intro s m out ht hg
      show (run (g s) m).map Prod.fst = _
      rw [hres _ s m (hsilent tells g hc s ht)]; exact hg
    | input m => trivial
    | update again touch => trivial
  have hi := Pipe.calls_inv hrun hfail hs (Pipe.new_inv s m nothing) hx
  obtain ⟨-, -, hgood⟩ := Pipe.update_inv hrun hfail hi hu
  have hgood : (run p'.members p'.input).map Prod.fst = some (.ok p'.output) := hgood rfl
  -- one more call
  have hx' : (Pipe.new s m nothing).calls run nothing (cs ++ [.update again touch]) = some p' := by
    have app : ∀ (cs : List (PipeCall S M)) (q : Pipe S M), q.calls run nothing cs = some p →
        q.calls run nothing (cs ++ [.update again touch]) = some p' := by
      intro cs
      induction cs with
      | nil =>
        intro q hq
        cases hq
        show (match p.call run nothing (.update again touch) with
          | some q => Pipe.calls run nothing [] q
          | none => none) = _
        have : p.call run nothing (.update again touch) = some p' := by
          unfold Pipe.call
          dsimp only
          rw [hu]
        rw [this]; rfl
      | cons c cs ih =>
        intro q hq
        unfold Pipe.calls at hq
        rw [List.cons_append]
        unfold Pipe.calls
        split at hq
        · rename_i r hr
          exact ih r hq
        · cases hq
    exact app cs _ hx
  have htr := Pipe.calls_track rel hkeep (cs := cs ++ [.update again touch])
    (fun tells g hg => hset tells g (by simpa using hg)) (p := Pipe.new s m nothing) (hrefl s) hx'
  have hask : asked s m (cs ++ [.update again touch]) = asked s m cs := by
    unfold asked
    rw [List.foldl_append]; rfl
  change rel p'.members (asked s m (cs ++ [.update again touch])).1 ∧ p'.input = (asked s m (cs ++ [.update again touch])).2 at htr
  rw [hask] at htr
  rw [← hres _ _ _ htr.1, ← htr.2]
  exact hgood

end Verif
