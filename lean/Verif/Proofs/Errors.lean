import Verif.Spec.Errors
import Verif.Proofs.Failures
import Verif.Proofs.UniformKept
/-
What filter objects hold after a run that ended with an exception.
-/
namespace Verif
set_option linter.unusedSectionVars false
variable {K P D : Type}

/-- the program keeps the list of cells, also when it fails -/
def KeptCells {α : Type} (p : M P D α) : Prop := ∀ s, (p s).2.filt.cells = s.filt.cells

namespace KeptCells
variable {α β : Type}

theorem pure (a : α) : KeptCells (P := P) (D := D) (Prog.pure a) := fun _ => rfl
theorem fail (e : Fail) : KeptCells (P := P) (D := D) (Prog.fail e : M P D α) := fun _ => rfl
theorem lift (r : Except Fail α) : KeptCells (P := P) (D := D) (Prog.lift r) := fun _ => rfl
theorem modifyOut (g : Mesh P D → Mesh P D) : KeptCells (Verif.modifyOut g) := fun _ => rfl

theorem bind {p : M P D α} {f : α → M P D β} (hp : KeptCells p) (hf : ∀ a, KeptCells (f a)) : KeptCells (Prog.bind p f) := by
  intro s
  have h := hp s
  unfold Prog.bind
  rcases hq : p s with ⟨_ | a, s'⟩
  · rw [hq] at h; exact h
  · rw [hq] at h; exact (hf a s').trans h

theorem forEach {f : α → M P D Unit} (hf : ∀ a, KeptCells (f a)) (l : List α) : KeptCells (Prog.forEach f l) := by
  induction l with
  | nil => exact pure ()
  | cons x l ih => exact bind (hf x) fun _ => ih

end KeptCells

/-- the program keeps the flag, also when it fails -/
def KeptFlag {α : Type} (p : M P D α) : Prop := ∀ s, (p s).2.filt.uniform = s.filt.uniform

namespace KeptFlag
variable {α β : Type}

theorem bind {p : M P D α} {f : α → M P D β} (hp : KeptFlag p) (hf : ∀ a, KeptFlag (f a)) : KeptFlag (Prog.bind p f) := by
  intro s
  have h := hp s
  unfold Prog.bind
  rcases hq : p s with ⟨_ | a, s'⟩
  · rw [hq] at h; exact h
  · rw [hq] at h; exact (hf a s').trans h

theorem forEach {f : α → M P D Unit} (hf : ∀ a, KeptFlag (f a)) (l : List α) : KeptFlag (Prog.forEach f l) := by
  induction l with
  | nil => exact fun _ => rfl
  | cons x l ih => exact bind (hf x) fun _ => ih

end KeptFlag

/-- the program keeps both -/
def KeptBoth {α : Type} (p : M P D α) : Prop := KeptCells p ∧ KeptFlag p

namespace KeptBoth
variable {α β : Type}

theorem same {p : M P D α} (h : ∀ s, (p s).2.filt.cells = s.filt.cells ∧ (p s).2.filt.uniform = s.filt.uniform) : KeptBoth p :=
  ⟨fun s => (h s).1, fun s => (h s).2⟩
theorem pure (a : α) : KeptBoth (P := P) (D := D) (Prog.pure a) := same fun _ => ⟨rfl, rfl⟩
theorem fail (e : Fail) : KeptBoth (P := P) (D := D) (Prog.fail e : M P D α) := same fun _ => ⟨rfl, rfl⟩
theorem lift (r : Except Fail α) : KeptBoth (P := P) (D := D) (Prog.lift r) := same fun _ => ⟨rfl, rfl⟩
theorem modifyOut (g : Mesh P D → Mesh P D) : KeptBoth (Verif.modifyOut g) := same fun _ => ⟨rfl, rfl⟩
theorem bind {p : M P D α} {f : α → M P D β} (hp : KeptBoth p) (hf : ∀ a, KeptBoth (f a)) : KeptBoth (Prog.bind p f) :=
  ⟨KeptCells.bind hp.1 fun a => (hf a).1, KeptFlag.bind hp.2 fun a => (hf a).2⟩
theorem forEach {f : α → M P D Unit} (hf : ∀ a, KeptBoth (f a)) (l : List α) : KeptBoth (Prog.forEach f l) :=
  ⟨KeptCells.forEach (fun a => (hf a).1) l, KeptFlag.forEach (fun a => (hf a).2) l⟩

end KeptBoth

theorem setEpi_both (e : Edge) (n : PId) : KeptBoth (P := P) (D := D) (setEpi e n) := KeptBoth.same fun _ => ⟨rfl, rfl⟩

section points
variable [Field K] [Zero P] [Add P] [SMul K P]

theorem requireTriangle_both (c : Option Cell) : KeptBoth (P := P) (D := D) (requireTriangle c) := by
  unfold requireTriangle
  split
  · exact KeptBoth.fail _
  · split
    · exact KeptBoth.pure _
    · exact KeptBoth.fail _

theorem addEdgePoint_both (inp : Mesh P D) (np : Edge → Except Fail P) (a b n : PId) : KeptBoth (addEdgePoint inp np a b n) := by
  unfold addEdgePoint
  split
  · exact KeptBoth.fail _
  · rename_i e _
    have h : KeptBoth (Prog.bind (Prog.lift (np e)) fun p => Prog.bind (setEpi e n) fun _ => Prog.bind (setEpi e.sym n) fun _ =>
        Prog.bind (modifyOut fun o => o.setPoint n p) fun _ => Prog.pure (n + 1) : M P D PId) :=
      KeptBoth.bind (KeptBoth.lift _) fun p => KeptBoth.bind (setEpi_both _ _) fun _ =>
        KeptBoth.bind (setEpi_both _ _) fun _ => KeptBoth.bind (KeptBoth.modifyOut _) fun _ => KeptBoth.pure _
    refine KeptBoth.same fun s => ?_
    by_cases hs : (s.filt.epi e).isSome = true
    · simp only [if_pos hs, and_self]
    · simp only [if_neg hs]
      exact ⟨h.1 s, h.2 s⟩

theorem addThree_both (inp : Mesh P D) (np : Edge → Except Fail P) (c : Option Cell) : KeptBoth (addThree inp np c) :=
  KeptBoth.bind (requireTriangle_both c) fun _ => KeptBoth.bind (KeptBoth.same fun _ => ⟨rfl, rfl⟩) fun _ =>
    KeptBoth.bind (addEdgePoint_both inp np _ _ _) fun _ => KeptBoth.bind (addEdgePoint_both inp np _ _ _) fun _ =>
    KeptBoth.bind (addEdgePoint_both inp np _ _ _) fun _ => KeptBoth.pure ()

theorem linearAddNew_both (inp : Mesh P D) (c : Option Cell) : KeptBoth (linearAddNew K inp c) :=
  KeptBoth.bind (requireTriangle_both c) fun _ => KeptBoth.bind (KeptBoth.same fun _ => ⟨rfl, rfl⟩) fun _ =>
    KeptBoth.bind (KeptBoth.same fun _ => ⟨rfl, rfl⟩) fun _ => KeptBoth.bind (KeptBoth.same fun _ => ⟨rfl, rfl⟩) fun _ =>
    KeptBoth.bind (KeptBoth.same fun _ => ⟨rfl, rfl⟩) fun _ =>
    KeptBoth.bind (addEdgePoint_both inp _ _ _ _) fun _ => KeptBoth.bind (addEdgePoint_both inp _ _ _ _) fun _ =>
    KeptBoth.bind (addEdgePoint_both inp _ _ _ _) fun _ => KeptBoth.pure ()

theorem sq3AddNew_both (inp : Mesh P D) (c : Option Cell) : KeptBoth (sq3AddNew K inp c) := by
  refine KeptBoth.bind (requireTriangle_both c) fun _ => KeptBoth.bind (KeptBoth.lift _) fun _ => KeptBoth.bind (KeptBoth.lift _) fun _ =>
    KeptBoth.bind (KeptBoth.lift _) fun _ => KeptBoth.bind (KeptBoth.same fun _ => ⟨rfl, rfl⟩) fun _ =>
    KeptBoth.bind (KeptBoth.modifyOut _) fun _ => KeptBoth.forEach (fun xy => ?_) _
  split
  · exact KeptBoth.pure ()
  · rename_i e _
    refine KeptBoth.same fun s => ?_
    by_cases hs : (s.filt.epi e).isSome = true
    · simp only [if_pos hs, and_self]
    · simp only [if_neg hs]
      exact ⟨rfl, rfl⟩

/-- if the step returns, or fails with an exception, `Post` holds of the state it leaves -/
def ExcPost {σ α : Type} (Post : σ → Prop) (r : Except Fail α × σ) : Prop :=
  match r with
  | (.ok _, s') => Post s'
  | (.error (.exc _), s') => Post s'
  | _ => True

namespace ExcPost
variable {σ α β : Type} {Post : σ → Prop}

theorem always {r : Except Fail α × σ} (h : Post r.2) : ExcPost Post r := by
  rcases r with ⟨(_ | _ | _) | _, s'⟩
  · exact h
  · trivial
  · trivial
  · exact h

theorem bind_ok {p : Prog σ α} {f : α → Prog σ β} {s s' : σ} {a : α} (h : p s = (.ok a, s')) (h' : ExcPost Post (f a s')) :
    ExcPost Post (Prog.bind p f s) := by
  rw [Prog.bind_ok h]; exact h'

theorem bind_bad {p : Prog σ α} {f : α → Prog σ β} {s s' : σ} {e : Fail} (h : p s = (.error e, s')) (h' : IsUBorHang e) :
    ExcPost Post (Prog.bind p f s) := by
  have : Prog.bind p f s = (.error e, s') := by unfold Prog.bind; rw [h]
  rw [this]
  rcases h' with ⟨u, rfl⟩ | rfl <;> trivial

end ExcPost

/-- after the point phase, if it returns or throws, the list is as before and the flag tells whether it is empty -/
theorem generateOutputPoints_exc {inp : Mesh P D} {f : Filt} {copy : M P D Unit} {addNew : Option Cell → M P D Unit}
    (hcopy : Hoare (fun s : St P D => s = ⟨f, Mesh.empty⟩) IsUBorHang (fun _ s => s.filt = f) copy)
    (hn : ∀ c, KeptBoth (addNew c)) :
    ExcPost (fun s => s.filt.cells = f.cells ∧ s.filt.uniform = f.cells.isEmpty)
      (generateOutputPoints copy addNew inp ⟨f, Mesh.empty⟩) := by
  have h0 := hcopy ⟨f, Mesh.empty⟩ rfl
  rcases hc : copy ⟨f, Mesh.empty⟩ with ⟨e | _, s⟩
  · rw [hc] at h0
    exact ExcPost.bind_bad hc h0
  · rw [hc] at h0
    have hs : s.filt = f := h0
    refine ExcPost.bind_ok hc (ExcPost.bind_ok rfl (ExcPost.bind_ok rfl (ExcPost.always ?_)))
    have all := KeptBoth.forEach (fun c : CId × Option Cell => hn c.2) inp.cells
    have listed := fun l => KeptBoth.forEach (f := fun id => match inp.cells.find? id with
            | none => (Prog.fail (.ub .missingKey) : M P D Unit)
            | some none => Prog.pure ()
            | some (some c) => addNew (some c)) (fun id => by
      split
      · exact KeptBoth.fail _
      · exact KeptBoth.pure _
      · exact hn _) l
    subst hs
    simp only
    split
    · exact ⟨all.1 _, all.2 _⟩
    · exact ⟨(listed _).1 _, (listed _).2 _⟩

/-- a cell filter that ends with an exception holds the list it had, and its flag tells whether that is empty -/
theorem cellUpdate_exc {sch : Scheme} {lib : QELib} {cosn : Nat → K} {f f' : Filt} {inp : Mesh P D} {e : Exc}
    (h : cellUpdate sch lib cosn f inp = (.error (.exc e), f')) : f'.cells = f.cells ∧ f'.uniform = f.cells.isEmpty := by
  have hcp : Hoare (fun s : St P D => s = ⟨f, Mesh.empty⟩) IsUBorHang (fun _ s => s.filt = f) (copyPoints inp) :=
    (copyPoints_hoare inp f _).mono (fun _ h => h) (fun _ h => h) fun _ _ h => h.1
  have key : ExcPost (fun s => s.filt.cells = f.cells ∧ s.filt.uniform = f.cells.isEmpty)
      (cellPoints sch cosn inp ⟨f, Mesh.empty⟩) := by
    cases sch with
    | linear => exact generateOutputPoints_exc hcp (linearAddNew_both inp)
    | loop =>
      refine generateOutputPoints_exc ((loopCopy_hoare cosn inp f (Q := IsUBorHang)
        (fun _ _ => smoothingPoint_err (fun u => Or.inl ⟨u, rfl⟩) (Or.inr rfl) cosn inp _ _)
        (loopSmoothSet_err (fun u => Or.inl ⟨u, rfl⟩) inp _)).mono (fun _ h => h) (fun _ h => h) fun _ _ h => h.1)
        (addThree_both inp _)
    | butterfly => exact generateOutputPoints_exc hcp (addThree_both inp _)
    | sqrt3 => exact generateOutputPoints_exc hcp (sq3AddNew_both inp)
  unfold cellUpdate at h
  rw [cellGenerate_phases] at h
  unfold runFilter generateData at h
  unfold ExcPost at key
  rcases hp : cellPoints sch cosn inp ⟨f, Mesh.empty⟩ with ⟨e' | _, s⟩
  · rw [hp] at key
    have hb : Prog.bind (cellPoints sch cosn inp) (fun _ => cellCells sch inp) ⟨f, Mesh.empty⟩ = (.error e', s) := by
      unfold Prog.bind; rw [hp]
    rw [hb] at h
    cases h
    exact key
  · rw [Prog.bind_ok hp] at h
    have hc := cellCells_hoare sch inp s trivial
    rcases hr : cellCells sch inp s with ⟨e' | _, s'⟩
    · rw [hr] at h hc
      cases h
      rcases hc with ⟨u, hu⟩ | hu <;> cases hu
    · rw [hr] at h
      cases h

end points

section cond
variable [Zero P] [Add P] {S ι : Type} {upd : S → List ι → Mesh P D → Except Fail (Mesh P D) × S}
  {crit : Mesh P D → Prog (List ι) Unit}

/-- the loop ends with an error exactly if, after some complete rounds, a part ends with it -/
theorem condLoop_error {e : Fail} {c c' : Cond S ι} {m : Mesh P D} {n : Nat}
    (h : condLoop upd crit n c m = some (.error e, c')) :
    ∃ k c₁ m₁, k < n ∧ CondRounds upd crit k c m c₁ m₁ ∧ RoundFails upd crit c₁ m₁ e c' := by
  induction n generalizing c m with
  | zero =>
    by_cases hs : c.sel = []
    · rw [condLoop_done hs] at h; cases h
    · rw [condLoop_zero hs] at h; cases h
  | succ n ih =>
    by_cases hs : c.sel = []
    · rw [condLoop_done hs] at h; cases h
    · have hne : ¬ c.sel.isEmpty = true := by simpa using hs
      unfold condLoop at h
      rw [if_neg hne] at h
      dsimp only at h
      rcases hu : upd c.inner c.sel m with ⟨_ | m', s'⟩
      · rw [hu] at h
        cases h
        exact ⟨0, c, m, by omega, .none _ _, .inner hs hu⟩
      · rw [hu] at h
        dsimp only at h
        rcases hk : crit m' c.sel with ⟨_ | _, sel'⟩
        · rw [hk] at h
          cases h
          exact ⟨0, c, m, by omega, .none _ _, .criterion hs hu hk⟩
        · rw [hk] at h
          obtain ⟨k, c₁, m₁, h1, h2, h3⟩ := ih h
          exact ⟨k + 1, c₁, m₁, by omega, .more hs hu hk h2, h3⟩

theorem condLoop_error_of {e : Fail} {c c' c₁ : Cond S ι} {m m₁ : Mesh P D} {k : Nat} (h : CondRounds upd crit k c m c₁ m₁)
    (h' : RoundFails upd crit c₁ m₁ e c') : condLoop upd crit (k + 1) c m = some (.error e, c') := by
  induction h with
  | none c m =>
    cases h' with
    | inner hs hu =>
      unfold condLoop
      rw [if_neg (by simpa using hs)]
      simp only [hu]
    | criterion hs hu hk =>
      unfold condLoop
      rw [if_neg (by simpa using hs)]
      simp only [hu, hk]
  | more hs hu hk _ ih =>
    unfold condLoop
    rw [if_neg (by simpa using hs)]
    simp only [hu, hk]
    exact ih h'

end cond
end Verif
