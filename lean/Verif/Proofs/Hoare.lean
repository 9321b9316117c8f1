import Verif.Proofs.Schemes
import Verif.Proofs.Sqrt3
import Verif.Proofs.CursorLoop
import Verif.Model.Drivers
import Verif.Spec.Mixed
/-
Which failures a run can end with, on arbitrary meshes.  `Hoare Pre Q Post p`: from a state with `Pre`, the program `p`
returns with `Post` or fails with a failure in `Q`.
-/
namespace Verif
set_option linter.unusedSectionVars false

/-- the outcome of a call returns with `Post` or fails with a failure in `Q` -/
def Outcome {σ α : Type} (Q : Fail → Prop) (Post : α → σ → Prop) (r : Except Fail α × σ) : Prop :=
  match r with
  | (.ok a, s') => Post a s'
  | (.error e, _) => Q e

def Hoare {σ α : Type} (Pre : σ → Prop) (Q : Fail → Prop) (Post : α → σ → Prop) (p : Prog σ α) : Prop :=
  ∀ s, Pre s → Outcome Q Post (p s)

/-- all failures of a computation are in `Q` -/
def ErrIn {α : Type} (Q : Fail → Prop) (r : Except Fail α) : Prop := ∀ e, r = .error e → Q e

namespace ErrIn
variable {α β : Type} {Q : Fail → Prop}

theorem ok (a : α) : ErrIn Q (.ok a) := fun _ h => nomatch h
theorem err {e : Fail} (h : Q e) : ErrIn Q (.error e : Except Fail α) := fun e' h' => by
  cases h'; exact h
theorem of_ok {r : Except Fail α} (h : ∃ a, r = .ok a) : ErrIn Q r := by
  obtain ⟨a, rfl⟩ := h; exact ok a
theorem bind {r : Except Fail α} {f : α → Except Fail β} (h : ErrIn Q r) (hf : ∀ a, ErrIn Q (f a)) : ErrIn Q (r >>= f) := by
  cases r with
  | error e => exact err (h e rfl)
  | ok a => exact hf a
theorem map {r : Except Fail α} {f : α → β} (h : ErrIn Q r) : ErrIn Q (r.map f) := by
  cases r with
  | error e => exact err (h e rfl)
  | ok a => exact ok _

end ErrIn

namespace Hoare
variable {σ α β : Type} {Pre : σ → Prop} {Q : Fail → Prop}

theorem pure {Post : α → σ → Prop} {a : α} (h : ∀ s, Pre s → Post a s) : Hoare Pre Q Post (Prog.pure a) :=
  fun s hs => h s hs

theorem fail {Post : α → σ → Prop} {e : Fail} (h : Q e) : Hoare Pre Q Post (Prog.fail e) := fun _ _ => h

theorem lift {r : Except Fail α} (h : ErrIn Q r) : Hoare Pre Q (fun a s => r = .ok a ∧ Pre s) (Prog.lift r) := by
  intro s hs
  cases r with
  | error e => exact h e rfl
  | ok a => exact ⟨rfl, hs⟩

theorem bind {Mid : α → σ → Prop} {Post : β → σ → Prop} {p : Prog σ α} {f : α → Prog σ β} (h : Hoare Pre Q Mid p)
    (hf : ∀ a, Hoare (Mid a) Q Post (f a)) : Hoare Pre Q Post (Prog.bind p f) := by
  intro s hs
  have h1 := h s hs
  unfold Prog.bind
  rcases hp : p s with ⟨r, s'⟩
  rw [hp] at h1
  cases r with
  | error e => exact h1
  | ok a => exact hf a s' h1

theorem mono {Pre' : σ → Prop} {Q' : Fail → Prop} {Post Post' : α → σ → Prop} {p : Prog σ α} (h : Hoare Pre Q Post p)
    (h1 : ∀ s, Pre' s → Pre s) (h2 : ∀ e, Q e → Q' e) (h3 : ∀ a s, Post a s → Post' a s) : Hoare Pre' Q' Post' p := by
  intro s hs
  have := h s (h1 s hs)
  rcases hp : p s with ⟨r, s'⟩
  rw [hp] at this
  cases r with
  | error e => exact h2 e this
  | ok a => exact h3 a s' this

theorem forEach {f : α → Prog σ Unit} {xs : List α} (h : ∀ x ∈ xs, Hoare Pre Q (fun _ => Pre) (f x)) :
    Hoare Pre Q (fun _ => Pre) (Prog.forEach f xs) := by
  induction xs with
  | nil => exact pure fun _ hs => hs
  | cons x xs ih => exact bind (h x (by simp)) fun _ => ih fun y hy => h y (by simp [hy])

theorem error {Post : α → σ → Prop} {p : Prog σ α} (h : Hoare Pre Q Post p) {s : σ} (hs : Pre s) {e : Fail}
    (he : (p s).1 = .error e) : Q e := by
  have := h s hs
  rcases hp : p s with ⟨r, s'⟩
  rw [hp] at this he
  cases r with
  | error e' => cases he; exact this
  | ok a => cases he

end Hoare

/-- a loop that returns has returned from all its bodies -/
theorem forEach_ok_all {σ α : Type} {f : α → Prog σ Unit} {xs : List α} {s : σ} (h : (Prog.forEach f xs s).1 = .ok ()) :
    ∀ x ∈ xs, ∃ s', (f x s').1 = .ok () := by
  induction xs generalizing s with
  | nil => intro x hx; cases hx
  | cons x xs ih =>
    intro y hy
    simp only [Prog.forEach, Prog.bind] at h
    rcases hr : f x s with ⟨r, s'⟩
    rw [hr] at h
    cases r with
    | error e => cases h
    | ok a =>
      rcases List.mem_cons.1 hy with rfl | hy
      · exact ⟨s, by rw [hr]⟩
      · exact ih h y hy

theorem bind_ok_inv {σ α β : Type} {p : Prog σ α} {f : α → Prog σ β} {s : σ} {b : β} (h : (Prog.bind p f s).1 = .ok b) :
    ∃ a s', p s = (.ok a, s') ∧ (f a s').1 = .ok b := by
  simp only [Prog.bind] at h
  rcases hr : p s with ⟨r, s'⟩
  rw [hr] at h
  cases r with
  | error e => cases h
  | ok a => exact ⟨a, s', rfl, h⟩

theorem runFilter_ok_inv {P D : Type} {lib : QELib} {points cells : M P D Unit} {f : Filt} {out : Mesh P D}
    (h : (runFilter lib (generateData points cells) f).1 = .ok out) :
    ∃ s, points ⟨f, Mesh.empty⟩ = (.ok (), s) ∧ (cells s).1 = .ok () := by
  unfold runFilter at h
  rcases hg : generateData points cells ⟨f, Mesh.empty⟩ with ⟨r, s'⟩
  rw [hg] at h
  cases r with
  | error e => cases h
  | ok a =>
    obtain ⟨_, s, h1, h2⟩ := bind_ok_inv (congrArg Prod.fst hg)
    exact ⟨s, h1, h2⟩

theorem runFilter_hoare {P D : Type} {lib : QELib} {points cells : M P D Unit} {f : Filt} {Q : Fail → Prop}
    {Post : Unit → St P D → Prop} (h : Hoare (fun s => s = ⟨f, Mesh.empty⟩) Q Post points)
    (hc : ∀ s, Post () s → ∀ e, (cells s).1 = .error e → Q e) :
    ErrIn Q (runFilter lib (generateData points cells) f).1 := by
  intro e he
  unfold runFilter at he
  rcases hg : generateData points cells ⟨f, Mesh.empty⟩ with ⟨r, s'⟩
  rw [hg] at he
  cases r with
  | ok a => cases he
  | error e' =>
    cases he
    have h1 := h _ rfl
    unfold generateData Prog.bind at hg
    rcases hp : points ⟨f, Mesh.empty⟩ with ⟨r, s⟩
    rw [hp] at h1 hg
    cases r with
    | error e' => cases hg; exact h1
    | ok a => exact hc s h1 e (congrArg Prod.fst hg)

section cells
variable {P D : Type}

/-- the cell phase ends normally only on meshes of triangles -/
theorem generateOutputCells_ok_inv {inp : Mesh P D} {s : St P D} (h : (generateOutputCells inp s).1 = .ok ()) :
    inp.AllTriangles := by
  obtain ⟨_, s', -, h2⟩ := bind_ok_inv h
  intro c hc
  obtain ⟨s'', h3⟩ := forEach_ok_all h2 c hc
  simp only [skipsCell, asTriangle_eq] at h3
  cases ht : Cell.tri? c.2 with
  | some t => rfl
  | none => rw [ht] at h3; cases h3

theorem sq3OutputCells_ok_inv {inp : Mesh P D} {s : St P D} (h : (sq3OutputCells inp s).1 = .ok ()) :
    inp.AllTriangles := by
  obtain ⟨_, s', -, h2⟩ := bind_ok_inv h
  intro c hc
  obtain ⟨s'', h3⟩ := forEach_ok_all h2 c hc
  obtain ⟨k, oc⟩ := c
  rcases oc with _ | x
  · cases h3
  · cases ht : Cell.tri? (some x) with
    | some t => rfl
    | none =>
      have : sq3Skips (k, some x) = true := by simp [sq3Skips, asTriangle_eq, ht]
      rw [if_pos this] at h3
      cases h3

/-- undefined behaviour -/
def IsUB (e : Fail) : Prop := ∃ u, e = .ub u

theorem pass_hoare (inp : Mesh P D) (id : CId) (qe : Option Edge) :
    Hoare (σ := St P D) (fun _ => True) IsUB (fun _ _ => True) (passCellData inp id qe) := by
  intro s _
  unfold passCellData
  rcases qe with _ | e
  · trivial
  simp only
  split
  · trivial
  split
  · trivial
  split <;> trivial

theorem addPass_hoare (inp : Mesh P D) (id : CId) (a b c : PId) :
    Hoare (σ := St P D) (fun _ => True) IsUB (fun _ _ => True) (addPass inp id a b c) := by
  refine Hoare.bind (Mid := fun _ _ => True) (fun _ _ => trivial) fun e => ?_
  refine Hoare.bind (pass_hoare inp id e) fun _ => ?_
  exact Hoare.pure fun _ _ => trivial

theorem pushChild_hoare (qe : Option Edge) :
    Hoare (σ := St P D) (fun _ => True) IsUB (fun _ _ => True) (pushChild qe : M P D Unit) := by
  intro s _
  unfold pushChild
  rcases qe with _ | e
  · exact ⟨_, rfl⟩
  simp only
  split
  · exact ⟨_, rfl⟩
  · trivial

theorem readEdge_hoare (sp : Split) (ii : Nat) :
    Hoare (σ := St P D) (fun _ => True) IsUB (fun _ _ => True) (sp.readEdge ii : M P D PId) := by
  intro s _
  unfold Split.readEdge
  split
  · trivial
  · exact ⟨_, rfl⟩

/-- the body of the loop of `GenerateOutputCells` returns or has undefined behaviour -/
theorem actCell_hoare (inp : Mesh P D) (c : CId × Option Cell) :
    Hoare (σ := St P D) (fun _ => True) IsUB (fun _ _ => True) (actCell inp c) := by
  unfold actCell
  split
  · rename_i t _
    intro s hs
    have A := addPass_hoare inp c.1
    have B := @readEdge_hoare P D
    have C := @pushChild_hoare P D
    have key : ∀ p : M P D Unit, Hoare (σ := St P D) (fun _ => True) IsUB (fun _ _ => True) p →
        Outcome IsUB (fun _ _ => True) (p s) := fun p hp => hp s trivial
    unfold outputCellsOfTriangle
    simp only
    split
    · exact key _ (Hoare.bind (A _ _ _) fun _ => Hoare.pure fun _ _ => trivial)
    · refine key _ ?_
      unfold splitOne
      exact Hoare.bind (B _ _) fun _ => Hoare.bind (A _ _ _) fun _ => Hoare.bind (A _ _ _) fun _ =>
        Hoare.pure fun _ _ => trivial
    · refine key _ ?_
      unfold splitTwo
      simp only
      split
      · exact Hoare.bind (B _ _) fun _ => Hoare.bind (B _ _) fun _ => Hoare.bind (A _ _ _) fun _ =>
          Hoare.bind (A _ _ _) fun _ => Hoare.bind (A _ _ _) fun _ => Hoare.pure fun _ _ => trivial
      split
      · exact Hoare.bind (B _ _) fun _ => Hoare.bind (B _ _) fun _ => Hoare.bind (A _ _ _) fun _ =>
          Hoare.bind (A _ _ _) fun _ => Hoare.bind (A _ _ _) fun _ => Hoare.pure fun _ _ => trivial
      split
      · exact Hoare.bind (B _ _) fun _ => Hoare.bind (B _ _) fun _ => Hoare.bind (A _ _ _) fun _ =>
          Hoare.bind (A _ _ _) fun _ => Hoare.bind (A _ _ _) fun _ => Hoare.pure fun _ _ => trivial
      · exact Hoare.pure fun _ _ => trivial
    · refine key _ ?_
      unfold splitThree
      refine Hoare.bind (B _ _) fun _ => Hoare.bind (B _ _) fun _ => Hoare.bind (B _ _) fun _ => ?_
      split
      · exact Hoare.bind (A _ _ _) fun _ => Hoare.bind (A _ _ _) fun _ => Hoare.bind (A _ _ _) fun _ =>
          Hoare.bind (A _ _ _) fun _ => Hoare.pure fun _ _ => trivial
      · exact Hoare.bind (A _ _ _) fun _ => Hoare.bind (C _) fun _ => Hoare.bind (A _ _ _) fun _ =>
          Hoare.bind (C _) fun _ => Hoare.bind (A _ _ _) fun _ => Hoare.bind (C _) fun _ => Hoare.bind (A _ _ _) fun _ =>
          Hoare.bind (C _) fun _ => Hoare.pure fun _ _ => trivial
  · exact Hoare.pure fun _ _ => trivial

theorem sq3Emit_hoare (inp : Mesh P D) (u : Bool) (id : CId) (a b c : PId) :
    Hoare (σ := St P D) (fun _ => True) IsUB (fun _ _ => True) (sq3Emit inp u id a b c) := by
  unfold sq3Emit
  refine Hoare.bind (addPass_hoare inp id a b c) fun q => ?_
  split
  · exact Hoare.pure fun _ _ => trivial
  · exact pushChild_hoare q

theorem setEpi_hoare (e : Edge) (id : PId) {Q : Fail → Prop} :
    Hoare (fun _ => True) Q (fun _ _ => True) (setEpi e id : M P D Unit) := fun _ _ => trivial

theorem sq3Darts_hoare (inp : Mesh P D) (u : Bool) (id : CId) (t : PId × PId × PId) (ds : List (PId × PId)) :
    Hoare (σ := St P D) (fun _ => True) IsUB (fun _ _ => True) (sq3Darts inp u id t ds) := by
  induction ds with
  | nil => exact Hoare.pure fun _ _ => trivial
  | cons xy rest ih =>
    intro s _
    have key : ∀ p : M P D Unit, Hoare (σ := St P D) (fun _ => True) IsUB (fun _ _ => True) p →
        Outcome IsUB (fun _ _ => True) (p s) := fun p hp => hp s trivial
    unfold sq3Darts
    split
    · exact key _ (Hoare.bind (addPass_hoare inp id _ _ _) fun _ => Hoare.pure fun _ _ => trivial)
    · split
      · split
        · exact key _ (Hoare.bind (sq3Emit_hoare inp u id _ _ _) fun _ => ih)
        · exact key _ (Hoare.bind (sq3Emit_hoare inp u id _ _ _) fun _ => Hoare.bind (sq3Emit_hoare inp u id _ _ _) fun _ =>
            Hoare.bind (setEpi_hoare _ _) fun _ => ih)
      · exact key _ ih

theorem sq3Act_hoare (inp : Mesh P D) (c : CId × Option Cell) :
    Hoare (σ := St P D) (fun _ => True) IsUB (fun _ _ => True) (sq3Act inp c) := by
  unfold sq3Act
  split
  · exact Hoare.fail ⟨_, rfl⟩
  · split
    · rename_i t _
      exact fun s _ => sq3Darts_hoare inp s.filt.uniform c.1 t (triDarts t) s trivial
    · exact Hoare.pure fun _ _ => trivial

theorem loopOrHang_hoare {α σ : Type} {skip : α → Bool} {act : α → Prog σ Unit} {Q : Fail → Prop}
    (h : ∀ x, Hoare (fun _ => True) Q (fun _ _ => True) (act x)) (hh : Q .hang) (xs : List α) :
    Hoare (fun _ => True) Q (fun _ _ => True) (loopOrHang skip act xs) := by
  refine Hoare.forEach fun x _ => ?_
  split
  · exact Hoare.fail hh
  · exact h x

/-- undefined behaviour or a run without end -/
def IsUBorHang (e : Fail) : Prop := IsUB e ∨ e = .hang

theorem generateOutputCells_hoare (inp : Mesh P D) :
    Hoare (σ := St P D) (fun _ => True) IsUBorHang (fun _ _ => True) (generateOutputCells inp) := by
  refine Hoare.bind (Mid := fun _ _ => True) (fun _ _ => trivial) fun _ => loopOrHang_hoare (fun c => ?_) (Or.inr rfl) _
  exact (actCell_hoare inp c).mono (fun _ h => h) (fun _ h => Or.inl h) fun _ _ h => h

theorem sq3OutputCells_hoare (inp : Mesh P D) :
    Hoare (σ := St P D) (fun _ => True) IsUBorHang (fun _ _ => True) (sq3OutputCells inp) := by
  refine Hoare.bind (Mid := fun _ _ => True) (fun _ _ => trivial) fun _ => loopOrHang_hoare (fun c => ?_) (Or.inr rfl) _
  exact (sq3Act_hoare inp c).mono (fun _ h => h) (fun _ h => Or.inl h) fun _ _ h => h

theorem IsUB.ne_hang {e : Fail} (h : IsUB e) : e ≠ .hang := by
  obtain ⟨u, rfl⟩ := h; exact fun h => nomatch h

/-- the outcome `hang` of the cell phase says that the literal loop does not end for any amount of fuel -/
theorem generateOutputCells_hang_iff (inp : Mesh P D) (s : St P D) :
    (generateOutputCells inp s).1 = .error .hang ↔ ∀ n, generateOutputCellsFuel inp n s = none := by
  refine loopOrHang_hang_iff fun x s he => ?_
  exact ((actCell_hoare inp x).error (s := s) trivial he).ne_hang rfl

theorem sq3OutputCells_hang_iff (inp : Mesh P D) (s : St P D) :
    (sq3OutputCells inp s).1 = .error .hang ↔ ∀ n, sq3OutputCellsFuel inp n s = none := by
  refine loopOrHang_hang_iff fun x s he => ?_
  exact ((sq3Act_hoare inp x).error (s := s) trivial he).ne_hang rfl

end cells
end Verif
