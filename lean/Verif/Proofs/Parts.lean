import Verif.Proofs.TwoSteps
/-
Runs on several parts of a mesh one after the other, for C96.
-/
namespace Verif
set_option linter.unusedSectionVars false
variable {K P D : Type} [Field K] [Zero P] [Add P] [SMul K P] {lib : QELib} {cosn : Nat → K}

/-- `out` comes from `inp` by runs of filter objects one after the other, whatever their histories: the first has a part of the
cells of `inp` selected, each of the others the cells that are the triangles of a further part -/
inductive InTurn (sch : Scheme) (lib : QELib) (cosn : Nat → K) (inp : Mesh P D) : List (List CId) → Mesh P D → Prop
  | first {s : List CId} {f f' : Filt} {out : Mesh P D} : f.cells = s → cellUpdate sch lib cosn f inp = (.ok out, f') →
      InTurn sch lib cosn inp [s] out
  | next {parts : List (List CId)} {s : List CId} {mid out : Mesh P D} {f f' : Filt} : InTurn sch lib cosn inp parts mid →
      mid.SelOK f.cells → mid.selected f.cells = inp.selected s → cellUpdate sch lib cosn f mid = (.ok out, f') →
      InTurn sch lib cosn inp (parts ++ [s]) out

theorem InTurn.ne_nil {sch : Scheme} {inp out : Mesh P D} {parts : List (List CId)} (h : InTurn sch lib cosn inp parts out) :
    parts ≠ [] := by
  cases h <;> simp

theorem mem_selected_flatten {inp : Mesh P D} {parts : List (List CId)} (hne : ∀ s ∈ parts, s ≠ []) (hp : parts ≠ []) {t : Tri} :
    t ∈ inp.selected parts.flatten ↔ ∃ s ∈ parts, t ∈ inp.selected s := by
  obtain ⟨a, l, rfl⟩ := List.exists_cons_of_ne_nil hp
  have hf : (a :: l).flatten ≠ [] := by
    obtain ⟨k, a', rfl⟩ := List.exists_cons_of_ne_nil (hne a List.mem_cons_self)
    simp
  rw [mem_selected hf]
  constructor
  · rintro ⟨k, hk, h⟩
    obtain ⟨s, hs, hk⟩ := List.mem_flatten.1 hk
    exact ⟨s, hs, (mem_selected (hne s hs)).2 ⟨k, hk, h⟩⟩
  · rintro ⟨s, hs, h⟩
    obtain ⟨k, hk, h⟩ := (mem_selected (hne s hs)).1 h
    exact ⟨k, List.mem_flatten.2 ⟨s, hs, hk⟩, h⟩

theorem flatten_ne_nil {parts : List (List CId)} (hne : ∀ s ∈ parts, s ≠ []) (hp : parts ≠ []) : parts.flatten ≠ [] := by
  obtain ⟨a, l, rfl⟩ := List.exists_cons_of_ne_nil hp
  obtain ⟨k, a', rfl⟩ := List.exists_cons_of_ne_nil (hne a List.mem_cons_self)
  simp

theorem selOK_flatten {inp : Mesh P D} {parts : List (List CId)} (h : ∀ s ∈ parts, inp.SelOK s) : inp.SelOK parts.flatten := by
  intro k hk
  obtain ⟨s, hs, hk⟩ := List.mem_flatten.1 hk
  exact h s hs k hk

end Verif
