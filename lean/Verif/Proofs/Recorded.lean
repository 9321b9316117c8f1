import Verif.Proofs.Result
import Verif.Proofs.Schemes
import Mathlib.Data.List.Basic
import Mathlib.Data.List.Perm.Subperm
/-
How many cells a selective run records.
-/
namespace Verif
set_option linter.unusedSectionVars false
variable {K P D : Type} [Field K] [Zero P] [Add P] [SMul K P]

theorem pushed_length (k : Nat) (L : List Item) : (pushed k L).length = (L.filter fun x => x.2.2).length := by
  induction L generalizing k with
  | nil => rfl
  | cons x L ih =>
    unfold pushed
    by_cases h : x.2.2 = true
    · rw [if_pos h, List.filter_cons_of_pos (p := fun x : Item => x.2.2) h, List.length_cons, List.length_cons, ih]
    · rw [if_neg h, List.filter_cons_of_neg (p := fun x : Item => x.2.2) h, ih]

theorem four_recorded {μ : Edge → Option PId} (l : List CId) (cells : AMap (Option Cell))
    (h : ∀ c ∈ cells, c.1 ∈ l → ∃ t, Cell.tri? c.2 = some t ∧ allSplit μ t = true) :
    4 * (cells.filter fun c => decide (c.1 ∈ l)).length ≤ ((childItems μ false cells).filter fun x => x.2.2).length := by
  induction cells with
  | nil => simp [childItems]
  | cons c cells ih =>
    have ih := ih fun d hd => h d (List.mem_cons_of_mem _ hd)
    have hcons : childItems μ false (c :: cells) = (match Cell.tri? c.2 with
        | some t => childItemsOf μ false c.1 t
        | none => []) ++ childItems μ false cells := by
      unfold childItems
      exact List.flatMap_cons
    rw [hcons, List.filter_append, List.length_append]
    by_cases hc : c.1 ∈ l
    · obtain ⟨t, ht, hall⟩ := h c List.mem_cons_self hc
      rw [List.filter_cons_of_pos (by simpa using hc), ht]
      have : ((childItemsOf μ false c.1 t).filter fun x => x.2.2).length = 4 := by
        unfold childItemsOf
        rw [List.filter_eq_self.2, List.length_map]
        · exact children_all _ _ ((allSplit_iff _ _).1 hall)
        · intro x hx
          obtain ⟨d, _, rfl⟩ := List.mem_map.1 hx
          simp [hall]
      dsimp only
      rw [this, List.length_cons]
      omega
    · rw [List.filter_cons_of_neg (by simpa using hc)]
      omega

/-- The list that a selective run of Linear, Loop or ModifiedButterfly records names at least four cells for each cell that
was selected. -/
theorem recorded_length {sch : Scheme} (hs : sch ≠ .sqrt3) {lib : QELib} {cosn : Nat → K} {f f' : Filt} {inp out : Mesh P D}
    (hn : sch.Needs inp) (hsel : inp.SelOK f.cells) (hne : f.cells ≠ []) (hd : f.cells.Nodup)
    (h : cellUpdate sch lib cosn f inp = (.ok out, f')) : 4 * f.cells.length ≤ f'.cells.length := by
  obtain ⟨R, -⟩ := cellUpdate_result hs hn hsel h
  have hcells : f'.cells = pushed 0 (childItems (inp.edgePoint f.cells) f.cells.isEmpty inp.cells) := by
    rw [R.filt]
  have hu : f.cells.isEmpty = false := by simp [hne]
  rw [hcells, pushed_length, hu]
  refine Nat.le_trans (Nat.mul_le_mul_left 4 ?_) (four_recorded f.cells inp.cells ?_)
  · have hsub : f.cells ⊆ (inp.cells.filter fun c => decide (c.1 ∈ f.cells)).map Prod.fst := by
      intro k hk
      obtain ⟨c, hc, rfl⟩ := List.mem_map.1 (hsel k hk)
      exact List.mem_map.2 ⟨c, List.mem_filter.2 ⟨hc, by simpa using hk⟩, rfl⟩
    have := (List.subperm_of_subset hd hsub).length_le
    rwa [List.length_map] at this
  · intro c hc hk
    obtain ⟨t, ht, _⟩ := hn.valid.cells_tri c hc
    refine ⟨t, by rw [ht]; exact tri?_cell t, ?_⟩
    rw [allSplit_iff]
    intro e he
    rw [edgePoint_isSome]
    refine Or.inl (mem_dartsOf.2 ⟨t, (hn.valid.mem_selected hne).2 ⟨c.1, hk, ?_⟩, he⟩)
    have : c = (c.1, some t.cell) := by rw [← ht]
    rw [← this]; exact hc

/-- a list without repetitions that is longer than the number of cells names something else -/
theorem not_selOK_of_long {inp : Mesh P D} {l : List CId} (hd : l.Nodup) (h : inp.cells.length < l.length) : ¬ inp.SelOK l := by
  intro hsel
  have := (List.subperm_of_subset hd (fun k hk => hsel k hk)).length_le
  rw [List.length_map] at this
  exact absurd h (Nat.not_lt.2 this)

end Verif
