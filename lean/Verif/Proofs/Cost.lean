import Verif.Proofs.Recorded
import Verif.Properties.FaceSplit
import Verif.Properties.Edge
import Verif.Proofs.Sliver
/-
How many triangles and points a refinement adds.
-/
namespace Verif
set_option linter.unusedSectionVars false

theorem length_dartsOf (T : List Tri) : (dartsOf T).length = 3 * T.length := by
  unfold dartsOf
  induction T with
  | nil => rfl
  | cons t T ih => rw [List.flatMap_cons, List.length_append, ih, List.length_cons]; simp [Tri.darts]; omega

theorem length_children (μ : Edge → Option PId) (T : List Tri) :
    (T.flatMap (Tri.children μ)).length = T.length + ((dartsOf T).filter fun e => (μ e).isSome).length := by
  unfold dartsOf
  induction T with
  | nil => rfl
  | cons t T ih =>
    rw [List.flatMap_cons, List.flatMap_cons, List.filter_append, List.length_append, List.length_append, ih, children_length,
      List.length_cons]
    omega

theorem sublist_dartsOf {T T' : List Tri} (h : T.Sublist T') : (dartsOf T).Sublist (dartsOf T') := by
  unfold dartsOf
  induction h with
  | slnil => exact List.Sublist.slnil
  | cons t _ ih => exact ih.trans (List.sublist_append_right _ _)
  | cons_cons t _ ih => exact List.Sublist.append (List.Sublist.refl _) ih

theorem edge_sym_sym (e : Edge) : e.sym.sym = e := rfl

/-- edges that are split because they belong to `S` -/
theorem split_count {T S : List Tri} {μ : Edge → Option PId} (hT : (dartsOf T).Nodup)
    (hμ : ∀ e, (μ e).isSome ↔ e ∈ dartsOf S ∨ e.sym ∈ dartsOf S) :
    ((dartsOf T).filter fun e => (μ e).isSome).length ≤ 6 * S.length := by
  have hsub : ((dartsOf T).filter fun e => (μ e).isSome) ⊆ dartsOf S ++ (dartsOf S).map Edge.sym := by
    intro e he
    rw [List.mem_filter] at he
    rw [List.mem_append, List.mem_map]
    rcases (hμ e).1 he.2 with h | h
    · exact Or.inl h
    · exact Or.inr ⟨_, h, rfl⟩
  have := (List.subperm_of_subset (hT.filter _) hsub).length_le
  rw [List.length_append, List.length_map, length_dartsOf] at this
  omega

theorem allSplit_count {T S : List Tri} {μ : Edge → Option PId} (hT : (dartsOf T).Nodup)
    (hμ : ∀ e, (μ e).isSome ↔ e ∈ dartsOf S ∨ e.sym ∈ dartsOf S) :
    (T.filter (allSplit μ)).length ≤ 2 * S.length := by
  have hsub : dartsOf (T.filter (allSplit μ)) ⊆ (dartsOf T).filter fun e => (μ e).isSome := by
    intro e he
    obtain ⟨t, ht, het⟩ := mem_dartsOf.1 he
    rw [List.mem_filter] at ht ⊢
    exact ⟨mem_dartsOf.2 ⟨t, ht.1, het⟩, (allSplit_iff _ _).1 ht.2 e het⟩
  have h1 := (List.subperm_of_subset (hT.sublist (sublist_dartsOf List.filter_sublist)) hsub).length_le
  have h2 := split_count hT hμ
  rw [length_dartsOf] at h1
  omega

/-- if the triangles with all edges split are those of `S` only -/
theorem allSplit_count_closed {T S : List Tri} {μ : Edge → Option PId} (hT : (dartsOf T).Nodup)
    (hS : ∀ t ∈ T, allSplit μ t = true → t ∈ S) : (T.filter (allSplit μ)).length ≤ S.length := by
  have hsub : dartsOf (T.filter (allSplit μ)) ⊆ dartsOf S := by
    intro e he
    obtain ⟨t, ht, het⟩ := mem_dartsOf.1 he
    rw [List.mem_filter] at ht
    exact mem_dartsOf.2 ⟨t, hS t ht.1 ht.2, het⟩
  have h1 := (List.subperm_of_subset (hT.sublist (sublist_dartsOf List.filter_sublist)) hsub).length_le
  rw [length_dartsOf, length_dartsOf] at h1
  omega

/-- new points named by the edges of `S` -/
theorem points_count {S : List Tri} {μ : Edge → Option PId} {n N : Nat} (hsym : ∀ e : Edge, μ e.sym = μ e)
    (hμ : ∀ e, (μ e).isSome ↔ e ∈ dartsOf S ∨ e.sym ∈ dartsOf S) (hnew : ∀ m : Nat, n ≤ m → m < N → ∃ e, μ e = some m) :
    N - n ≤ 3 * S.length := by
  have hsub : List.range' n (N - n) ⊆ ((dartsOf S).filterMap μ : List Nat) := by
    intro m hm
    rw [List.mem_range'_1] at hm
    obtain ⟨e, he⟩ := hnew m hm.1 (by omega)
    rw [List.mem_filterMap]
    rcases (hμ e).1 (by rw [he]; rfl) with h | h
    · exact ⟨e, h, he⟩
    · exact ⟨_, h, (hsym e).trans he⟩
  have h1 := (List.subperm_of_subset List.nodup_range' hsub).length_le
  have h2 := List.length_filterMap_le μ (dartsOf S)
  rw [length_dartsOf] at h2
  rw [List.length_range'] at h1
  exact h1.trans h2

/-- the cells recorded for the next run -/
theorem recorded_count (μ : Edge → Option PId) (cells : AMap (Option Cell)) :
    ((childItems μ false cells).filter fun x => x.2.2).length =
      4 * ((cells.filterMap fun c => Cell.tri? c.2).filter (allSplit μ)).length := by
  induction cells with
  | nil => simp [childItems]
  | cons c cells ih =>
    have hcons : childItems μ false (c :: cells) = (match Cell.tri? c.2 with
        | some t => childItemsOf μ false c.1 t
        | none => []) ++ childItems μ false cells := by
      unfold childItems
      exact List.flatMap_cons
    rw [hcons, List.filter_append, List.length_append, ih]
    rcases ht : Cell.tri? c.2 with _ | t
    · rw [List.filterMap_cons_none (by exact ht)]; simp
    · rw [List.filterMap_cons_some (by exact ht)]
      by_cases hall : allSplit μ t = true
      · rw [List.filter_cons_of_pos hall, List.length_cons]
        have : ((childItemsOf μ false c.1 t).filter fun x => x.2.2).length = 4 := by
          unfold childItemsOf
          rw [List.filter_eq_self.2, List.length_map]
          · exact children_all _ _ ((allSplit_iff _ _).1 hall)
          · intro x hx
            obtain ⟨d, _, rfl⟩ := List.mem_map.1 hx
            simp [hall]
        dsimp only
        rw [this]
        omega
      · rw [List.filter_cons_of_neg hall]
        have : ((childItemsOf μ false c.1 t).filter fun x => x.2.2).length = 0 := by
          unfold childItemsOf
          rw [List.length_eq_zero_iff, List.filter_eq_nil_iff]
          intro x hx
          obtain ⟨d, _, rfl⟩ := List.mem_map.1 hx
          simp [hall]
        dsimp only
        rw [this]
        omega

/-- a child of a triangle that is split, but not into four, has an edge inside the triangle, or is beside an edge that is
not split -/
theorem child_inner {μ : Edge → Option PId} {t d : Tri} (hd : d ∈ t.children μ) (h : allSplit μ t = false) :
    (∃ e ∈ d.darts, e.sym ∈ dartsOf (t.children μ)) ∨ d = t := by
  obtain ⟨a, b, c⟩ := t
  simp only [Tri.children] at hd ⊢
  unfold allSplit at h
  rcases e0 : μ (a, b) with _ | m0 <;> rcases e1 : μ (b, c) with _ | m1 <;> rcases e2 : μ (c, a) with _ | m2 <;>
    simp only [e0, e1, e2] at hd h ⊢ <;>
    simp only [List.mem_cons, List.not_mem_nil, or_false] at hd
  · exact Or.inr hd
  all_goals first
    | simp at h; done
    | (left
       rcases hd with rfl | rfl | rfl <;> simp [Tri.darts, dartsOf, Edge.sym])

section runs
variable {K P D : Type} [Field K] [Zero P] [Add P] [SMul K P] {lib : QELib} {cosn : Nat → K} {f f' : Filt}
  {inp out : Mesh P D} {sch : Scheme}

theorem selected_len (hv : inp.Valid) {sel : List CId} (hsel : inp.SelOK sel) (hne : sel ≠ []) :
    (inp.selected sel).length = sel.length := by
  have : sel.isEmpty = false := by simp [hne]
  unfold Mesh.selected
  rw [this]
  simp only [Bool.false_eq_true, if_false]
  have key : ∀ l : List CId, inp.SelOK l → (l.filterMap inp.triAt).length = l.length := by
    intro l
    induction l with
    | nil => intro; rfl
    | cons k l ih =>
      intro h
      obtain ⟨t, ht, h2⟩ := hv.sel_tri h (k := k) (by simp)
      rw [List.filterMap_cons_some h2, List.length_cons, List.length_cons, ih fun k hk => h k (by simp [hk])]
  exact key sel hsel

theorem level_cost (hs : sch ≠ .sqrt3) (hn : sch.Needs inp) (hsel : inp.SelOK f.cells)
    (h : cellUpdate sch lib cosn f inp = (.ok out, f')) {S : List Tri} (hS : ∀ t, t ∈ S ↔ t ∈ inp.selected f.cells) :
    out.tris.length ≤ inp.tris.length + 6 * S.length ∧ out.points.length ≤ inp.points.length + 3 * S.length := by
  obtain ⟨R, -⟩ := cellUpdate_result hs hn hsel h
  have hv := hn.valid
  have hd : ∀ e, e ∈ dartsOf S ↔ e ∈ dartsOf (inp.selected f.cells) := by
    intro e
    rw [mem_dartsOf, mem_dartsOf]
    simp only [hS]
  have hμ : ∀ e, (inp.edgePoint f.cells e).isSome ↔ e ∈ dartsOf S ∨ e.sym ∈ dartsOf S := by
    intro e
    rw [edgePoint_isSome, hd, hd]
  refine ⟨?_, ?_⟩
  · rw [R.tris, length_children]
    have := split_count hv.good.oriented hμ
    omega
  · have := points_count (n := inp.points.length) (N := out.points.length) (fun e => R.label.sym e) hμ (fun m h1 h2 => by
      obtain ⟨e, he, -⟩ := (C05_new_points hs hn hsel h).2.2.2.2.1 m h1 h2
      exact ⟨e, he⟩)
    omega

theorem next_count (hs : sch ≠ .sqrt3) (hn : sch.Needs inp) (hsel : inp.SelOK f.cells) (hne : f.cells ≠ [])
    (h : cellUpdate sch lib cosn f inp = (.ok out, f')) :
    f'.cells.length = 4 * (inp.tris.filter (allSplit (inp.edgePoint f.cells))).length := by
  obtain ⟨R, -⟩ := cellUpdate_result hs hn hsel h
  have hcells : f'.cells = pushed 0 (childItems (inp.edgePoint f.cells) f.cells.isEmpty inp.cells) := by
    rw [R.filt]
  have hu : f.cells.isEmpty = false := by simp [hne]
  rw [hcells, pushed_length, hu, recorded_count]
  rfl

/-- no triangle besides the selected ones has all its edges split -/
def NoMore (m : Mesh P D) (sel : List CId) : Prop :=
  ∀ t ∈ m.tris, allSplit (m.edgePoint sel) t = true → t ∈ m.selected sel

theorem next_noMore (hs : sch ≠ .sqrt3) (hn : sch.Needs inp) (hsel : inp.SelOK f.cells) (hne : f.cells ≠ [])
    (h : cellUpdate sch lib cosn f inp = (.ok out, f')) : NoMore out f'.cells := by
  obtain ⟨R, -⟩ := cellUpdate_result hs hn hsel h
  have hv := hn.valid
  have hvo := (C04_output_valid hs hn hsel h).1
  obtain ⟨hne', -, hsel', hnext⟩ := (C16_selection_after_run hs hn hsel h).2 hne
  have hmem : ∀ d, d ∈ out.selected f'.cells ↔ ∃ t ∈ inp.tris, d ∈ t.children (inp.edgePoint f.cells) ∧
      (t.children (inp.edgePoint f.cells)).length = 4 := by
    intro d
    rw [hvo.mem_selected hne']
    constructor
    · rintro ⟨k, hk, hc⟩
      exact (hnext k d hc).1 hk
    · rintro ⟨t, ht, hd, h4⟩
      obtain ⟨k, hk⟩ := hvo.mem_tris.1 (by rw [R.tris]; exact List.mem_flatMap.2 ⟨t, ht, hd⟩)
      exact ⟨k, (hnext k d hk).2 ⟨t, ht, hd, h4⟩, hk⟩
  intro d hd hall
  have hd' := hd
  rw [R.tris, List.mem_flatMap] at hd'
  obtain ⟨t, ht, hdt⟩ := hd'
  rw [allSplit_iff] at hall
  rw [hmem]
  by_cases hat : allSplit (inp.edgePoint f.cells) t = true
  · exact ⟨t, ht, hdt, children_all _ _ ((allSplit_iff _ _).1 hat)⟩
  have hat' : allSplit (inp.edgePoint f.cells) t = false := by simpa using hat
  exfalso
  have hown : ∀ {e : Edge} {d' : Tri}, d' ∈ out.selected f'.cells → e ∈ d'.darts →
      e ∉ dartsOf (t.children (inp.edgePoint f.cells)) := by
    intro e d' h1 h2 h3
    obtain ⟨t', ht', hd', h4⟩ := (hmem d').1 h1
    obtain ⟨d'', h5, h6⟩ := mem_dartsOf.1 h3
    have e1 : t' = t := child_parent_unique hv.good R.label ht' ht hd' h5 h2 h6
    subst e1
    refine hat ((allSplit_iff _ _).2 ?_)
    rw [children_length] at h4
    have : (t'.darts.filter fun e => (inp.edgePoint f.cells e).isSome).length = t'.darts.length := by
      have : t'.darts.length = 3 := rfl
      omega
    exact List.length_filter_eq_length_iff.1 this
  have hside : ∀ e ∈ d.darts, ∃ d' ∈ out.selected f'.cells, e.sym ∈ d'.darts := by
    intro e he
    rcases (edgePoint_isSome _ _ _).1 (hall e he) with h1 | h1
    · obtain ⟨d', h2, h3⟩ := mem_dartsOf.1 h1
      exact absurd (mem_dartsOf.2 ⟨d, hdt, he⟩) (hown h2 h3)
    · obtain ⟨d', h2, h3⟩ := mem_dartsOf.1 h1
      exact ⟨d', h2, h3⟩
  rcases child_inner hdt hat' with ⟨e, he, h1⟩ | rfl
  · obtain ⟨d', h2, h3⟩ := hside e he
    exact hown h2 h3 h1
  · obtain ⟨d', h2, h3⟩ := hside (d.1, d.2.1) (by simp [Tri.darts])
    obtain ⟨t', ht', hd', h4⟩ := (hmem d').1 h2
    obtain ⟨e', m, h5, h6⟩ := child_of_four hd' h4 h3
    refine R.label.fresh e' m h5 d ht ?_
    rcases h6 with rfl | rfl <;> simp [Edge.sym, Tri.verts]

end runs
end Verif
