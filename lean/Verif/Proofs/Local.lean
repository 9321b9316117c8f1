import Verif.Spec.Local
import Verif.Proofs.Levels
import Verif.Properties.Sqrt3
import Verif.Properties.FaceSplit
/-
Lemmas for locality.
-/
namespace Verif
set_option linter.unusedSectionVars false

theorem Tri.dart_mem_verts {t : Tri} {e : Edge} (h : e ∈ t.darts) : e.1 ∈ t.verts ∧ e.2 ∈ t.verts := by
  simp only [Tri.darts, Tri.verts, List.mem_cons, List.not_mem_nil, or_false] at *
  rcases h with rfl | rfl | rfl <;> simp

theorem children_of_none {μ : Edge → Option PId} {t : Tri} (h : ∀ e ∈ t.darts, μ e = none) : t.children μ = [t] := by
  simp only [Tri.darts, List.mem_cons, List.not_mem_nil, or_false, forall_eq_or_imp, forall_eq] at h
  obtain ⟨a, b, c⟩ := t
  simp only at h
  simp [Tri.children, h]

/-- a child that has no new corner is the triangle itself, which is not split -/
theorem child_old {μ : Edge → Option PId} {t d : Tri} (hd : d ∈ t.children μ) (h : ∀ e m, μ e = some m → m ∉ d.verts) :
    d = t := by
  obtain ⟨a, b, c⟩ := t
  rcases h0 : μ (a, b) with _ | m0 <;> rcases h1 : μ (b, c) with _ | m1 <;> rcases h2 : μ (c, a) with _ | m2 <;>
    simp only [Tri.children, h0, h1, h2, List.mem_cons, List.not_mem_nil, or_false] at hd
  · exact hd
  all_goals exfalso
  all_goals first | have n0 := h _ _ h0 | skip
  all_goals first | have n1 := h _ _ h1 | skip
  all_goals first | have n2 := h _ _ h2 | skip
  all_goals
    obtain rfl | rfl | rfl | rfl := hd
  all_goals simp_all [Tri.verts]

theorem child_self_none {μ : Edge → Option PId} {t : Tri} (h : t ∈ t.children μ)
    (hold : ∀ e m, μ e = some m → m ∉ t.verts) : ∀ e ∈ t.darts, μ e = none := by
  intro e he
  obtain ⟨a, b, c⟩ := t
  rcases h0 : μ (a, b) with _ | m0 <;> rcases h1 : μ (b, c) with _ | m1 <;> rcases h2 : μ (c, a) with _ | m2 <;>
    simp only [Tri.children, h0, h1, h2, List.mem_cons, List.not_mem_nil, or_false, Prod.mk.injEq] at h
  · simp only [Tri.darts, List.mem_cons, List.not_mem_nil, or_false] at he
    rcases he with rfl | rfl | rfl <;> assumption
  all_goals exfalso
  all_goals first | have n0 := hold _ _ h0 | skip
  all_goals first | have n1 := hold _ _ h1 | skip
  all_goals first | have n2 := hold _ _ h2 | skip
  all_goals clear hold h0 h1 h2 he
  all_goals simp only [Tri.verts, List.mem_cons, List.not_mem_nil, or_false] at *
  all_goals grind

/-- every edge of a child of a triangle split into four has a new end -/
theorem child_of_four {μ : Edge → Option PId} {t d : Tri} (hd : d ∈ t.children μ) (h4 : (t.children μ).length = 4) {e : Edge}
    (he : e ∈ d.darts) : ∃ e' m, μ e' = some m ∧ (e.1 = m ∨ e.2 = m) := by
  obtain ⟨a, b, c⟩ := t
  rcases h0 : μ (a, b) with _ | m0 <;> rcases h1 : μ (b, c) with _ | m1 <;> rcases h2 : μ (c, a) with _ | m2 <;>
    simp [Tri.children, h0, h1, h2] at hd h4
  rcases hd with rfl | rfl | rfl | rfl <;> simp only [Tri.darts, List.mem_cons, List.not_mem_nil, or_false] at he <;>
    rcases he with rfl | rfl | rfl <;>
    first
    | exact ⟨_, _, h0, Or.inl rfl⟩
    | exact ⟨_, _, h0, Or.inr rfl⟩
    | exact ⟨_, _, h1, Or.inl rfl⟩
    | exact ⟨_, _, h1, Or.inr rfl⟩
    | exact ⟨_, _, h2, Or.inl rfl⟩
    | exact ⟨_, _, h2, Or.inr rfl⟩

theorem Tri.apart_self {t : Tri} {S : List Tri} (h : t.Apart S) : t ∉ S := fun ht =>
  (h t ht (t.1, t.2.1) (by simp [Tri.darts])).1 (by simp [Tri.darts])

variable {K P D : Type} [Field K] [Zero P] [Add P] [SMul K P] {sch : Scheme} {lib : QELib} {cosn : Nat → K}

theorem mem_selected {m : Mesh P D} {sel : List CId} (hne : sel ≠ []) {t : Tri} :
    t ∈ m.selected sel ↔ ∃ k ∈ sel, m.triAt k = some t := by
  unfold Mesh.selected
  rw [if_neg (by simpa using hne), List.mem_filterMap]

/-- one run of a face split keeps a triangle away from the selected ones, and the next selected ones are away too -/
theorem faceSplit_far {f f' : Filt} {inp out : Mesh P D} (hs : sch ≠ .sqrt3) (hn : sch.Needs inp)
    (hsel : inp.SelOK f.cells) (h : cellUpdate sch lib cosn f inp = (.ok out, f')) {t : Tri} {d : Option D}
    (hc : inp.HasCell t d) (hf : t.Apart (inp.selected f.cells)) :
    out.HasCell t d ∧ t.Apart (out.selected f'.cells) := by
  obtain ⟨k, hk, hd⟩ := hc
  have ht : t ∈ inp.tris := hn.valid.mem_tris.2 ⟨k, hk⟩
  obtain ⟨R, -⟩ := cellUpdate_result hs hn hsel h
  have hnone : ∀ e ∈ t.darts, inp.edgePoint f.cells e = none := by
    intro e he
    by_contra hx
    have := (edgePoint_isSome inp f.cells e).1 (Option.isSome_iff_ne_none.2 hx)
    rcases this with h1 | h1
    · obtain ⟨s, hs1, hs2⟩ := List.mem_flatMap.1 h1
      exact (hf s hs1 _ hs2).1 he
    · obtain ⟨s, hs1, hs2⟩ := List.mem_flatMap.1 h1
      exact (hf s hs1 _ hs2).2 (by rw [Edge.sym_sym]; exact he)
  have hold : ∀ e m, inp.edgePoint f.cells e = some m → m ∉ t.verts := fun e m hm => R.label.fresh e m hm t ht
  have hne : f.cells ≠ [] := by
    intro he
    refine Tri.apart_self hf ?_
    rw [he]
    exact ht
  obtain ⟨u1, -, -, u2⟩ := (C16_selection_after_run hs hn hsel h).2 hne
  have hov := (C04_output_valid hs hn hsel h).1
  have hto : t ∈ out.tris := by
    have := (R.tris).symm ▸ List.mem_flatMap.2 ⟨t, ht, by rw [children_of_none hnone]; exact List.mem_singleton_self t⟩
    exact this
  refine ⟨?_, ?_⟩
  · obtain ⟨k', hk'⟩ := hov.mem_tris.1 hto
    obtain ⟨j, t', hj, hjd, hdat⟩ := (C14_cell_data_inherited hs hn hsel h).1 k' t hk'
    have := child_old hjd hold
    subst this
    refine ⟨k', hk', ?_⟩
    rw [hdat, ← hd, hn.valid.id_unique hk hj]
  · intro s hs1 e he
    obtain ⟨k', hk', hs2⟩ := (mem_selected u1).1 hs1
    obtain ⟨t', -, hch, h4⟩ := (u2 k' s (hov.triAt_iff.1 hs2)).1 hk'
    obtain ⟨e', m, hm, hor⟩ := child_of_four hch h4 he
    have hm' := hold _ _ hm
    constructor
    · intro hc
      obtain ⟨v1, v2⟩ := Tri.dart_mem_verts hc
      rcases hor with rfl | rfl <;> contradiction
    · intro hc
      obtain ⟨v1, v2⟩ := Tri.dart_mem_verts hc
      rcases hor with rfl | rfl <;> contradiction

/-- one run of SquareThree keeps an unselected triangle, and it is not selected next -/
theorem sqrt3_far {f f' : Filt} {inp out : Mesh P D} (hv : inp.Valid) (hsel : inp.SelOK f.cells)
    (hmax : inp.points.length + (inp.selected f.cells).length ≤ idMax)
    (h : cellUpdate .sqrt3 lib cosn f inp = (.ok out, f')) {t : Tri} {d : Option D} (hc : inp.HasCell t d)
    (hf : t ∉ inp.selected f.cells) : out.HasCell t d ∧ t ∉ out.selected f'.cells := by
  obtain ⟨k, hk, hd⟩ := hc
  have ht : t ∈ inp.tris := hv.mem_tris.2 ⟨k, hk⟩
  have R := sqrt3Update_result hv hsel hmax h
  have hov := (C13_sqrt3_valid hv hsel hmax h).1
  have hne : f.cells ≠ [] := by
    intro he
    refine hf ?_
    rw [he]
    exact ht
  obtain ⟨u1, -, -, u2⟩ := (C16_selection_after_run_sqrt3 hv hsel hmax h).2 hne
  have hnone : ∀ e ∈ t.darts, inp.centreOf f.cells e = none := by
    intro e he
    by_contra hx
    obtain ⟨v, hv'⟩ := Option.ne_none_iff_exists'.1 hx
    unfold Mesh.centreOf at hv'
    obtain ⟨i, hi, -⟩ := Option.map_eq_some_iff.1 hv'
    obtain ⟨hl, hi2, -⟩ := List.findIdx?_eq_some_iff_getElem.1 hi
    have hmem := List.getElem_mem hl
    obtain ⟨j, hj, hj2⟩ := (mem_selected hne).1 hmem
    have hin := hv.triAt_iff.1 hj2
    have hd1 := (hv.left_iff e j).2 ⟨_, hin, by simpa using hi2⟩
    have hd2 := (hv.left_iff e k).2 ⟨_, hk, he⟩
    rw [hd1] at hd2
    cases hd2
    have := hv.triAt_of_mem hk
    rw [this] at hj2
    cases hj2
    exact hf ((mem_selected hne).2 ⟨_, hj, this⟩)
  have hold : ∀ e v, inp.centreOf f.cells e = some v → v ∉ t.verts := fun e v h1 h2 =>
    absurd (hv.verts_lt ht h2) (Nat.not_lt.2 (R.fresh e v h1).1)
  have hmade : ∀ t', MadeFrom (inp.centreOf f.cells) t' t → t = t' := by
    intro t' hm
    rcases hm with ⟨h1, -⟩ | ⟨e, he, v, hv1, h1⟩
    · exact h1
    · exfalso
      have : ∀ {v : PId} {e : Edge}, v ∈ (sq3Piece (inp.centreOf f.cells) v e).verts := by
        intro v e
        unfold sq3Piece
        split <;> simp [Tri.verts]
      rcases h1 with h1 | ⟨v', hv2, h1⟩
      · exact hold _ _ hv1 (h1 ▸ this)
      · exact hold _ _ hv2 (h1 ▸ this)
  have hto : t ∈ out.tris := (R.mem_tris hv).2 ((mem_sq3 R.centres).2 (Or.inl ⟨ht, hnone _ (by simp [Tri.darts])⟩))
  obtain ⟨k', hk'⟩ := hov.mem_tris.1 hto
  refine ⟨?_, ?_⟩
  · obtain ⟨j, t', hj, hjd, -, hdat⟩ := (C14_cell_data_inherited_sqrt3 hv hsel hmax h).1 k' t hk'
    have := hmade _ hjd
    subst this
    refine ⟨k', hk', ?_⟩
    rw [hdat, ← hd, hv.id_unique hk hj]
  · intro hs
    obtain ⟨k2, hk2, hs2⟩ := (mem_selected u1).1 hs
    obtain ⟨j, hj, t', ht', hm⟩ := (u2 k2 t (hov.triAt_iff.1 hs2)).1 hk2
    have := hmade _ hm
    subst this
    exact hf ((mem_selected hne).2 ⟨j, hj, hv.triAt_of_mem ht'⟩)

/-- one run of a face split makes no triangle on old points except those that it keeps -/
theorem faceSplit_old {f f' : Filt} {inp out : Mesh P D} (hs : sch ≠ .sqrt3) (hn : sch.Needs inp)
    (hsel : inp.SelOK f.cells) (h : cellUpdate sch lib cosn f inp = (.ok out, f')) {t : Tri}
    (hv : ∀ v ∈ t.verts, v < inp.points.length) (ht : t ∈ out.tris) :
    t ∈ inp.tris ∧ t.Apart (inp.selected f.cells) := by
  obtain ⟨R, -⟩ := cellUpdate_result hs hn hsel h
  have ht' : t ∈ inp.tris.flatMap (Tri.children (inp.edgePoint f.cells)) := R.tris ▸ ht
  obtain ⟨s, hs1, hs2⟩ := List.mem_flatMap.1 ht'
  have hold : ∀ e m, inp.edgePoint f.cells e = some m → m ∉ t.verts := fun e m hm hmv =>
    absurd (hv m hmv) (Nat.not_lt.2 (R.fresh e m hm).1)
  have heq := child_old hs2 hold
  subst heq
  refine ⟨hs1, ?_⟩
  intro s hs3 e he
  have key : ∀ e', (e' = e ∨ e' = e.sym) → e' ∉ t.darts := by
    intro e' he' hin
    have hsome : (inp.edgePoint f.cells e').isSome := by
      rw [edgePoint_isSome]
      rcases he' with rfl | rfl
      · exact Or.inl (List.mem_flatMap.2 ⟨s, hs3, he⟩)
      · exact Or.inr (List.mem_flatMap.2 ⟨s, hs3, by rw [Edge.sym_sym]; exact he⟩)
    obtain ⟨m, hm⟩ := Option.isSome_iff_exists.1 hsome
    rw [child_self_none hs2 hold e' hin] at hm
    cases hm
  exact ⟨key _ (Or.inl rfl), key _ (Or.inr rfl)⟩

theorem sqrt3_old {f f' : Filt} {inp out : Mesh P D} (hv : inp.Valid) (hsel : inp.SelOK f.cells)
    (hmax : inp.points.length + (inp.selected f.cells).length ≤ idMax)
    (h : cellUpdate .sqrt3 lib cosn f inp = (.ok out, f')) {t : Tri}
    (hvt : ∀ v ∈ t.verts, v < inp.points.length) (ht : t ∈ out.tris) : t ∈ inp.tris ∧ t ∉ inp.selected f.cells := by
  have R := sqrt3Update_result hv hsel hmax h
  rcases (mem_sq3 R.centres).1 ((R.mem_tris hv).1 ht) with ⟨h1, h2⟩ | ⟨e, v, h1, h2⟩
  · refine ⟨h1, fun h3 => ?_⟩
    unfold Mesh.centreOf at h2
    rw [Option.map_eq_none_iff, List.findIdx?_eq_none_iff] at h2
    have := h2 t h3
    simp [Tri.darts] at this
  · exfalso
    have : v ∈ t.verts := by
      rw [h2]
      unfold sq3Piece
      split <;> simp [Tri.verts]
    exact absurd (hvt v this) (Nat.not_lt.2 (R.fresh e v h1).1)

theorem cellUpdate_more_points {f f' : Filt} {inp out : Mesh P D} (hn : sch.Needs inp) (hsel : inp.SelOK f.cells)
    (hmax : sch = .sqrt3 → inp.points.length + (inp.selected f.cells).length ≤ idMax)
    (h : cellUpdate sch lib cosn f inp = (.ok out, f')) : inp.points.length ≤ out.points.length := by
  by_cases hs : sch = .sqrt3
  · subst hs
    have R := sqrt3Update_result hn.valid hsel (hmax rfl) h
    rw [R.points, AMap.length_dense]
    exact R.longer
  · obtain ⟨R, -⟩ := cellUpdate_result hs hn hsel h
    rw [R.points, AMap.length_dense]
    exact R.longer

end Verif
