import Verif.Spec.Criteria
import Verif.Model.Drivers
import Verif.Proofs.Failures
/-
The two criteria.
-/
namespace Verif
set_option linter.unusedSectionVars false
variable {K P D : Type} [Field K] [Zero P] [Add P] [SMul K P] [LinearOrder K]

theorem tri?_eq_some {c : Option Cell} {t : Tri} : Cell.tri? c = some t ↔ c = some t.cell := by
  constructor
  · intro h
    unfold Cell.tri? at h
    split at h
    · cases h; rfl
    · cases h
  · rintro rfl; rfl

theorem getPoint_ok_iff {m : Mesh P D} {v : PId} {p : P} : m.getPoint v = .ok p ↔ m.pos v = some p := by
  unfold Mesh.getPoint Mesh.pos
  cases m.points.find? v <;> simp

section area
variable {area : P → P → P → K} {A : K} {m : Mesh P D}

/-- one cell -/
theorem areaAct_ok {c : CId × Option Cell} {t : Tri} (ht : Cell.tri? c.2 = some t)
    (hp : ∀ v ∈ t.verts, (m.pos v).isSome) (hu : ∀ c' ∈ m.cells, c'.1 = c.1 → c' = c) (hc : c ∈ m.cells) (s : List CId) :
    ∃ l, areaAct area A m c s = (.ok (), s ++ l) ∧ ((m.TooLarge area A c.1 ∧ l = [c.1]) ∨ (¬ m.TooLarge area A c.1 ∧ l = [])) := by
  obtain ⟨pa, ha⟩ := Option.isSome_iff_exists.1 (hp t.1 (by simp [Tri.verts]))
  obtain ⟨pb, hb⟩ := Option.isSome_iff_exists.1 (hp t.2.1 (by simp [Tri.verts]))
  obtain ⟨pc, hc'⟩ := Option.isSome_iff_exists.1 (hp t.2.2 (by simp [Tri.verts]))
  unfold areaAct
  rw [asTriangle_eq, ht]
  simp only [getPoint_ok_iff.2 ha, getPoint_ok_iff.2 hb, getPoint_ok_iff.2 hc', lift_ok_bind]
  have hcell : (c.1, some t.cell) ∈ m.cells := by
    have := tri?_eq_some.1 ht
    rw [← this]; exact hc
  by_cases h : A < area pa pb pc
  · rw [if_pos h]
    exact ⟨_, rfl, Or.inl ⟨⟨t, pa, pb, pc, hcell, ha, hb, hc', h⟩, rfl⟩⟩
  · rw [if_neg h]
    refine ⟨[], by rw [List.append_nil]; rfl, Or.inr ⟨?_, rfl⟩⟩
    rintro ⟨t', pa', pb', pc', h1, h2, h3, h4, h5⟩
    have h6 := hu _ h1 rfl
    have : t' = t := by
      have := tri?_eq_some.2 (congrArg Prod.snd h6).symm
      rw [ht] at this
      exact (Option.some.inj this).symm
    subst this
    rw [ha] at h2; rw [hb] at h3; rw [hc'] at h4
    cases h2; cases h3; cases h4
    exact h h5

theorem sorted_unique {α : Type} {l : AMap α} (hs : (l.map Prod.fst).Pairwise (· < ·)) {c c' : Nat × α} (h : c ∈ l)
    (h' : c' ∈ l) (he : c'.1 = c.1) : c' = c := by
  have h1 := (AMap.find?_eq_some_of_sorted l hs c.1 c.2).2 h
  have h2 := (AMap.find?_eq_some_of_sorted l hs c'.1 c'.2).2 h'
  rw [he, h1] at h2
  exact Prod.ext he (Option.some.inj h2).symm

theorem areaLoop_ok (hs : (m.cells.map Prod.fst).Pairwise (· < ·)) (ha : m.AllTriangles) (hp : m.CornersExist)
    (l : AMap (Option Cell)) (hl : l.Sublist m.cells) (s : List CId) :
    ∃ l', loopOrHang skipsCell (areaAct area A m) l s = (.ok (), s ++ l') ∧ l'.Sublist (l.map Prod.fst) ∧
      ∀ k, k ∈ l' ↔ k ∈ l.map Prod.fst ∧ m.TooLarge area A k := by
  induction l generalizing s with
  | nil => exact ⟨[], by rw [List.append_nil]; rfl, by simp, by simp⟩
  | cons c l ih =>
    have hc : c ∈ m.cells := hl.subset (by simp)
    obtain ⟨t, ht⟩ := Option.isSome_iff_exists.1 (ha c hc)
    have hskip : skipsCell c = false := by simp [skipsCell, asTriangle_eq, ht]
    obtain ⟨l1, h1, h2⟩ := areaAct_ok (area := area) (A := A) ht (hp t (List.mem_filterMap.2 ⟨c, hc, ht⟩))
      (fun c' hc' he => sorted_unique hs hc hc' he) hc s
    obtain ⟨l2, h3, h4, h5⟩ := ih ((List.sublist_cons_self c l).trans hl) (s ++ l1)
    refine ⟨l1 ++ l2, ?_, ?_, ?_⟩
    · rw [loopOrHang_cons_ok hskip h1, h3, List.append_assoc]
    · rcases h2 with ⟨_, rfl⟩ | ⟨_, rfl⟩
      · exact h4.cons_cons _
      · exact h4.cons _
    · intro k
      rw [List.mem_append, h5, List.map_cons, List.mem_cons]
      rcases h2 with ⟨h, rfl⟩ | ⟨h, rfl⟩
      · simp only [List.mem_singleton]
        constructor
        · rintro (rfl | h')
          · exact ⟨Or.inl rfl, h⟩
          · exact ⟨Or.inr h'.1, h'.2⟩
        · rintro ⟨rfl | h', h''⟩
          · exact Or.inl rfl
          · exact Or.inr ⟨h', h''⟩
      · constructor
        · rintro (h' | h')
          · cases h'
          · exact ⟨Or.inr h'.1, h'.2⟩
        · rintro ⟨rfl | h', h''⟩
          · exact absurd h'' h
          · exact Or.inr ⟨h', h''⟩

theorem areaCompute_eq (old : List CId) :
    areaCompute area A m old = loopOrHang skipsCell (areaAct area A m) m.cells [] := rfl

theorem TooLarge.mem {k : CId} (h : m.TooLarge area A k) : k ∈ m.cells.map Prod.fst := by
  obtain ⟨t, _, _, _, h, _⟩ := h
  exact List.mem_map.2 ⟨_, h, rfl⟩

theorem areaCompute_ok (hs : (m.cells.map Prod.fst).Pairwise (· < ·)) (ha : m.AllTriangles) (hp : m.CornersExist)
    (old : List CId) : ∃ l, areaCompute area A m old = (.ok (), l) ∧ l.Sublist (m.cells.map Prod.fst) ∧
      ∀ k, k ∈ l ↔ m.TooLarge area A k := by
  obtain ⟨l, h1, h2, h3⟩ := areaLoop_ok (area := area) (A := A) hs ha hp m.cells (List.Sublist.refl _) []
  refine ⟨l, by rw [areaCompute_eq, h1, List.nil_append], h2, fun k => ?_⟩
  rw [h3]
  exact ⟨fun h => h.2, fun h => ⟨TooLarge.mem h, h⟩⟩

/-- whatever the mesh, the criterion that returns has read the corners of all cells -/
theorem areaAct_ok_inv {c : CId × Option Cell} {t : Tri} (ht : Cell.tri? c.2 = some t) {s s' : List CId}
    (h : areaAct area A m c s = (.ok (), s')) : ∃ pa pb pc, m.pos t.1 = some pa ∧ m.pos t.2.1 = some pb ∧
      m.pos t.2.2 = some pc ∧ s' = if A < area pa pb pc then s ++ [c.1] else s := by
  unfold areaAct at h
  rw [asTriangle_eq, ht] at h
  simp only at h
  cases ha : m.getPoint t.1 with
  | error e => rw [ha] at h; cases h
  | ok pa =>
    cases hb : m.getPoint t.2.1 with
    | error e => rw [ha, hb] at h; cases h
    | ok pb =>
      cases hc : m.getPoint t.2.2 with
      | error e => rw [ha, hb, hc] at h; cases h
      | ok pc =>
        simp only [ha, hb, hc, lift_ok_bind] at h
        refine ⟨pa, pb, pc, getPoint_ok_iff.1 ha, getPoint_ok_iff.1 hb, getPoint_ok_iff.1 hc, ?_⟩
        split at h <;> rename_i hif
        · rw [if_pos hif]; exact (congrArg Prod.snd h).symm
        · rw [if_neg hif]; exact (congrArg Prod.snd h).symm

theorem areaLoop_ok_inv (l : AMap (Option Cell)) {s s' : List CId}
    (h : loopOrHang skipsCell (areaAct area A m) l s = (.ok (), s')) :
    (∃ l', s' = s ++ l') ∧ ∀ c ∈ l, ∃ (t : Tri) (pa pb pc : P), c.2 = some t.cell ∧ m.pos t.1 = some pa ∧
      m.pos t.2.1 = some pb ∧ m.pos t.2.2 = some pc ∧ (A < area pa pb pc → c.1 ∈ s') := by
  induction l generalizing s with
  | nil => cases h; exact ⟨⟨[], by simp⟩, by simp⟩
  | cons c l ih =>
    cases hskip : skipsCell c with
    | true => rw [loopOrHang_cons_skip hskip] at h; cases h
    | false =>
      rcases ha : areaAct area A m c s with ⟨r, s1⟩
      cases r with
      | error e => rw [loopOrHang_cons_error hskip ha] at h; cases h
      | ok u =>
        rw [loopOrHang_cons_ok hskip ha] at h
        obtain ⟨⟨l', rfl⟩, h2⟩ := ih h
        cases ht : Cell.tri? c.2 with
        | none => simp [skipsCell, asTriangle_eq, ht] at hskip
        | some t =>
          obtain ⟨pa, pb, pc, h3, h4, h5, h6⟩ := areaAct_ok_inv ht ha
          constructor
          · rw [h6]; split
            · exact ⟨_, List.append_assoc _ _ _⟩
            · exact ⟨_, rfl⟩
          · intro c' hc'
            rcases List.mem_cons.1 hc' with rfl | hc'
            · refine ⟨t, pa, pb, pc, tri?_eq_some.1 ht, h3, h4, h5, fun hlt => ?_⟩
              rw [if_pos hlt] at h6
              rw [h6]
              simp
            · exact h2 c' hc'

/-- whatever the mesh: the criterion returns the empty list only when all cells are triangles that are not too large -/
theorem areaCompute_empty {old : List CId} (h : areaCompute area A m old = (.ok (), [])) :
    m.AllTriangles ∧ m.CornersExist ∧ ∀ k, ¬ m.TooLarge area A k := by
  obtain ⟨-, h2⟩ := areaLoop_ok_inv m.cells h
  refine ⟨?_, ?_, ?_⟩
  · intro c hc
    obtain ⟨t, _, _, _, h3, _⟩ := h2 c hc
    rw [h3]; rfl
  · intro t ht v hv
    obtain ⟨c, hc, hct⟩ := List.mem_filterMap.1 ht
    obtain ⟨t', pa, pb, pc, h3, h4, h5, h6, _⟩ := h2 c hc
    rw [h3] at hct
    cases hct
    simp only [Tri.verts, List.mem_cons, List.not_mem_nil, or_false] at hv
    rcases hv with rfl | rfl | rfl
    · rw [h4]; rfl
    · rw [h5]; rfl
    · rw [h6]; rfl
  · rintro k ⟨t, pa, pb, pc, hm, h3, h4, h5, h6⟩
    obtain ⟨t', pa', pb', pc', h7, h8, h9, h10, h11⟩ := h2 _ hm
    have : t' = t := by
      have := tri?_eq_some.2 h7
      rw [tri?_cell] at this
      exact (Option.some.inj this).symm
    subst this
    rw [h3] at h8; rw [h4] at h9; rw [h5] at h10
    cases h8; cases h9; cases h10
    have := h11 h6
    cases this

end area

section length
variable {len : P → P → K} {L : K} {m : Mesh P D}

theorem lengthAct_ok {e : Edge} (h1 : (m.pos e.1).isSome) (h2 : (m.pos e.2).isSome) (s : List (Option Edge)) :
    ∃ l : List Edge, lengthAct len L m e s = (.ok (), s ++ l.map some) ∧
      ((m.TooLong len L e ∧ l = [e]) ∨ (¬ m.TooLong len L e ∧ l = [])) := by
  obtain ⟨p, hp⟩ := Option.isSome_iff_exists.1 h1
  obtain ⟨q, hq⟩ := Option.isSome_iff_exists.1 h2
  unfold lengthAct
  simp only [getPoint_ok_iff.2 hp, getPoint_ok_iff.2 hq, lift_ok_bind]
  by_cases h : L < len p q
  · rw [if_pos h]
    exact ⟨[e], rfl, Or.inl ⟨⟨p, q, hp, hq, h⟩, rfl⟩⟩
  · rw [if_neg h]
    refine ⟨[], by simp only [List.map_nil, List.append_nil]; rfl, Or.inr ⟨?_, rfl⟩⟩
    rintro ⟨p', q', hp', hq', h'⟩
    rw [hp] at hp'; rw [hq] at hq'
    cases hp'; cases hq'
    exact h h'

theorem lengthLoop_ok (es : List Edge) (he : ∀ e ∈ es, (m.pos e.1).isSome ∧ (m.pos e.2).isSome) (s : List (Option Edge)) :
    ∃ l : List Edge, Prog.forEach (lengthAct len L m) es s = (.ok (), s ++ l.map some) ∧ l.Sublist es ∧
      ∀ e, e ∈ l ↔ e ∈ es ∧ m.TooLong len L e := by
  induction es generalizing s with
  | nil => exact ⟨[], by simp only [List.map_nil, List.append_nil]; rfl, by simp, by simp⟩
  | cons e es ih =>
    obtain ⟨l1, h1, h2⟩ := lengthAct_ok (len := len) (L := L) (he e (by simp)).1 (he e (by simp)).2 s
    obtain ⟨l2, h3, h4, h5⟩ := ih (fun e h => he e (by simp [h])) (s ++ l1.map some)
    refine ⟨l1 ++ l2, ?_, ?_, ?_⟩
    · unfold Prog.forEach
      refine (Prog.bind_ok h1).trans ?_
      rw [h3, List.append_assoc, List.map_append]
    · rcases h2 with ⟨_, rfl⟩ | ⟨_, rfl⟩
      · exact h4.cons_cons _
      · exact h4.cons _
    · intro x
      rw [List.mem_append, h5, List.mem_cons]
      rcases h2 with ⟨h, rfl⟩ | ⟨h, rfl⟩
      · simp only [List.mem_singleton]
        constructor
        · rintro (rfl | h')
          · exact ⟨Or.inl rfl, h⟩
          · exact ⟨Or.inr h'.1, h'.2⟩
        · rintro ⟨rfl | h', h''⟩
          · exact Or.inl rfl
          · exact Or.inr ⟨h', h''⟩
      · constructor
        · rintro (h' | h')
          · cases h'
          · exact ⟨Or.inr h'.1, h'.2⟩
        · rintro ⟨rfl | h', h''⟩
          · exact absurd h'' h
          · exact Or.inr ⟨h', h''⟩

theorem lengthCompute_ok (hc : m.hasEdgeCells = true) (he : m.EndsExist) (old : List (Option Edge)) :
    ∃ l : List Edge, lengthCompute len L m old = (.ok (), l.map some) ∧ l.Sublist m.edges ∧
      ∀ e, e ∈ l ↔ e ∈ m.edges ∧ m.TooLong len L e := by
  obtain ⟨l, h1, h2, h3⟩ := lengthLoop_ok (len := len) (L := L) m.edges he []
  refine ⟨l, ?_, h2, h3⟩
  unfold lengthCompute
  rw [if_pos hc]
  exact h1

theorem lengthLoop_ok_inv (es : List Edge) {s s' : List (Option Edge)}
    (h : Prog.forEach (lengthAct len L m) es s = (.ok (), s')) :
    (∃ l', s' = s ++ l') ∧ ∀ e ∈ es, ∃ p q : P, m.pos e.1 = some p ∧ m.pos e.2 = some q ∧
      (L < len p q → some e ∈ s') := by
  induction es generalizing s with
  | nil => cases h; exact ⟨⟨[], by simp⟩, by simp⟩
  | cons e es ih =>
    unfold Prog.forEach at h
    rcases ha : lengthAct len L m e s with ⟨r, s1⟩
    cases r with
    | error x => simp only [Prog.bind, ha] at h; cases h
    | ok u =>
      have h' := (Prog.bind_ok ha).symm.trans h
      obtain ⟨⟨l', rfl⟩, h2⟩ := ih h'
      have key : ∃ p q : P, m.pos e.1 = some p ∧ m.pos e.2 = some q ∧ s1 = if L < len p q then s ++ [some e] else s := by
        unfold lengthAct at ha
        cases h1 : m.getPoint e.1 with
        | error x => rw [h1] at ha; cases ha
        | ok p =>
          cases h2 : m.getPoint e.2 with
          | error x => rw [h1, h2] at ha; cases ha
          | ok q =>
            simp only [h1, h2, lift_ok_bind] at ha
            refine ⟨p, q, getPoint_ok_iff.1 h1, getPoint_ok_iff.1 h2, ?_⟩
            split at ha <;> rename_i hif
            · rw [if_pos hif]; exact (congrArg Prod.snd ha).symm
            · rw [if_neg hif]; exact (congrArg Prod.snd ha).symm
      obtain ⟨p, q, h3, h4, h5⟩ := key
      constructor
      · rw [h5]; split
        · exact ⟨_, List.append_assoc _ _ _⟩
        · exact ⟨_, rfl⟩
      · intro e' he'
        rcases List.mem_cons.1 he' with rfl | he'
        · refine ⟨p, q, h3, h4, fun hlt => ?_⟩
          rw [if_pos hlt] at h5
          rw [h5]
          simp
        · exact h2 e' he'

/-- whatever the mesh: the criterion returns the empty list only when no edge is too long -/
theorem lengthCompute_empty {old : List (Option Edge)} (h : lengthCompute len L m old = (.ok (), [])) :
    m.EndsExist ∧ ∀ e ∈ m.edges, ¬ m.TooLong len L e := by
  unfold lengthCompute at h
  have h' : (if m.hasEdgeCells then Prog.forEach (lengthAct len L m) m.edges else Prog.fail (.exc .noEdges)) []
    = (Except.ok (), ([] : List (Option Edge))) := h
  split at h'
  · obtain ⟨-, h2⟩ := lengthLoop_ok_inv m.edges h'
    refine ⟨fun e he => ?_, ?_⟩
    · obtain ⟨p, q, h3, h4, _⟩ := h2 e he
      rw [h3, h4]; exact ⟨rfl, rfl⟩
    · rintro e he ⟨p, q, hp, hq, hlt⟩
      obtain ⟨p', q', h3, h4, h5⟩ := h2 e he
      rw [hp] at h3; rw [hq] at h4
      cases h3; cases h4
      cases h5 hlt
  · cases h'

end length
end Verif
