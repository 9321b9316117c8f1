import Verif.Proofs.Whole
import Verif.Proofs.Local
import Verif.Proofs.Shape
/-
Splitting some edges, and then others of triangles that were not touched, is splitting them all at once.
-/
namespace Verif
set_option linter.unusedSectionVars false

section tri
variable {μ μ₁ μ₂ μ₃ : Edge → Option PId}

theorem children_darts_new {t : Tri} : ∀ d ∈ t.children μ, ∀ e ∈ d.darts, e ∈ t.darts ∨
    ∃ e' ∈ t.darts, μ e' = some e.1 ∨ μ e' = some e.2 := by
  obtain ⟨a, b, c⟩ := t
  rcases h0 : μ (a, b) with _ | m0 <;> rcases h1 : μ (b, c) with _ | m1 <;>
    rcases h2 : μ (c, a) with _ | m2 <;>
    simp only [Tri.children, h0, h1, h2, Tri.darts, List.mem_cons, List.not_mem_nil, or_false, forall_eq_or_imp, forall_eq,
      exists_eq_or_imp, exists_eq_left, Prod.mk.injEq, Option.some.injEq, reduceCtorEq, false_or, or_true, true_or, and_true,
      and_self, or_self]

theorem children_congr {t : Tri} (h : ∀ e ∈ t.darts, μ₁ e = μ₂ e) : t.children μ₁ = t.children μ₂ := by
  obtain ⟨a, b, c⟩ := t
  simp only [Tri.darts, List.mem_cons, List.not_mem_nil, or_false, forall_eq_or_imp, forall_eq] at h
  simp only [Tri.children, h.1, h.2.1, h.2.2]

/-- one triangle: the two steps, or both at once -/
theorem children_two {t : Tri} {n : Nat} (h1 : ∀ e m, μ₁ e = some m → n ≤ m) (h2 : ∀ e, (μ₂ e).isSome → e.1 < n ∧ e.2 < n)
    (hsep : (∀ e ∈ t.darts, μ₁ e = none) ∨ ∀ e ∈ t.darts, μ₂ e = none) (h3 : ∀ e ∈ t.darts, μ₃ e = (μ₁ e).or (μ₂ e)) :
    (t.children μ₁).flatMap (Tri.children μ₂) = t.children μ₃ := by
  rcases hsep with h | h
  · rw [children_none _ _ h, List.flatMap_cons, List.flatMap_nil, List.append_nil]
    exact children_congr fun e he => by rw [h3 e he, h e he]; rfl
  · rw [show t.children μ₃ = t.children μ₁ from children_congr fun e he => by rw [h3 e he, h e he, Option.or_none]]
    have : ∀ d ∈ t.children μ₁, d.children μ₂ = [d] := fun d hd => children_none _ _ fun e he => by
      rcases children_darts_new d hd e he with h4 | ⟨e', -, h4⟩
      · exact h e h4
      · by_contra hne
        have h5 := h2 e (Option.isSome_iff_ne_none.2 hne)
        rcases h4 with h4 | h4
        · exact absurd (h1 _ _ h4) (Nat.not_le.2 h5.1)
        · exact absurd (h1 _ _ h4) (Nat.not_le.2 h5.2)
    rw [List.flatMap_congr this]
    simp

end tri

section mesh
variable {P D : Type}

/-- what `addOne` does depends on the data of the input cell only -/
theorem addOne_congr {a b m : Mesh P D} {x y : CId × Tri} (ht : x.2 = y.2) (hd : a.dataAt x.1 = b.dataAt y.1) :
    addOne a m x = addOne b m y := by
  unfold addOne addPass
  rw [ht]
  unfold Prog.bind
  rcases addFace y.2.1 y.2.2.1 y.2.2.2 (⟨Filt.new, m⟩ : St P D) with ⟨e | q, s⟩
  · rfl
  · have key : passCellData a x.1 q s = passCellData b y.1 q s := by
      unfold passCellData
      unfold Mesh.dataAt at hd
      rcases q with _ | q
      · rfl
      · rcases ha : a.cellData with _ | da <;> rcases hb : b.cellData with _ | db <;>
          simp only [ha, hb, Option.bind_none, Option.bind_some] at hd ⊢
        · rw [← hd]
        · rw [hd]
        · rw [hd]
    simp only [key]

theorem foldl_addOne_congr {a b : Mesh P D} {L L' : List (CId × Tri)}
    (h : L.map (fun x => (a.dataAt x.1, x.2)) = L'.map fun x => (b.dataAt x.1, x.2)) (m : Mesh P D) :
    L.foldl (addOne a) m = L'.foldl (addOne b) m := by
  induction L generalizing L' m with
  | nil =>
    cases L' with
    | nil => rfl
    | cons y L' => cases h
  | cons x L ih =>
    cases L' with
    | nil => cases h
    | cons y L' =>
      simp only [List.map_cons, List.cons.injEq, Prod.mk.injEq] at h
      rw [List.foldl_cons, List.foldl_cons, addOne_congr h.1.2 h.1.1, ih h.2]

/-- the triangles of a run with their data, from the triangles of its input with theirs -/
theorem childItems_dense {m : Mesh P D} {μ : Edge → Option PId} (u : Bool) {L : List (Option D × Tri)}
    (hc : m.cells = AMap.dense (L.map fun x => some x.2.cell)) (hd : ∀ k : Nat, ∀ x, L[k]? = some x → m.dataAt k = x.1) :
    ((childItems μ u m.cells).map Item.plain).map (fun x => (m.dataAt x.1, x.2)) =
      L.flatMap fun x => (x.2.children μ).map fun d => (x.1, d) := by
  rw [hc]
  have key : ∀ (i : Nat) (L : List (Option D × Tri)), (∀ k : Nat, ∀ x, L[k]? = some x → m.dataAt (i + k) = x.1) →
      ((childItems μ u (AMap.denseFrom i (L.map fun x => some x.2.cell))).map Item.plain).map (fun x => (m.dataAt x.1, x.2)) =
      L.flatMap fun x => (x.2.children μ).map fun d => (x.1, d) := by
    intro i L
    induction L generalizing i with
    | nil => intro _; rfl
    | cons x L ih =>
      intro h
      have h0 : m.dataAt i = x.1 := h 0 x rfl
      have h' := ih (i + 1) fun k y hy => by
        have := h (k + 1) y (by simpa using hy)
        rwa [show i + 1 + k = i + (k + 1) by omega]
      have e : childItems μ u (AMap.denseFrom i ((x :: L).map fun x => some x.2.cell)) =
          childItemsOf μ u i x.2 ++ childItems μ u (AMap.denseFrom (i + 1) (L.map fun x => some x.2.cell)) := rfl
      rw [e, List.map_append, List.map_append, h', List.flatMap_cons]
      congr 1
      simp only [childItemsOf, List.map_map]
      refine List.map_congr_left fun d _ => ?_
      simp only [Function.comp, Item.plain, h0]
  exact key 0 L fun k x h => by rw [Nat.zero_add]; exact hd k x h

/-- Two runs one after the other, and one run that splits the edges of both: if every triangle is touched by one of the two
only, the result is the same mesh, as soon as the points are. -/
theorem FaceSplitResult.two {lib lib₁ : QELib} {inp mid out out' : Mesh P D} {f₁ f₁' f₂ f₂' f₃ f₃' : Filt} {u₁ u₂ u₃ : Bool}
    {μ₁ μ₂ μ₃ : Edge → Option PId} {pts₁ pts : List P} (R₁ : FaceSplitResult lib₁ inp mid f₁ f₁' u₁ μ₁ pts₁)
    (R₂ : FaceSplitResult lib mid out f₂ f₂' u₂ μ₂ pts) (R₃ : FaceSplitResult lib inp out' f₃ f₃' u₃ μ₃ pts)
    (h2 : ∀ e, (μ₂ e).isSome → e.1 < inp.points.length ∧ e.2 < inp.points.length)
    (hsep : ∀ t ∈ inp.tris, (∀ e ∈ t.darts, μ₁ e = none) ∨ ∀ e ∈ t.darts, μ₂ e = none)
    (h3 : ∀ e ∈ dartsOf inp.tris, μ₃ e = (μ₁ e).or (μ₂ e)) : out = out' := by
  rw [R₂.out, R₃.out]
  congr 1
  refine foldl_addOne_congr ?_ _
  have hL := R₁.built.cells
  rw [← childItems_tris μ₁ u₁] at hL
  rw [childItems_dense u₂ (L := (childItems μ₁ u₁ inp.cells).map fun x => (inp.dataAt x.1, x.2.1)) (by
    rw [hL, List.map_map, List.map_map]; rfl) (by
    intro k x hx
    rw [List.getElem?_map, Option.map_eq_some_iff] at hx
    obtain ⟨y, hy, rfl⟩ := hx
    rw [R₁.data k, hy]; rfl)]
  have hc : ∀ c ∈ inp.cells, ∀ t, Cell.tri? c.2 = some t → (t.children μ₁).flatMap (Tri.children μ₂) = t.children μ₃ := by
    intro c hcm t ht
    have htm : t ∈ inp.tris := List.mem_filterMap.2 ⟨c, hcm, ht⟩
    exact children_two (fun e m h => (R₁.fresh e m h).1) h2 (hsep t htm) fun e he => h3 e (mem_dartsOf.2 ⟨t, htm, he⟩)
  unfold childItems
  generalize inp.cells = C at hc
  induction C with
  | nil => rfl
  | cons c C ih =>
    rw [List.flatMap_cons, List.flatMap_cons, List.map_append, List.map_append, List.map_append, List.flatMap_append,
      ih fun c' h' => hc c' (List.mem_cons_of_mem _ h')]
    congr 1
    rcases ht : Cell.tri? c.2 with _ | t
    · rfl
    · simp only [childItemsOf, List.map_map, List.flatMap_map]
      rw [← hc c List.mem_cons_self t ht, List.map_flatMap]
      rfl

end mesh

section labels

theorem foldl_addEdgeTo_append (ds E F : List Edge) (h : ∀ e ∈ ds, e ∉ E ∧ e.sym ∉ E) :
    ds.foldl addEdgeTo (E ++ F) = E ++ ds.foldl addEdgeTo F := by
  induction ds generalizing F with
  | nil => rfl
  | cons d ds ih =>
    have hd := h d List.mem_cons_self
    rw [List.foldl_cons, List.foldl_cons, ← ih _ fun e he => h e (List.mem_cons_of_mem _ he)]
    congr 1
    unfold addEdgeTo
    have h1 : (E ++ F).contains d = F.contains d := by
      rw [Bool.eq_iff_iff]; simp [hd.1]
    have h2 : (E ++ F).contains d.sym = F.contains d.sym := by
      rw [Bool.eq_iff_iff]; simp [hd.2]
    rw [h1, h2]
    split
    · rfl
    · rw [List.append_assoc]

/-- no edge of one part is an edge of the other -/
theorem Tri.Apart.edge {t : Tri} {S : List Tri} (h : t.Apart S) {e : Edge} (he : e ∈ t.darts) :
    e ∉ edgeList S ∧ e.sym ∉ edgeList S := by
  rw [← not_or, mem_edgeList, not_or]
  constructor
  · intro hc
    obtain ⟨s, h1, h2⟩ := mem_dartsOf.1 hc
    exact (h s h1 e h2).1 he
  · intro hc
    obtain ⟨s, h1, h2⟩ := mem_dartsOf.1 hc
    exact (h s h1 _ h2).2 (by rw [Edge.sym_sym]; exact he)

theorem edgeList_append {S T : List Tri} (h : ∀ t ∈ T, t.Apart S) : edgeList (S ++ T) = edgeList S ++ edgeList T := by
  have e : dartsOf (S ++ T) = dartsOf S ++ dartsOf T := List.flatMap_append
  conv_lhs => unfold edgeList
  rw [e, List.foldl_append]
  have := foldl_addEdgeTo_append (dartsOf T) (edgeList S) [] fun e he => by
    obtain ⟨t, h1, h2⟩ := mem_dartsOf.1 he
    exact (h t h1).edge h2
  rw [List.append_nil] at this
  exact this

theorem labelOf_both (n : Nat) (E F : List Edge) (e : Edge) :
    labelOf n (E ++ F) e = (labelOf n E e).or (labelOf (n + E.length) F e) := by
  unfold labelOf
  rw [List.findIdx?_append]
  rcases E.findIdx? _ with _ | i <;> rcases F.findIdx? _ with _ | j <;>
    simp [Nat.add_assoc, Nat.add_comm E.length]

theorem lastLabel_both (n : Nat) (E F : List Edge) (e : Edge) :
    lastLabel n (E ++ F) e = (lastLabel (n + E.length) F e).or (lastLabel n E e) := by
  induction F using List.reverseRecOn with
  | nil => simp [lastLabel_nil]
  | append_singleton F x ih =>
    rw [← List.append_assoc, lastLabel_append, lastLabel_append, ih]
    split
    · simp [Nat.add_assoc]
    · rfl

theorem lastLabel_none {n : Nat} {E : List Edge} {e : Edge} (h : e ∉ E ∧ e.sym ∉ E) : lastLabel n E e = none := by
  rcases hc : lastLabel n E e with _ | m
  · rfl
  · obtain ⟨i, e', h1, h2, -⟩ := lastLabel_some hc
    rcases h2 with rfl | rfl
    · exact absurd (List.mem_of_getElem? h1) h.1
    · exact absurd (List.mem_of_getElem? h1) h.2

end labels

section runs
variable {K P D : Type} [Field K] [Zero P] [Add P] [SMul K P] {lib₁ lib : QELib} {inp mid out out' : Mesh P D}

theorem selected_append {s s' : List CId} (m : Mesh P D) (h : s ≠ []) (h' : s' ≠ []) :
    m.selected (s ++ s') = m.selected s ++ m.selected s' := by
  unfold Mesh.selected
  rw [if_neg (by simp [h]), if_neg (by simpa using h), if_neg (by simpa using h'), List.filterMap_append]

theorem selected_tris (hv : inp.Valid) {s : List CId} {t : Tri} (h : t ∈ inp.selected s) : t ∈ inp.tris := by
  by_cases hs : s = []
  · subst hs; exact h
  · obtain ⟨k, -, hk⟩ := (mem_selected hs).1 h
    exact hv.mem_tris.2 ⟨k, hv.triAt_iff.1 hk⟩

/-- the positions of a mesh that was written with them -/
theorem coords_dense {pts : List P} (h : mid.points = AMap.dense pts) : (List.range mid.points.length).map mid.coord = pts := by
  have hl : mid.points.length = pts.length := by rw [h, AMap.length_dense]
  apply List.ext_getElem?
  intro i
  rw [hl, List.getElem?_map]
  by_cases hi : i < pts.length
  · rw [List.getElem?_range hi, List.getElem?_eq_getElem hi]
    simp only [Option.map_some, Mesh.coord, h]
    rw [AMap.find?_dense, List.getElem?_eq_getElem hi]; rfl
  · rw [List.getElem?_eq_none (by simpa using hi), List.getElem?_eq_none (by simpa using hi)]; rfl

/-- the midpoint of an edge is the same before and after, if the old points are where they were -/
theorem linearPoint_kept {rest : List P} (h : mid.points = AMap.dense ((List.range inp.points.length).map inp.coord ++ rest))
    (hv : inp.Valid) {e : Edge} (he : inp.IsEdge e) : linearPoint K mid e = linearPoint K inp e := by
  have key : ∀ v, v < inp.points.length → mid.getPoint v = inp.getPoint v := fun v hlt => by
    rw [hv.getPoint_ok hlt]
    unfold Mesh.getPoint
    rw [h, AMap.find?_dense, List.getElem?_append_left (by simpa using hlt), List.getElem?_map, List.getElem?_range hlt]
    rfl
  unfold linearPoint
  rw [key _ (hv.isEdge_lt he).1, key _ (hv.isEdge_lt he).2]

/-- cell filters: the labels of the two steps and of the one -/
theorem two_cells {f₁ f₁' f₂ f₂' f₃ f₃' : Filt} {u₁ u₂ u₃ : Bool} {s₁ s₂ s₂' : List CId} {pts₁ pts : List P} (hv : inp.Valid)
    (R₁ : FaceSplitResult lib₁ inp mid f₁ f₁' u₁ (inp.edgePoint s₁) pts₁)
    (R₂ : FaceSplitResult lib mid out f₂ f₂' u₂ (mid.edgePoint s₂') pts)
    (R₃ : FaceSplitResult lib inp out' f₃ f₃' u₃ (inp.edgePoint (s₁ ++ s₂)) pts)
    (hlen : pts₁.length = inp.points.length + (edgeList (inp.selected s₁)).length) (h1 : s₁ ≠ []) (h2 : s₂ ≠ [])
    (hsame : mid.selected s₂' = inp.selected s₂)
    (hsep : ∀ t ∈ inp.tris, t.Apart (inp.selected s₁) ∨ t.Apart (inp.selected s₂)) : out = out' := by
  have hmid : mid.points.length = inp.points.length + (edgeList (inp.selected s₁)).length := by
    rw [R₁.points, AMap.length_dense, hlen]
  have none_of : ∀ {n : Nat} {t : Tri} {S : List Tri}, t.Apart S → ∀ e ∈ t.darts, labelOf n (edgeList S) e = none :=
    fun h e he => by
      by_contra hc
      have := (labelOf_isSome _ _ _).1 (Option.isSome_iff_ne_none.2 hc)
      exact (not_or.2 (h.edge he)) this
  refine R₁.two R₂ R₃ ?_ ?_ ?_
  · intro e he
    unfold Mesh.edgePoint at he
    rw [hsame, labelOf_isSome, mem_edgeList] at he
    have hin : ∀ e ∈ dartsOf (inp.selected s₂), e ∈ dartsOf inp.tris := fun e he => by
      obtain ⟨t, g1, g2⟩ := mem_dartsOf.1 he
      exact mem_dartsOf.2 ⟨t, selected_tris hv g1, g2⟩
    rcases he with he | he
    · exact hv.isEdge_lt (hv.isEdge_of_dart (hin _ he))
    · exact (hv.isEdge_lt (hv.isEdge_of_dart (hin _ he))).symm
  · intro t ht
    unfold Mesh.edgePoint
    rw [hsame]
    exact (hsep t ht).imp none_of none_of
  · intro e _
    unfold Mesh.edgePoint
    rw [hsame, hmid, selected_append _ h1 h2, edgeList_append, labelOf_both]
    intro t ht
    refine (hsep t (selected_tris hv ht)).resolve_right fun hc => Tri.apart_self hc ht

/-- edge filters -/
theorem two_lists {f₁ f₁' f₂ f₂' f₃ f₃' : Filt} {u₁ u₂ u₃ : Bool} {l₁ l₂ : List (Option Edge)} {pts₁ pts : List P} (hv : inp.Valid)
    (R₁ : FaceSplitResult lib₁ inp mid f₁ f₁' u₁ (inp.listPoint l₁) pts₁)
    (R₂ : FaceSplitResult lib mid out f₂ f₂' u₂ (mid.listPoint l₂) pts)
    (R₃ : FaceSplitResult lib inp out' f₃ f₃' u₃ (inp.listPoint (l₁ ++ l₂)) pts)
    (hlen : pts₁.length = inp.points.length + (inp.selectedEdges l₁).length) (h1 : l₁ ≠ []) (h2 : l₂ ≠ [])
    (hok : inp.EdgeSelOK l₂)
    (hsep : ∀ t ∈ inp.tris, (∀ e ∈ t.darts, some e ∉ l₁ ∧ some e.sym ∉ l₁) ∨ ∀ e ∈ t.darts, some e ∉ l₂ ∧ some e.sym ∉ l₂) :
    out = out' := by
  have hmid : mid.points.length = inp.points.length + (inp.selectedEdges l₁).length := by
    rw [R₁.points, AMap.length_dense, hlen]
  have sel : ∀ {m : Mesh P D} {l : List (Option Edge)}, l ≠ [] → m.selectedEdges l = l.filterMap id := fun h => by
    unfold Mesh.selectedEdges; rw [if_neg (by simpa using h)]
  have none_of : ∀ {n : Nat} {t : Tri} {l : List (Option Edge)}, (∀ e ∈ t.darts, some e ∉ l ∧ some e.sym ∉ l) →
      ∀ e ∈ t.darts, lastLabel n (l.filterMap id) e = none := fun h e he => lastLabel_none (by simpa using h e he)
  have hsep' : ∀ t ∈ inp.tris, (∀ e ∈ t.darts, inp.listPoint l₁ e = none) ∨ ∀ e ∈ t.darts, mid.listPoint l₂ e = none := by
    intro t ht
    unfold Mesh.listPoint
    rw [sel h1, sel h2]
    exact (hsep t ht).imp none_of none_of
  refine R₁.two R₂ R₃ ?_ hsep' ?_
  · intro e he
    obtain ⟨m, hm⟩ := Option.isSome_iff_exists.1 he
    unfold Mesh.listPoint at hm
    rw [sel h2] at hm
    obtain ⟨i, e', g1, g2, -⟩ := lastLabel_some hm
    have := hv.isEdge_lt (hok e' (by simpa using List.mem_of_getElem? g1))
    rcases g2 with rfl | rfl
    · exact this
    · exact this.symm
  · intro e he
    obtain ⟨t, g1, g2⟩ := mem_dartsOf.1 he
    have hs := hsep' t g1
    have e3 : inp.listPoint (l₁ ++ l₂) e = (mid.listPoint l₂ e).or (inp.listPoint l₁ e) := by
      unfold Mesh.listPoint
      rw [hmid, sel h1, sel h2, sel (by simp [h1]), List.filterMap_append, lastLabel_both]
    rw [e3]
    rcases hs with hs | hs
    · rw [hs e g2, Option.or_none, Option.none_or]
    · rw [hs e g2, Option.or_none, Option.none_or]

/-- triangles of a mesh can be selected -/
theorem exists_selection (hv : mid.Valid) {S : List Tri} (hne : S ≠ []) (h : ∀ t ∈ S, t ∈ mid.tris) :
    ∃ s, s ≠ [] ∧ mid.SelOK s ∧ mid.selected s = S := by
  have key : ∃ s : List CId, s.length = S.length ∧ mid.SelOK s ∧ s.filterMap mid.triAt = S := by
    clear hne
    induction S with
    | nil => exact ⟨[], rfl, fun k hk => (by cases hk), rfl⟩
    | cons t S ih =>
      obtain ⟨s, h1, h2, h3⟩ := ih fun t' ht' => h t' (List.mem_cons_of_mem _ ht')
      obtain ⟨k, hk⟩ := hv.mem_tris.1 (h t List.mem_cons_self)
      refine ⟨k :: s, by simp only [List.length_cons, h1], ?_, ?_⟩
      · intro j hj
        rcases List.mem_cons.1 hj with rfl | hj
        · exact List.mem_map.2 ⟨_, hk, rfl⟩
        · exact h2 j hj
      · rw [List.filterMap_cons_some (hv.triAt_iff.2 hk), h3]
  obtain ⟨s, h1, h2, h3⟩ := key
  have hs : s ≠ [] := fun hc => hne (List.length_eq_zero_iff.1 (by rw [← h1, hc]; rfl))
  refine ⟨s, hs, h2, ?_⟩
  unfold Mesh.selected
  rw [if_neg (by simpa using hs), h3]

end runs

/-! SquareThree. -/
section sqrt3
variable {α : Type} {σ σ₁ σ₂ σ₃ σa σb : Edge → Option PId}

/-- the triangles at the edges of a subdivided triangle, and the marked edges afterwards -/
def sq3Sides (σ : Edge → Option PId) (a : α) : List Edge → List Edge → List (α × Tri) × List Edge
  | M, [] => ([], M)
  | M, e :: es =>
    if e ∈ M then sq3Sides σ a M es
    else
      match σ e.sym with
      | none => ((a, sq3Piece σ ((σ e).getD 0) e) :: (sq3Sides σ a M es).1, (sq3Sides σ a M es).2)
      | some v' => ((a, sq3Piece σ ((σ e).getD 0) e) :: (a, sq3Piece σ v' e.sym) :: (sq3Sides σ a (e.sym :: M) es).1,
          (sq3Sides σ a (e.sym :: M) es).2)

/-- the triangles that SquareThree makes of a list of triangles that carry something -/
def sq3Ann (σ : Edge → Option PId) : List Edge → List (α × Tri) → List (α × Tri)
  | _, [] => []
  | M, (a, t) :: L =>
    match σ (t.1, t.2.1) with
    | none => (a, t) :: sq3Ann σ M L
    | some _ => (sq3Sides σ a M t.darts).1 ++ sq3Ann σ (sq3Sides σ a M t.darts).2 L

theorem sq3Items_darts (u : Bool) (g : CId → α) (id : CId) (t : Tri) (es : List Edge) : ∀ M,
    (sq3Items σ u M (es.map fun e => (id, t, some e))).map (fun x => (g x.1, x.2.1)) = (sq3Sides σ (g id) M es).1 ∧
    sq3Marks σ M (es.map fun e => (id, t, some e)) = (sq3Sides σ (g id) M es).2 := by
  induction es with
  | nil => intro M; exact ⟨rfl, rfl⟩
  | cons e es ih =>
    intro M
    simp only [List.map_cons, sq3Items, sq3Marks, sq3Sides]
    by_cases he : e ∈ M
    · simp only [he, if_true]; exact ih M
    · simp only [he, if_false]
      rcases σ e.sym with _ | v'
      · exact ⟨by simp only [List.map_cons, (ih M).1], (ih M).2⟩
      · exact ⟨by simp only [List.map_cons, (ih (e.sym :: M)).1], (ih (e.sym :: M)).2⟩

theorem sq3Items_ann (u : Bool) (g : CId → α) (C : AMap (Option Cell)) : ∀ M,
    (sq3Items σ u M (sq3Jobs σ C)).map (fun x => (g x.1, x.2.1)) =
      sq3Ann σ M (C.filterMap fun c => (Cell.tri? c.2).map fun t => (g c.1, t)) := by
  induction C with
  | nil => intro M; rfl
  | cons c C ih =>
    intro M
    have e : sq3Jobs σ (c :: C) = (match Cell.tri? c.2 with
      | some t => sq3JobsOf σ c.1 t
      | none => []) ++ sq3Jobs σ C := rfl
    rw [e, sq3Items_append, List.map_append, ih]
    rcases ht : Cell.tri? c.2 with _ | t
    · rw [List.filterMap_cons_none (by rw [ht]; rfl)]; rfl
    · rw [List.filterMap_cons_some (by rw [ht]; rfl)]
      rw [show ∀ a L, sq3Ann σ M ((a, t) :: L) = match σ (t.1, t.2.1) with
        | none => (a, t) :: sq3Ann σ M L
        | some _ => (sq3Sides σ a M t.darts).1 ++ sq3Ann σ (sq3Sides σ a M t.darts).2 L from fun _ _ => rfl]
      simp only [sq3JobsOf]
      rcases hs : σ (t.1, t.2.1) with _ | v
      · rfl
      · simp only
        rw [(sq3Items_darts u g c.1 t t.darts M).1, (sq3Items_darts u g c.1 t t.darts M).2]

theorem dense_ann {g : CId → α} {L : List (α × Tri)} (hd : ∀ k : Nat, ∀ x, L[k]? = some x → g k = x.1) :
    (AMap.dense (L.map fun x => some x.2.cell)).filterMap (fun c => (Cell.tri? c.2).map fun t => (g c.1, t)) = L := by
  have key : ∀ (i : Nat) (L : List (α × Tri)), (∀ k : Nat, ∀ x, L[k]? = some x → g (i + k) = x.1) →
      (AMap.denseFrom i (L.map fun x => some x.2.cell)).filterMap (fun c => (Cell.tri? c.2).map fun t => (g c.1, t)) = L := by
    intro i L
    induction L generalizing i with
    | nil => intro _; rfl
    | cons x L ih =>
      intro h
      have h0 : g i = x.1 := h 0 x rfl
      have h' := ih (i + 1) fun k y hy => by
        have := h (k + 1) y (by simpa using hy)
        rwa [show i + 1 + k = i + (k + 1) by omega]
      have e : AMap.denseFrom i ((x :: L).map fun x => some x.2.cell) =
          (i, some x.2.cell) :: AMap.denseFrom (i + 1) (L.map fun x => some x.2.cell) := rfl
      rw [e, List.filterMap_cons_some (b := x) (by rw [tri?_cell]; simp [h0]), h']
  exact key 0 L fun k x h => by rw [Nat.zero_add]; exact hd k x h

/-- one subdivided triangle, in a run that subdivides others too -/
theorem sq3Sides_same (a : α) (es : List Edge) (h : ∀ e ∈ es, σ₃ e = σa e ∧ σ₃ e.sym = σa e.sym ∧ σb e = none) : ∀ M M' : List Edge,
    (∀ x : Edge, x ∈ M' → x ∈ M ∨ (σb x).isSome) → (∀ x ∈ M, x ∈ M') →
    (sq3Sides σ₃ a M' es).1 = (sq3Sides σa a M es).1 ∧
    ∃ N : List Edge, (∀ x, x ∈ (sq3Sides σa a M es).2 ↔ x ∈ N ∨ x ∈ M) ∧ (∀ x, x ∈ (sq3Sides σ₃ a M' es).2 ↔ x ∈ N ∨ x ∈ M') ∧
      ∀ x ∈ N, (σa x).isSome := by
  induction es with
  | nil => intro M M' _ _; exact ⟨rfl, [], by simp [sq3Sides], by simp [sq3Sides], by simp⟩
  | cons e es ih =>
    intro M M' h1 h2
    obtain ⟨k1, k2, k3⟩ := h e List.mem_cons_self
    have ih' := ih fun x hx => h x (List.mem_cons_of_mem _ hx)
    have hm : e ∈ M' ↔ e ∈ M := ⟨fun hx => (h1 e hx).resolve_right (by simp [k3]), h2 e⟩
    have p1 : sq3Piece σ₃ ((σ₃ e).getD 0) e = sq3Piece σa ((σa e).getD 0) e := by unfold sq3Piece; rw [k1, k2]
    simp only [sq3Sides, hm, k2, p1]
    by_cases he : e ∈ M
    · simp only [he, if_true]; exact ih' M M' h1 h2
    · simp only [he, if_false]
      rcases hs : σa e.sym with _ | v'
      · obtain ⟨q1, q2⟩ := ih' M M' h1 h2
        exact ⟨by simp only [q1], q2⟩
      · have p2 : sq3Piece σ₃ v' e.sym = sq3Piece σa v' e.sym := by unfold sq3Piece; rw [Edge.sym_sym, k1]
        obtain ⟨q1, N, q2, q3, q4⟩ := ih' (e.sym :: M) (e.sym :: M')
          (fun x hx => by
            rcases List.mem_cons.1 hx with rfl | hx
            · exact Or.inl List.mem_cons_self
            · exact (h1 x hx).imp_left (List.mem_cons_of_mem _))
          (fun x hx => by
            rcases List.mem_cons.1 hx with rfl | hx
            · exact List.mem_cons_self
            · exact List.mem_cons_of_mem _ (h2 x hx))
        refine ⟨by simp only [q1, p2], e.sym :: N, fun x => ?_, fun x => ?_, fun x hx => ?_⟩
        · rw [q2, List.mem_cons, List.mem_cons]; tauto
        · rw [q3, List.mem_cons, List.mem_cons]; tauto
        · rcases List.mem_cons.1 hx with rfl | hx
          · rw [hs]; rfl
          · exact q4 x hx

/-- the new triangles are not subdivided by the second run -/
theorem sq3Sides_new {n : Nat} (a : α) (es : List Edge) (h : ∀ e ∈ es, (σ₁ e).isSome ∧ σ₂ e = none)
    (h1 : ∀ e v, σ₁ e = some v → n ≤ v) (h2 : ∀ e, (σ₂ e).isSome → e.1 < n) : ∀ M,
    ∀ x ∈ (sq3Sides σ₁ a M es).1, σ₂ (x.2.1, x.2.2.1) = none := by
  induction es with
  | nil => intro M x hx; cases hx
  | cons e es ih =>
    intro M x hx
    have ih' := ih fun x hx => h x (List.mem_cons_of_mem _ hx)
    obtain ⟨k1, k2⟩ := h e List.mem_cons_self
    obtain ⟨v, hv⟩ := Option.isSome_iff_exists.1 k1
    have big : ∀ {p q : PId}, n ≤ p → σ₂ (p, q) = none := fun {p q} hp => by
      by_contra hc
      exact absurd hp (Nat.not_le.2 (h2 (p, q) (Option.isSome_iff_ne_none.2 hc)))
    simp only [sq3Sides] at hx
    by_cases he : e ∈ M
    · simp only [he, if_true] at hx; exact ih' M x hx
    · simp only [he, if_false] at hx
      rcases hs : σ₁ e.sym with _ | v'
      · simp only [hs, List.mem_cons] at hx
        rcases hx with rfl | hx
        · simp only [sq3Piece, hs]; exact k2
        · exact ih' M x hx
      · simp only [hs, List.mem_cons] at hx
        rcases hx with rfl | rfl | hx
        · simp only [sq3Piece, hs, hv]; exact big (h1 _ _ hv)
        · simp only [sq3Piece, Edge.sym_sym, hv]; exact big (h1 _ _ hs)
        · exact ih' _ x hx

theorem sq3Ann_skip {X Y : List (α × Tri)} (h : ∀ x ∈ X, σ (x.2.1, x.2.2.1) = none) (M : List Edge) :
    sq3Ann σ M (X ++ Y) = X ++ sq3Ann σ M Y := by
  induction X with
  | nil => rfl
  | cons x X ih =>
    obtain ⟨a, t⟩ := x
    have h0 : σ (t.1, t.2.1) = none := h (a, t) List.mem_cons_self
    simp only [List.cons_append, sq3Ann, h0, ih fun y hy => h y (List.mem_cons_of_mem _ hy)]

/-- SquareThree: the two steps, or both at once -/
theorem sq3Ann_two {n : Nat} (h1 : ∀ e v, σ₁ e = some v → n ≤ v) (h2 : ∀ e, (σ₂ e).isSome → e.1 < n)
    (h3 : ∀ e, σ₃ e = (σ₁ e).or (σ₂ e)) (L : List (α × Tri))
    (hL : ∀ x ∈ L, (∀ e ∈ x.2.darts, (σ₁ e).isSome ∧ σ₂ e = none ∧ σ₂ e.sym = none) ∨
      (∀ e ∈ x.2.darts, (σ₂ e).isSome ∧ σ₁ e = none ∧ σ₁ e.sym = none) ∨ ∀ e ∈ x.2.darts, σ₁ e = none ∧ σ₂ e = none) :
    ∀ M₁ M₂ M₃, (∀ x, x ∈ M₃ ↔ x ∈ M₁ ∨ x ∈ M₂) → (∀ x ∈ M₁, (σ₁ x).isSome) → (∀ x ∈ M₂, (σ₂ x).isSome) →
    sq3Ann σ₂ M₂ (sq3Ann σ₁ M₁ L) = sq3Ann σ₃ M₃ L := by
  induction L with
  | nil => intro _ _ _ _ _ _; rfl
  | cons x L ih =>
    intro M₁ M₂ M₃ g3 g1 g2
    obtain ⟨a, t⟩ := x
    have ih' := ih fun x hx => hL x (List.mem_cons_of_mem _ hx)
    have hd : (t.1, t.2.1) ∈ t.darts := by simp [Tri.darts]
    rcases hL (a, t) List.mem_cons_self with hc | hc | hc
    · obtain ⟨v, hv⟩ := Option.isSome_iff_exists.1 (hc _ hd).1
      obtain ⟨q1, N, q2, q3, q4⟩ := sq3Sides_same (σ₃ := σ₃) (σa := σ₁) (σb := σ₂) a t.darts (fun e he => by
        obtain ⟨-, r2, r3⟩ := hc e he
        exact ⟨by rw [h3, r2, Option.or_none], by rw [h3, r3, Option.or_none], r2⟩) M₁ M₃
        (fun x hx => ((g3 x).1 hx).imp_right (g2 x)) (fun x hx => (g3 x).2 (Or.inl hx))
      have e1 : sq3Ann σ₁ M₁ ((a, t) :: L) = (sq3Sides σ₁ a M₁ t.darts).1 ++ sq3Ann σ₁ (sq3Sides σ₁ a M₁ t.darts).2 L := by
        simp only [sq3Ann, hv]
      have e3 : sq3Ann σ₃ M₃ ((a, t) :: L) = (sq3Sides σ₃ a M₃ t.darts).1 ++ sq3Ann σ₃ (sq3Sides σ₃ a M₃ t.darts).2 L := by
        simp only [sq3Ann, h3, hv, Option.some_or]
      rw [e1, e3, q1, sq3Ann_skip (sq3Sides_new a _ (fun e he => ⟨(hc e he).1, (hc e he).2.1⟩) h1 h2 M₁)]
      congr 1
      refine ih' _ _ _ (fun x => ?_) (fun x hx => ?_) g2
      · rw [q3, q2, g3]; tauto
      · rcases (q2 x).1 hx with hx | hx
        · exact q4 x hx
        · exact g1 x hx
    · obtain ⟨v, hv⟩ := Option.isSome_iff_exists.1 (hc _ hd).1
      have hn := (hc _ hd).2.1
      obtain ⟨q1, N, q2, q3, q4⟩ := sq3Sides_same (σ₃ := σ₃) (σa := σ₂) (σb := σ₁) a t.darts (fun e he => by
        obtain ⟨-, r2, r3⟩ := hc e he
        exact ⟨by rw [h3, r2, Option.none_or], by rw [h3, r3, Option.none_or], r2⟩) M₂ M₃
        (fun x hx => ((g3 x).1 hx).symm.imp_right (g1 x)) (fun x hx => (g3 x).2 (Or.inr hx))
      have e1 : sq3Ann σ₁ M₁ ((a, t) :: L) = (a, t) :: sq3Ann σ₁ M₁ L := by simp only [sq3Ann, hn]
      have e2 : sq3Ann σ₂ M₂ ((a, t) :: sq3Ann σ₁ M₁ L) =
          (sq3Sides σ₂ a M₂ t.darts).1 ++ sq3Ann σ₂ (sq3Sides σ₂ a M₂ t.darts).2 (sq3Ann σ₁ M₁ L) := by
        simp only [sq3Ann, hv]
      have e3 : sq3Ann σ₃ M₃ ((a, t) :: L) = (sq3Sides σ₃ a M₃ t.darts).1 ++ sq3Ann σ₃ (sq3Sides σ₃ a M₃ t.darts).2 L := by
        simp only [sq3Ann, h3, hn, hv, Option.none_or]
      rw [e1, e2, e3, q1]
      congr 1
      refine ih' _ _ _ (fun x => ?_) g1 (fun x hx => ?_)
      · rw [q3, q2, g3]; tauto
      · rcases (q2 x).1 hx with hx | hx
        · exact q4 x hx
        · exact g2 x hx
    · obtain ⟨c1, c2⟩ := hc _ hd
      simp only [sq3Ann, h3, c1, c2, Option.or_none]
      rw [ih' M₁ M₂ M₃ g3 g1 g2]

theorem centreIn_both (n : Nat) (S T : List Tri) (e : Edge) :
    centreIn n (S ++ T) e = (centreIn n S e).or (centreIn (n + S.length) T e) := by
  unfold centreIn
  rw [List.findIdx?_append]
  rcases S.findIdx? _ with _ | i <;> rcases T.findIdx? _ with _ | j <;>
    simp [Nat.add_assoc, Nat.add_comm S.length]

end sqrt3

section sqrt3Runs
variable {K P D : Type} [Field K] [Zero P] [Add P] [SMul K P] {lib₁ lib : QELib} {inp mid out out' : Mesh P D}

theorem two_sqrt3 {f₁ f₁' f₂ f₂' f₃ f₃' : Filt} {u₁ u₂ u₃ : Bool} {s₁ s₂ s₂' : List CId} {pts₁ pts : List P} (hv : inp.Valid)
    (R₁ : Sqrt3Result lib₁ inp mid f₁ f₁' u₁ (inp.centreOf s₁) pts₁)
    (R₂ : Sqrt3Result lib mid out f₂ f₂' u₂ (mid.centreOf s₂') pts)
    (R₃ : Sqrt3Result lib inp out' f₃ f₃' u₃ (inp.centreOf (s₁ ++ s₂)) pts)
    (hlen : pts₁.length = inp.points.length + (inp.selected s₁).length) (h1 : s₁ ≠ []) (h2 : s₂ ≠ [])
    (hsame : mid.selected s₂' = inp.selected s₂) (hsep : ∀ t ∈ inp.selected s₂, t.Apart (inp.selected s₁)) : out = out' := by
  have hmid : mid.points.length = inp.points.length + (inp.selected s₁).length := by
    rw [R₁.points, AMap.length_dense, hlen]
  have c1 : inp.centreOf s₁ = centreIn inp.points.length (inp.selected s₁) := rfl
  have c2 : mid.centreOf s₂' = centreIn (inp.points.length + (inp.selected s₁).length) (inp.selected s₂) := by
    have : mid.centreOf s₂' = centreIn mid.points.length (mid.selected s₂') := rfl
    rw [this, hmid, hsame]
  have c3 : inp.centreOf (s₁ ++ s₂) = centreIn inp.points.length (inp.selected s₁ ++ inp.selected s₂) := by
    have : inp.centreOf (s₁ ++ s₂) = centreIn inp.points.length (inp.selected (s₁ ++ s₂)) := rfl
    rw [this, selected_append _ h1 h2]
  have none_iff : ∀ {n : Nat} {S : List Tri} {e : Edge}, centreIn n S e = none ↔ e ∉ dartsOf S := fun {n S e} => by
    rw [← centreIn_isSome (n := n), ← Option.not_isSome_iff_eq_none]
  have apart : ∀ {t : Tri} {S : List Tri}, t.Apart S → ∀ e ∈ t.darts, e ∉ dartsOf S ∧ e.sym ∉ dartsOf S := by
    intro t S h e he
    have := h.edge he
    rw [← not_or, mem_edgeList, not_or] at this
    exact this
  rw [R₂.out, R₃.out]
  congr 1
  refine foldl_addOne_congr ?_ _
  rw [List.map_map, List.map_map]
  change (sq3Items _ _ _ _).map (fun x => (mid.dataAt x.1, x.2.1)) = (sq3Items _ _ _ _).map (fun x => (inp.dataAt x.1, x.2.1))
  rw [sq3Items_ann u₂ mid.dataAt, sq3Items_ann u₃ inp.dataAt]
  have hL := R₁.built.cells
  have hann : mid.cells.filterMap (fun c => (Cell.tri? c.2).map fun t => (mid.dataAt c.1, t)) =
      (sq3Items (inp.centreOf s₁) u₁ [] (sq3Jobs (inp.centreOf s₁) inp.cells)).map fun x => (inp.dataAt x.1, x.2.1) := by
    have := dense_ann (g := mid.dataAt) (L := (sq3Items (inp.centreOf s₁) u₁ [] (sq3Jobs (inp.centreOf s₁) inp.cells)).map
      fun x => (inp.dataAt x.1, x.2.1)) (by
        intro k x hx
        rw [List.getElem?_map, Option.map_eq_some_iff] at hx
        obtain ⟨y, hy, rfl⟩ := hx
        rw [R₁.data k, hy]; rfl)
    rw [← this, hL, List.map_map, List.map_map]
    rfl
  rw [hann, sq3Items_ann u₁ inp.dataAt]
  refine sq3Ann_two (n := inp.points.length) (fun e v h => (R₁.fresh e v h).1) ?_ ?_ _ ?_ [] [] [] (by simp) (by simp) (by simp)
  · intro e he
    rw [c2, centreIn_isSome] at he
    obtain ⟨t, g1, g2⟩ := mem_dartsOf.1 he
    exact (hv.isEdge_lt (hv.isEdge_of_dart (mem_dartsOf.2 ⟨t, selected_tris hv g1, g2⟩))).1
  · intro e
    rw [c1, c2, c3, centreIn_both]
  · intro x hx
    obtain ⟨c, hc, hx⟩ := List.mem_filterMap.1 hx
    rcases ht : Cell.tri? c.2 with _ | t
    · rw [ht] at hx; cases hx
    rw [ht] at hx
    cases hx
    have htm : t ∈ inp.tris := List.mem_filterMap.2 ⟨c, hc, ht⟩
    have uniq : ∀ {S : List Tri}, (∀ s ∈ S, s ∈ inp.tris) → ∀ e ∈ t.darts, e ∈ dartsOf S → t ∈ S := by
      intro S hS e he hes
      obtain ⟨s, g1, g2⟩ := mem_dartsOf.1 hes
      rw [hv.good.eq_of_dart htm (hS s g1) he g2]; exact g1
    have sub₁ : ∀ s ∈ inp.selected s₁, s ∈ inp.tris := fun s hs => selected_tris hv hs
    have sub₂ : ∀ s ∈ inp.selected s₂, s ∈ inp.tris := fun s hs => selected_tris hv hs
    rw [c1, c2]
    by_cases m1 : t ∈ inp.selected s₁
    · refine Or.inl fun e he => ⟨centreIn_isSome.2 (mem_dartsOf.2 ⟨t, m1, he⟩), none_iff.2 fun hc => ?_, none_iff.2 fun hc => ?_⟩
      · exact Tri.apart_self (hsep t (uniq sub₂ e he hc)) m1
      · obtain ⟨s, g1, g2⟩ := mem_dartsOf.1 hc
        exact (apart (hsep s g1) _ g2).2 (by rw [Edge.sym_sym]; exact mem_dartsOf.2 ⟨t, m1, he⟩)
    · by_cases m2 : t ∈ inp.selected s₂
      · refine Or.inr (Or.inl fun e he => ⟨centreIn_isSome.2 (mem_dartsOf.2 ⟨t, m2, he⟩), none_iff.2 ?_, none_iff.2 ?_⟩)
        · exact (apart (hsep t m2) e he).1
        · exact (apart (hsep t m2) e he).2
      · exact Or.inr (Or.inr fun e he => ⟨none_iff.2 fun hc => m1 (uniq sub₁ e he hc), none_iff.2 fun hc => m2 (uniq sub₂ e he hc)⟩)

end sqrt3Runs
end Verif
