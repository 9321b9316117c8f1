import Verif.Proofs.Schemes
import Verif.Proofs.EdgeFilters
import Mathlib.Algebra.BigOperators.Group.List.Basic
/-
Consequences of `FaceSplitResult`, the description of the output of a face-split filter.
-/
namespace Verif
set_option linter.unusedSectionVars false
variable {P D : Type}

theorem labelOf_getElem {n : Nat} {es : List Edge} (h : DistinctEdges es) {i : Nat} {e : Edge} (hi : es[i]? = some e) :
    labelOf n es e = some (n + i) := by
  have h1 : (labelOf n es e).isSome := (labelOf_isSome _ _ _).2 (Or.inl (List.mem_of_getElem? hi))
  obtain ⟨m, hm⟩ := Option.isSome_iff_exists.1 h1
  obtain ⟨j, e', hj, he', rfl⟩ := labelOf_some hm
  have : j = i := by
    obtain ⟨hi', hie⟩ := List.getElem?_eq_some_iff.1 hi
    obtain ⟨hj', hje⟩ := List.getElem?_eq_some_iff.1 hj
    rcases Nat.lt_trichotomy j i with hlt | heq | hlt
    · have := List.pairwise_iff_getElem.1 h j i hj' hi' hlt
      rw [hie, hje] at this
      rcases he' with rfl | rfl
      · exact absurd rfl this.1
      · exact absurd rfl this.2
    · exact heq
    · have := List.pairwise_iff_getElem.1 h i j hi' hj' hlt
      rw [hie, hje] at this
      rcases he' with rfl | rfl
      · exact absurd rfl this.1
      · exact absurd (Edge.sym_sym _).symm this.2
  rw [hm, this]

theorem labelOf_getElem_sym {n : Nat} {es : List Edge} (h : DistinctEdges es) {i : Nat} {e : Edge}
    (hi : es[i]? = some e) : labelOf n es e.sym = some (n + i) := by
  rw [labelOf_sym, labelOf_getElem h hi]

/-- number of children: one more than the number of split edges -/
theorem children_length (μ : Edge → Option PId) (t : Tri) :
    (t.children μ).length = 1 + (t.darts.filter fun e => (μ e).isSome).length := by
  obtain ⟨a, b, c⟩ := t
  simp only [Tri.children, Tri.darts]
  rcases h0 : μ (a, b) with _ | m0 <;> rcases h1 : μ (b, c) with _ | m1 <;> rcases h2 : μ (c, a) with _ | m2 <;>
    simp [h0, h1, h2]

/-- every corner of a triangle is a corner of one of its children -/
theorem children_has_corner (μ : Edge → Option PId) (t : Tri) {v : PId} (hv : v ∈ t.verts) :
    ∃ d ∈ t.children μ, v ∈ d.verts := by
  obtain ⟨a, b, c⟩ := t
  simp only [Tri.children]
  simp only [Tri.verts, List.mem_cons, List.not_mem_nil, or_false] at hv
  rcases h0 : μ (a, b) with _ | m0 <;> rcases h1 : μ (b, c) with _ | m1 <;> rcases h2 : μ (c, a) with _ | m2 <;>
    rcases hv with rfl | rfl | rfl <;> simp [Tri.verts]

/-- every new point of a triangle is a corner of one of its children -/
theorem children_has_new (μ : Edge → Option PId) (t : Tri) {e : Edge} (he : e ∈ t.darts) {m : PId} (hm : μ e = some m) :
    ∃ d ∈ t.children μ, m ∈ d.verts := by
  obtain ⟨a, b, c⟩ := t
  simp only [Tri.children]
  simp only [Tri.darts, List.mem_cons, List.not_mem_nil, or_false] at he
  rcases h0 : μ (a, b) with _ | m0 <;> rcases h1 : μ (b, c) with _ | m1 <;> rcases h2 : μ (c, a) with _ | m2 <;>
    rcases he with rfl | rfl | rfl <;> simp_all [Tri.verts]

/-- the two halves of a split edge -/
theorem children_halves (μ : Edge → Option PId) (t : Tri) {e : Edge} (he : e ∈ t.darts) {m : PId} (hm : μ e = some m) :
    (e.1, m) ∈ dartsOf (t.children μ) ∧ (m, e.2) ∈ dartsOf (t.children μ) := by
  obtain ⟨a, b, c⟩ := t
  simp only [Tri.children]
  simp only [Tri.darts, List.mem_cons, List.not_mem_nil, or_false] at he
  rcases h0 : μ (a, b) with _ | m0 <;> rcases h1 : μ (b, c) with _ | m1 <;> rcases h2 : μ (c, a) with _ | m2 <;>
    rcases he with rfl | rfl | rfl <;> simp_all [dartsOf, Tri.darts]

/-- an edge that is not split stays -/
theorem children_keep (μ : Edge → Option PId) (t : Tri) {e : Edge} (he : e ∈ t.darts) (hm : μ e = none) :
    e ∈ dartsOf (t.children μ) := by
  obtain ⟨a, b, c⟩ := t
  simp only [Tri.children]
  simp only [Tri.darts, List.mem_cons, List.not_mem_nil, or_false] at he
  rcases h0 : μ (a, b) with _ | m0 <;> rcases h1 : μ (b, c) with _ | m1 <;> rcases h2 : μ (c, a) with _ | m2 <;>
    rcases he with rfl | rfl | rfl <;> simp_all [dartsOf, Tri.darts]

/-- a triangle with no new point is kept -/
theorem children_none (μ : Edge → Option PId) (t : Tri) (h : ∀ e ∈ t.darts, μ e = none) : t.children μ = [t] := by
  obtain ⟨a, b, c⟩ := t
  simp only [Tri.darts, List.mem_cons, List.not_mem_nil, or_false, forall_eq_or_imp, forall_eq] at h
  simp [Tri.children, h.1, h.2.1, h.2.2]

/-- the middle triangle of a triangle with three new points -/
theorem children_all (μ : Edge → Option PId) (t : Tri) (h : ∀ e ∈ t.darts, (μ e).isSome) :
    (t.children μ).length = 4 := by
  rw [children_length, List.filter_eq_self.2 h]
  rfl

theorem allSplit_iff (μ : Edge → Option PId) (t : Tri) : allSplit μ t = true ↔ ∀ e ∈ t.darts, (μ e).isSome := by
  simp [allSplit, Tri.darts, and_assoc]

theorem mem_childItems {μ : Edge → Option PId} {u : Bool} {cells : AMap (Option Cell)} {x : Item} :
    x ∈ childItems μ u cells ↔ ∃ t : Tri, (x.1, some t.cell) ∈ cells ∧ x.2.1 ∈ t.children μ ∧
      x.2.2 = (allSplit μ t && !u) := by
  unfold childItems
  rw [List.mem_flatMap]
  constructor
  · rintro ⟨⟨k, c⟩, hc, hx⟩
    rcases c with _ | ⟨ty, pts⟩
    · simp [Cell.tri?] at hx
    · simp only at hx
      split at hx
      · rename_i t ht
        unfold childItemsOf at hx
        rw [List.mem_map] at hx
        obtain ⟨d, hd, rfl⟩ := hx
        refine ⟨t, ?_, hd, rfl⟩
        have : some (⟨ty, pts⟩ : Cell) = some t.cell := by
          unfold Cell.tri? at ht
          split at ht
          · rename_i heq
            cases ht; exact heq
          · cases ht
        simp only
        rw [← this]; exact hc
      · cases hx
  · rintro ⟨t, hc, hd, hb⟩
    refine ⟨_, hc, ?_⟩
    have : Cell.tri? (some t.cell) = some t := rfl
    simp only [this, childItemsOf, List.mem_map]
    exact ⟨x.2.1, hd, by rw [← hb]⟩

theorem mem_pushed {j k : Nat} {L : List Item} : k ∈ pushed j L ↔ ∃ i x, k = j + i ∧ L[i]? = some x ∧ x.2.2 = true := by
  induction L generalizing j with
  | nil => simp [pushed]
  | cons y L ih =>
    have hrest : (∃ i x, k = j + 1 + i ∧ L[i]? = some x ∧ x.2.2 = true) ↔
        ∃ i x, k = j + (i + 1) ∧ (y :: L)[i + 1]? = some x ∧ x.2.2 = true := by
      constructor
      · rintro ⟨i, x, h1, h2, h3⟩; exact ⟨i, x, by omega, by simpa using h2, h3⟩
      · rintro ⟨i, x, h1, h2, h3⟩; exact ⟨i, x, by omega, by simpa using h2, h3⟩
    constructor
    · intro h
      unfold pushed at h
      split at h
      · rename_i hy
        rcases List.mem_cons.1 h with rfl | h
        · exact ⟨0, y, rfl, rfl, hy⟩
        · obtain ⟨i, x, h1, h2, h3⟩ := hrest.1 (ih.1 h)
          exact ⟨i + 1, x, h1, h2, h3⟩
      · obtain ⟨i, x, h1, h2, h3⟩ := hrest.1 (ih.1 h)
        exact ⟨i + 1, x, h1, h2, h3⟩
    · rintro ⟨i, x, h1, h2, h3⟩
      unfold pushed
      rcases i with _ | i
      · simp only [List.getElem?_cons_zero, Option.some.injEq] at h2
        subst h2
        rw [if_pos h3]
        exact List.mem_cons.2 (Or.inl h1)
      · have := ih.2 (hrest.2 ⟨i, x, h1, h2, h3⟩)
        split
        · exact List.mem_cons.2 (Or.inr this)
        · exact this

theorem pushed_sorted (j : Nat) (L : List Item) : (pushed j L).Pairwise (· < ·) := by
  induction L generalizing j with
  | nil => simp [pushed]
  | cons y L ih =>
    unfold pushed
    split
    · rw [List.pairwise_cons]
      refine ⟨?_, ih _⟩
      intro k hk
      obtain ⟨i, x, h, _⟩ := mem_pushed.1 hk
      exact Nat.lt_of_lt_of_le (Nat.lt_succ_self j) (h ▸ Nat.le_add_right _ _)
    · exact ih _

namespace FaceSplitResult
variable {lib : QELib} {inp out : Mesh P D} {f f' : Filt} {u : Bool} {μ : Edge → Option PId} {pts : List P}

theorem tris (R : FaceSplitResult lib inp out f f' u μ pts) : out.tris = inp.tris.flatMap (Tri.children μ) := R.built.tris

theorem points_length (R : FaceSplitResult lib inp out f f' u μ pts) : out.points.length = pts.length := by
  rw [R.points, AMap.length_dense]

theorem good (R : FaceSplitResult lib inp out f f' u μ pts) (hv : inp.Valid) :
    GoodTris (inp.tris.flatMap (Tri.children μ)) := hv.good.children R.label

theorem child_verts_lt (R : FaceSplitResult lib inp out f f' u μ pts) (hv : inp.Valid) {d : Tri}
    (hd : d ∈ inp.tris.flatMap (Tri.children μ)) {v : PId} (h : v ∈ d.verts) : v < pts.length := by
  obtain ⟨t, ht, hd⟩ := List.mem_flatMap.1 hd
  rcases children_verts _ hd v h with h | ⟨e, he, hm⟩
  · exact Nat.lt_of_lt_of_le (hv.verts_lt ht h) R.longer
  · exact (R.fresh _ _ hm).2

theorem valid (R : FaceSplitResult lib inp out f f' u μ pts) (hv : inp.Valid) : out.Valid :=
  R.built.valid (R.good hv) pts R.points (fun _ hd _ h => R.child_verts_lt hv hd h) R.edgeCells

theorem ringOK (R : FaceSplitResult lib inp out f f' u μ pts) (hv : inp.Valid) (hl : lib.Lawful) : out.RingOK := by
  have := hl _ _ _ (R.valid hv)
  rw [← R.ring] at this
  exact this

/-- an edge that received a point is no edge of the output -/
theorem split_edge_gone (R : FaceSplitResult lib inp out f f' u μ pts) (hv : inp.Valid) {e : Edge} {m : PId}
    (hm : μ e = some m) (h1 : e.1 < inp.points.length) (h2 : e.2 < inp.points.length) : ¬ out.IsEdge e := by
  intro he
  have key : ∀ e : Edge, e.1 < inp.points.length → e.2 < inp.points.length → (μ e).isSome →
      e ∉ dartsOf out.tris := by
    rintro ⟨p, q⟩ hp hq hsome hd
    rw [R.tris] at hd
    obtain ⟨d, hd, hpq⟩ := mem_dartsOf.1 hd
    obtain ⟨t, ht, hd⟩ := List.mem_flatMap.1 hd
    have hold : ∀ e m, μ e = some m → p ≠ m ∧ q ≠ m := by
      intro e m hm
      have := (R.fresh e m hm).1
      exact ⟨fun hc => absurd hp (by rw [hc]; exact Nat.not_lt.2 this), fun hc => absurd hq (by rw [hc]; exact Nat.not_lt.2 this)⟩
    rcases child_dart hv.good R.label ht hd hpq with ⟨e, he, ho⟩ | hin
    · rcases ho with ⟨rfl, h2⟩ | ⟨_, h2⟩ | ⟨_, h2⟩
      · rw [h2] at hsome; cases hsome
      · exact (hold _ _ h2).2 rfl
      · exact (hold _ _ h2).1 rfl
    · rcases hin with ⟨e, _, h2, _⟩ | ⟨e, _, h2, _⟩ | ⟨e, _, e', _, _, h2, _⟩
      · exact (hold _ _ h2).1 rfl
      · exact (hold _ _ h2).2 rfl
      · exact (hold _ _ h2).1 rfl
  rcases ((R.valid hv).edges_iff e).1 he with hd | hd
  · exact key e h1 h2 (by rw [hm]; rfl) hd
  · exact key e.sym h2 h1 (by rw [R.label.sym, hm]; rfl) hd

theorem noIsolated (R : FaceSplitResult lib inp out f f' u μ pts) (hn : inp.NoIsolated)
    (hnew : ∀ m, inp.points.length ≤ m → m < pts.length → ∃ e ∈ dartsOf inp.tris, μ e = some m) : out.NoIsolated := by
  intro v hv'
  rw [R.points_length] at hv'
  rw [R.tris]
  rcases Nat.lt_or_ge v inp.points.length with hlt | hge
  · obtain ⟨t, ht, hvt⟩ := hn v hlt
    obtain ⟨d, hd, hvd⟩ := children_has_corner μ t hvt
    exact ⟨d, List.mem_flatMap.2 ⟨t, ht, hd⟩, hvd⟩
  · obtain ⟨e, he, hm⟩ := hnew v hge hv'
    obtain ⟨t, ht, het⟩ := mem_dartsOf.1 he
    obtain ⟨d, hd, hvd⟩ := children_has_new μ t het hm
    exact ⟨d, List.mem_flatMap.2 ⟨t, ht, hd⟩, hvd⟩

theorem cells_mem (R : FaceSplitResult lib inp out f f' u μ pts) {k : CId} {d : Tri} :
    (k, some d.cell) ∈ out.cells ↔ (inp.tris.flatMap (Tri.children μ))[k]? = some d := by
  rw [R.built.cells, AMap.mem_dense]
  rw [List.getElem?_map, Option.map_eq_some_iff]
  constructor
  · rintro ⟨t, h1, h2⟩
    rw [h1]
    congr 1
    simp only [Option.some.injEq, Tri.cell, Cell.mk.injEq, List.cons.injEq, and_true, true_and] at h2
    exact Prod.ext h2.1 (Prod.ext h2.2.1 h2.2.2)
  · intro h; exact ⟨d, h, rfl⟩

theorem cells_length (R : FaceSplitResult lib inp out f f' u μ pts) :
    out.cells.length = (inp.tris.flatMap (Tri.children μ)).length := by
  rw [R.built.cells, AMap.length_dense, List.length_map]

theorem cells_keys (R : FaceSplitResult lib inp out f f' u μ pts) :
    out.cells.map Prod.fst = List.range (inp.tris.flatMap (Tri.children μ)).length := by
  rw [R.built.cells, AMap.map_fst_dense, List.length_map]

theorem item_of_cell (R : FaceSplitResult lib inp out f f' u μ pts) {k : CId} {d : Tri}
    (h : (k, some d.cell) ∈ out.cells) : ∃ x, (childItems μ u inp.cells)[k]? = some x ∧ x.2.1 = d := by
  have := R.cells_mem.1 h
  rw [← childItems_tris μ u, List.getElem?_map, Option.map_eq_some_iff] at this
  exact this

theorem cell_of_item (R : FaceSplitResult lib inp out f f' u μ pts) {k : CId} {x : Item}
    (h : (childItems μ u inp.cells)[k]? = some x) : (k, some x.2.1.cell) ∈ out.cells := by
  rw [R.cells_mem, ← childItems_tris μ u, List.getElem?_map, h]; rfl

end FaceSplitResult
/-- one of the two directions of an edge -/
def Edge.canon (e : Edge) : Edge := if e.1 ≤ e.2 then e else e.sym

theorem Edge.canon_eq_iff {e e' : Edge} : e.canon = e'.canon ↔ e = e' ∨ e = e'.sym := by
  obtain ⟨a, b⟩ := e
  obtain ⟨c, d⟩ := e'
  unfold Edge.canon Edge.sym
  simp only
  split <;> split <;> simp only [Prod.mk.injEq] <;> constructor <;> grind

theorem distinct_canon {es : List Edge} : DistinctEdges es ↔ (es.map Edge.canon).Nodup := by
  unfold DistinctEdges List.Nodup
  rw [List.pairwise_map]
  constructor
  · intro h
    exact h.imp fun {a b} h hc => by
      rcases Edge.canon_eq_iff.1 hc with h' | h'
      · exact h.1 h'
      · exact h.2 h'
  · intro h
    exact h.imp fun {a b} h => ⟨fun hc => h (Edge.canon_eq_iff.2 (Or.inl hc)), fun hc => h (Edge.canon_eq_iff.2 (Or.inr hc))⟩

theorem mem_canon {es : List Edge} {e : Edge} : e.canon ∈ es.map Edge.canon ↔ e ∈ es ∨ e.sym ∈ es := by
  rw [List.mem_map]
  constructor
  · rintro ⟨e', he', hc⟩
    rcases Edge.canon_eq_iff.1 hc with rfl | rfl
    · exact Or.inl he'
    · exact Or.inr he'
  · rintro (h | h)
    · exact ⟨e, h, rfl⟩
    · exact ⟨e.sym, h, Edge.canon_eq_iff.2 (Or.inr rfl)⟩

/-- two lists of the same edges without repetition are equally long -/
theorem distinct_length_eq {es es' : List Edge} (h : DistinctEdges es) (h' : DistinctEdges es')
    (hm : ∀ e, (e ∈ es ∨ e.sym ∈ es) ↔ (e ∈ es' ∨ e.sym ∈ es')) : es.length = es'.length := by
  have hp : (es.map Edge.canon).Perm (es'.map Edge.canon) := by
    rw [List.perm_ext_iff_of_nodup (distinct_canon.1 h) (distinct_canon.1 h')]
    have key : ∀ (l l' : List Edge), (∀ e, (e ∈ l ∨ e.sym ∈ l) → (e ∈ l' ∨ e.sym ∈ l')) →
        ∀ x ∈ l.map Edge.canon, x ∈ l'.map Edge.canon := by
      intro l l' hll x hx
      obtain ⟨e, he, rfl⟩ := List.mem_map.1 hx
      exact mem_canon.2 (hll e (Or.inl he))
    exact fun x => ⟨key es es' (fun e => (hm e).1) x, key es' es (fun e => (hm e).2) x⟩
  have := hp.length_eq
  simpa using this

theorem edgePoint_isSome (m : Mesh P D) (sel : List CId) (e : Edge) :
    (m.edgePoint sel e).isSome ↔ e ∈ dartsOf (m.selected sel) ∨ e.sym ∈ dartsOf (m.selected sel) := by
  unfold Mesh.edgePoint
  rw [labelOf_isSome, mem_edgeList]

theorem edgePoint_dart {m : Mesh P D} (hv : m.Valid) {sel : List CId} {e : Edge} {p : PId}
    (h : m.edgePoint sel e = some p) : ∃ e' ∈ dartsOf m.tris, e = e' ∨ e = e'.sym := by
  have : (m.edgePoint sel e).isSome := by rw [h]; rfl
  rw [edgePoint_isSome] at this
  have hsub : ∀ e ∈ dartsOf (m.selected sel), e ∈ dartsOf m.tris := by
    intro e he
    obtain ⟨t, ht, hd⟩ := mem_dartsOf.1 he
    exact mem_dartsOf.2 ⟨t, hv.selected_subset sel t ht, hd⟩
  rcases this with h | h
  · exact ⟨e, hsub _ h, Or.inl rfl⟩
  · exact ⟨e.sym, hsub _ h, Or.inr (Edge.sym_sym e).symm⟩

theorem Mesh.Valid.mem_selected {m : Mesh P D} (h : m.Valid) {sel : List CId} (hne : sel ≠ []) {t : Tri} :
    t ∈ m.selected sel ↔ ∃ k ∈ sel, (k, some t.cell) ∈ m.cells := by
  unfold Mesh.selected
  have : sel.isEmpty = false := by simp [hne]
  rw [this]
  simp only [Bool.false_eq_true, if_false, List.mem_filterMap]
  constructor
  · rintro ⟨k, hk, ht⟩; exact ⟨k, hk, h.triAt_iff.1 ht⟩
  · rintro ⟨k, hk, ht⟩; exact ⟨k, hk, h.triAt_iff.2 ht⟩

/-- the keys of a sorted data container are the ids that have data -/
theorem data_keys_eq {m : Mesh P D} (hs : ∀ d, m.cellData = some d → (d.map Prod.fst).Pairwise (· < ·)) {keys : List Nat}
    (hk : keys.Pairwise (· < ·)) (h : ∀ k, (m.dataAt k).isSome ↔ k ∈ keys) :
    (m.cellData.getD []).map Prod.fst = keys := by
  have hmem : ∀ k, k ∈ (m.cellData.getD []).map Prod.fst ↔ k ∈ keys := by
    intro k
    rw [← h k]
    unfold Mesh.dataAt
    rcases hc : m.cellData with _ | d
    · simp
    · simp only [Option.getD_some, Option.bind_some]
      exact (AMap.find?_isSome d k).symm
  have hsort : ((m.cellData.getD []).map Prod.fst).Pairwise (· < ·) := by
    rcases hc : m.cellData with _ | d
    · simp
    · exact hs d hc
  have hp : ((m.cellData.getD []).map Prod.fst).Perm keys :=
    (List.perm_ext_iff_of_nodup (hsort.imp Nat.ne_of_lt) (hk.imp Nat.ne_of_lt)).2 hmem
  exact List.Perm.eq_of_pairwise (fun a b _ _ h1 h2 => absurd h1 (Nat.lt_asymm h2)) hsort hk hp

section
variable {K : Type} [Field K] [Zero P] [Add P] [SMul K P]

/-- a run that returned is described by `FaceSplitResult`, and every new id belongs to an edge -/
theorem cellUpdate_result {sch : Scheme} {lib : QELib} {cosn : Nat → K} {f f' : Filt} {inp out : Mesh P D}
    (hs : sch ≠ .sqrt3) (hn : sch.Needs inp) (hsel : inp.SelOK f.cells)
    (h : cellUpdate sch lib cosn f inp = (.ok out, f')) :
    FaceSplitResult lib inp out f f' f.cells.isEmpty (inp.edgePoint f.cells)
      ((List.range inp.points.length).map (schemeBase sch cosn inp f) ++
          (edgeList (inp.selected f.cells)).map (valueOf (schemePoint sch K inp))) ∧
    ∀ m, inp.points.length ≤ m → m < ((List.range inp.points.length).map (schemeBase sch cosn inp f) ++
          (edgeList (inp.selected f.cells)).map (valueOf (schemePoint sch K inp))).length →
      ∃ e ∈ dartsOf inp.tris, inp.edgePoint f.cells e = some m := by
  obtain ⟨out', f'', h', R⟩ := cellUpdate_ok hs lib cosn hn hsel
  rw [h] at h'
  cases h'
  refine ⟨R, ?_⟩
  intro m h1 h2
  simp only [List.length_append, List.length_map, List.length_range] at h2
  have h3 : m - inp.points.length < (edgeList (inp.selected f.cells)).length := by
    exact (Nat.sub_lt_iff_lt_add' h1).2 h2
  have h4 := labelOf_getElem (n := inp.points.length) (pairwise_edgeList (inp.selected f.cells))
    (List.getElem?_eq_getElem h3)
  have h5 : inp.edgePoint f.cells (edgeList (inp.selected f.cells))[m - inp.points.length] = some m := by
    unfold Mesh.edgePoint
    rw [h4, Nat.add_sub_cancel' h1]
  obtain ⟨e', he', heq⟩ := edgePoint_dart hn.valid h5
  refine ⟨e', he', ?_⟩
  rcases heq with heq | heq
  · rw [← heq]; exact h5
  · rw [heq] at h5
    exact (R.label.sym e').symm.trans h5

end
end Verif
