import Verif.Proofs.Sqrt3Run
import Verif.Proofs.Topology
/-
Consequences of `Sqrt3Result`, the description of the output of SquareThree.
-/
namespace Verif
set_option linter.unusedSectionVars false
variable {K P D : Type}

section
variable {T : List Tri} {σ : Edge → Option PId} (hσ : Centres T σ)
include hσ

theorem dart_kept {e : Edge} (he : e ∈ dartsOf T) (h : σ e = none ∨ σ e.sym = none) :
    e ∈ dartsOf (T.flatMap (Tri.sq3 σ)) := by
  obtain ⟨t, ht, hd⟩ := mem_dartsOf.1 he
  rw [mem_dartsOf]
  rcases hs : σ e with _ | v
  · refine ⟨t, (mem_sq3 hσ).2 (Or.inl ⟨ht, ?_⟩), hd⟩
    rw [hσ.same t ht _ (by simp [Tri.darts]) e hd, hs]
  · refine ⟨_, (mem_sq3 hσ).2 (Or.inr ⟨e, v, hs, rfl⟩), ?_⟩
    have : σ e.sym = none := by
      rcases h with h | h
      · rw [hs] at h; cases h
      · exact h
    unfold sq3Piece
    rw [this]
    simp [Tri.darts]

theorem dart_in {e : Edge} {v : PId} (h : σ e = some v) : (e.2, v) ∈ dartsOf (T.flatMap (Tri.sq3 σ)) :=
  mem_dartsOf.2 ⟨_, (mem_sq3 hσ).2 (Or.inr ⟨e, v, h, rfl⟩), sq3Piece_main⟩

theorem dart_out {e : Edge} {v : PId} (h : σ e = some v) : (v, e.1) ∈ dartsOf (T.flatMap (Tri.sq3 σ)) := by
  rw [mem_dartsOf]
  rcases hs : σ e.sym with _ | v'
  · refine ⟨_, (mem_sq3 hσ).2 (Or.inr ⟨e, v, h, rfl⟩), ?_⟩
    unfold sq3Piece
    rw [hs]; simp [Tri.darts]
  · refine ⟨_, (mem_sq3 hσ).2 (Or.inr ⟨e.sym, v', hs, rfl⟩), ?_⟩
    unfold sq3Piece
    rw [Edge.sym_sym, h]; simp [Tri.darts]

theorem dart_flip {e : Edge} {v v' : PId} (h : σ e = some v) (h' : σ e.sym = some v') :
    (v, v') ∈ dartsOf (T.flatMap (Tri.sq3 σ)) := by
  refine mem_dartsOf.2 ⟨_, (mem_sq3 hσ).2 (Or.inr ⟨e, v, h, rfl⟩), ?_⟩
  unfold sq3Piece
  rw [h']; simp [Tri.darts]

theorem dart_cases {p q : PId} (h : (p, q) ∈ dartsOf (T.flatMap (Tri.sq3 σ))) :
    ((p, q) ∈ dartsOf T ∧ (σ (p, q) = none ∨ σ (q, p) = none)) ∨
    (∃ e v, σ e = some v ∧ p = e.2 ∧ q = v) ∨ (∃ e v, σ e = some v ∧ p = v ∧ q = e.1) ∨
    ∃ e v v', σ e = some v ∧ σ e.sym = some v' ∧ p = v ∧ q = v' := by
  obtain ⟨d, hd, hpq⟩ := mem_dartsOf.1 h
  rcases (mem_sq3 hσ).1 hd with ⟨ht, h0⟩ | ⟨e, v, h1, rfl⟩
  · refine Or.inl ⟨mem_dartsOf.2 ⟨d, ht, hpq⟩, Or.inl ?_⟩
    rw [hσ.same d ht _ hpq (d.1, d.2.1) (by simp [Tri.darts]), h0]
  · rcases sq3Piece_dart hpq with ⟨a, rfl, rfl⟩ | ⟨rfl, rfl⟩ | ⟨a, rfl, rfl⟩ | ⟨w, a, rfl, rfl⟩ | ⟨w, a, rfl, rfl⟩
    · exact Or.inl ⟨hσ.only _ _ h1, Or.inr a⟩
    · exact Or.inr (Or.inl ⟨e, _, h1, rfl, rfl⟩)
    · exact Or.inr (Or.inr (Or.inl ⟨e, _, h1, rfl, rfl⟩))
    · exact Or.inr (Or.inr (Or.inr ⟨e, _, _, h1, a, rfl, rfl⟩))
    · exact Or.inr (Or.inr (Or.inl ⟨e.sym, _, a, rfl, rfl⟩))

theorem next_dart {e : Edge} {v : PId} (h : σ e = some v) :
    (∃ e', σ e' = some v ∧ e'.1 = e.2) ∧ ∃ e', σ e' = some v ∧ e'.2 = e.1 := by
  obtain ⟨t, ht, hd⟩ := hσ.tri h
  have hs : ∀ e' ∈ t.darts, σ e' = some v := fun e' he' => by rw [hσ.same t ht e' he' e hd, h]
  obtain ⟨a, b, c⟩ := t
  simp only [Tri.darts, List.mem_cons, List.not_mem_nil, or_false] at hd hs
  rcases hd with rfl | rfl | rfl
  · exact ⟨⟨(b, c), hs _ (by simp), rfl⟩, ⟨(c, a), hs _ (by simp), rfl⟩⟩
  · exact ⟨⟨(c, a), hs _ (by simp), rfl⟩, ⟨(a, b), hs _ (by simp), rfl⟩⟩
  · exact ⟨⟨(a, b), hs _ (by simp), rfl⟩, ⟨(b, c), hs _ (by simp), rfl⟩⟩

/-- the √3 split has the same boundary -/
theorem boundary_sq3 {e : Edge} : e ∈ boundaryOf (T.flatMap (Tri.sq3 σ)) ↔ e ∈ boundaryOf T := by
  obtain ⟨p, q⟩ := e
  rw [mem_boundaryOf, mem_boundaryOf]
  constructor
  · rintro ⟨h1, h2⟩
    change (q, p) ∉ _ at h2
    rcases dart_cases hσ h1 with ⟨h3, h4⟩ | ⟨e, v, h3, rfl, rfl⟩ | ⟨e, v, h3, rfl, rfl⟩ | ⟨e, v, v', h3, h4, rfl, rfl⟩
    · exact ⟨h3, fun hc => h2 (dart_kept hσ hc h4.symm)⟩
    · obtain ⟨⟨e', h4, h5⟩, _⟩ := next_dart hσ h3
      rw [← h5] at h2
      exact absurd (dart_out hσ h4) h2
    · obtain ⟨_, ⟨e', h4, h5⟩⟩ := next_dart hσ h3
      rw [← h5] at h2
      exact absurd (dart_in hσ h4) h2
    · exact absurd (dart_flip hσ h4 (by rw [Edge.sym_sym]; exact h3)) h2
  · rintro ⟨h1, h2⟩
    change (q, p) ∉ _ at h2
    have hn : σ (q, p) = none := by
      rcases h : σ (q, p) with _ | v
      · rfl
      · exact absurd (hσ.only _ _ h) h2
    refine ⟨dart_kept hσ h1 (Or.inr hn), ?_⟩
    intro hc
    rcases dart_cases hσ hc with ⟨h3, _⟩ | ⟨e, v, h3, rfl, rfl⟩ | ⟨e, v, h3, rfl, rfl⟩ | ⟨e, v, v', h3, h4, rfl, rfl⟩
    · exact h2 h3
    · exact hσ.ne_fst h3 h1 rfl
    · exact hσ.ne_snd h3 h1 rfl
    · exact hσ.ne_fst h4 h1 rfl

theorem sq3_length : (T.flatMap (Tri.sq3 σ)).length =
    T.length + 2 * (T.filter fun t => (σ (t.1, t.2.1)).isSome).length := by
  clear hσ
  induction T with
  | nil => rfl
  | cons t T ih =>
    rw [List.flatMap_cons, List.length_append, ih, List.filter_cons, List.length_cons]
    unfold Tri.sq3
    rcases h : σ (t.1, t.2.1) with _ | v
    · simp; omega
    · simp [Tri.darts]; omega

end

/-- the cells of a valid mesh and its triangles -/
theorem Mesh.Valid.tris_length {m : Mesh P D} (h : m.Valid) : m.tris.length = m.cells.length := by
  obtain ⟨g, h1, _⟩ := h.tris_eq_map
  rw [h1, List.length_map]

theorem Mesh.Valid.id_unique {m : Mesh P D} (h : m.Valid) {t : Tri} {k k' : CId} (hk : (k, some t.cell) ∈ m.cells)
    (hk' : (k', some t.cell) ∈ m.cells) : k = k' := by
  have h1 := (h.left_iff (t.1, t.2.1) k).2 ⟨t, hk, by simp [Tri.darts]⟩
  have h2 := (h.left_iff (t.1, t.2.1) k').2 ⟨t, hk', by simp [Tri.darts]⟩
  rw [h1] at h2
  exact Option.some.inj h2

/-- a triangle is subdivided exactly if it is selected -/
theorem centreOf_isSome {m : Mesh P D} (hv : m.Valid) {sel : List CId} {t : Tri} (ht : t ∈ m.tris) {e : Edge}
    (he : e ∈ t.darts) : (m.centreOf sel e).isSome ↔ t ∈ m.selected sel := by
  have : m.centreOf sel e = centreIn m.points.length (m.selected sel) e := rfl
  rw [this, centreIn_isSome, mem_dartsOf]
  constructor
  · rintro ⟨t', ht', he'⟩
    rw [hv.good.eq_of_dart ht (hv.selected_subset sel t' ht') he he']
    exact ht'
  · intro h; exact ⟨t, h, he⟩

/-- number of subdivided triangles -/
theorem selected_count {m : Mesh P D} (hv : m.Valid) {sel : List CId} (hsel : m.SelOK sel) (hne : sel ≠ [])
    {ks : List CId} (hn : ks.Nodup) (hks : ∀ k, k ∈ ks ↔ k ∈ sel) :
    (m.tris.filter fun t => (m.centreOf sel (t.1, t.2.1)).isSome).length = ks.length := by
  obtain ⟨g, h1, h2⟩ := hv.tris_eq_map
  have hcell : ∀ c ∈ m.cells, (m.centreOf sel ((g c).1, (g c).2.1)).isSome = decide (c.1 ∈ sel) := by
    intro c hc
    obtain ⟨h3, h4⟩ := h2 c hc
    rw [Bool.eq_iff_iff, decide_eq_true_eq, centreOf_isSome hv h4 (by simp [Tri.darts]), hv.mem_selected hne]
    have hc' : (c.1, some (g c).cell) ∈ m.cells := by rw [← h3]; exact hc
    constructor
    · rintro ⟨k, hk, hk'⟩
      rw [hv.id_unique hc' hk']; exact hk
    · intro h; exact ⟨c.1, h, hc'⟩
  rw [h1, List.filter_map, List.length_map]
  have : m.cells.filter ((fun t : Tri => (m.centreOf sel (t.1, t.2.1)).isSome) ∘ g) =
      m.cells.filter fun c => decide (c.1 ∈ sel) := List.filter_congr hcell
  rw [this]
  have hp : ((m.cells.filter fun c => decide (c.1 ∈ sel)).map Prod.fst).Perm ks := by
    refine (List.perm_ext_iff_of_nodup ?_ hn).2 ?_
    · have : ((m.cells.filter fun c => decide (c.1 ∈ sel)).map Prod.fst).Sublist (m.cells.map Prod.fst) :=
        (List.filter_sublist).map _
      exact (hv.cells_sorted.imp Nat.ne_of_lt).sublist this
    · intro k
      rw [hks, List.mem_map]
      constructor
      · rintro ⟨c, hc, rfl⟩
        rw [List.mem_filter, decide_eq_true_eq] at hc
        exact hc.2
      · intro hk
        obtain ⟨c, hc, rfl⟩ := List.mem_map.1 (hsel k hk)
        exact ⟨c, List.mem_filter.2 ⟨hc, by simpa using hk⟩, rfl⟩
  rw [← hp.length_eq, List.length_map]

theorem selected_length {m : Mesh P D} (hv : m.Valid) {sel : List CId} (hsel : m.SelOK sel) (hne : sel ≠ []) :
    (m.selected sel).length = sel.length := by
  unfold Mesh.selected
  have : sel.isEmpty = false := by simp [hne]
  rw [this]
  simp only [Bool.false_eq_true, if_false]
  clear this hne
  revert hsel
  induction sel with
  | nil => intro _; rfl
  | cons k ks ih =>
    intro hsel
    obtain ⟨t, _, ht⟩ := hv.sel_tri hsel (k := k) (by simp)
    rw [List.filterMap_cons_some ht, List.length_cons, List.length_cons, ih fun k hk => hsel k (by simp [hk])]

theorem selected_nodup {m : Mesh P D} (hv : m.Valid) {sel : List CId} (hn : sel.Nodup) : (m.selected sel).Nodup := by
  unfold Mesh.selected
  split
  · exact (tris_nodup hv.good.oriented)
  · rw [List.nodup_iff_pairwise_ne, List.pairwise_filterMap]
    refine List.Pairwise.imp ?_ hn
    intro k k' hne t ht t' ht' hc
    subst hc
    exact hne (hv.id_unique (hv.triAt_iff.1 ht) (hv.triAt_iff.1 ht'))

theorem centreOf_getElem {m : Mesh P D} (hv : m.Valid) {sel : List CId} (hn : sel.Nodup) {i : Nat} {t : Tri}
    (hi : (m.selected sel)[i]? = some t) {e : Edge} (he : e ∈ t.darts) : m.centreOf sel e = some (m.points.length + i) := by
  have ht := List.mem_of_getElem? hi
  obtain ⟨v, h⟩ := Option.isSome_iff_exists.1 ((centreOf_isSome hv (hv.selected_subset sel t ht) he).2 ht)
  obtain ⟨j, t', h1, h2, rfl⟩ := centreIn_some (n := m.points.length) (L := m.selected sel) h
  have : t' = t := hv.good.eq_of_dart (hv.selected_subset sel t' (List.mem_of_getElem? h1)) (hv.selected_subset sel t ht) h2 he
  subst this
  obtain ⟨hi1, hi2⟩ := List.getElem?_eq_some_iff.1 hi
  have hij := (List.getElem?_inj hi1 (selected_nodup hv hn)).1 (hi.trans h1.symm)
  rw [h, hij]

namespace Sqrt3Result
variable {lib : QELib} {inp out : Mesh P D} {f f' : Filt} {u : Bool} {σ : Edge → Option PId} {pts : List P}

theorem tris (R : Sqrt3Result lib inp out f f' u σ pts) (hv : inp.Valid) : out.tris.Perm (inp.tris.flatMap (Tri.sq3 σ)) := by
  rw [R.built.tris]
  exact sq3Items_tris hv R.centres u

theorem points_length (R : Sqrt3Result lib inp out f f' u σ pts) : out.points.length = pts.length := by
  rw [R.points, AMap.length_dense]

theorem good (R : Sqrt3Result lib inp out f f' u σ pts) (hv : inp.Valid) : GoodTris out.tris :=
  (hv.good.sq3 R.centres).perm (R.tris hv)

theorem valid (R : Sqrt3Result lib inp out f f' u σ pts) (hv : inp.Valid) : out.Valid := by
  have hg := R.good hv
  have hp := R.tris hv
  rw [R.built.tris] at hg hp
  refine R.built.valid hg pts R.points ?_ R.edgeCells
  intro d hd v h
  rcases sq3_verts R.centres (hp.subset hd) h with ⟨t, ht, h⟩ | ⟨e, h⟩
  · exact Nat.lt_of_lt_of_le (hv.verts_lt ht h) R.longer
  · exact (R.fresh _ _ h).2

theorem ringOK (R : Sqrt3Result lib inp out f f' u σ pts) (hv : inp.Valid) (hl : lib.Lawful) : out.RingOK := by
  have := hl _ _ _ (R.valid hv)
  rw [← R.ring] at this
  exact this

theorem mem_tris (R : Sqrt3Result lib inp out f f' u σ pts) (hv : inp.Valid) {d : Tri} :
    d ∈ out.tris ↔ d ∈ inp.tris.flatMap (Tri.sq3 σ) := (R.tris hv).mem_iff

theorem noIsolated (R : Sqrt3Result lib inp out f f' u σ pts) (hv : inp.Valid) (hn : inp.NoIsolated)
    (hnew : ∀ m, inp.points.length ≤ m → m < pts.length → ∃ e, σ e = some m) : out.NoIsolated := by
  intro v hv'
  rw [R.points_length] at hv'
  have hdart : ∀ p q, (p, q) ∈ dartsOf (inp.tris.flatMap (Tri.sq3 σ)) → (p = v ∨ q = v) → ∃ t ∈ out.tris, v ∈ t.verts := by
    intro p q h hpq
    obtain ⟨d, hd, h⟩ := mem_dartsOf.1 h
    refine ⟨d, (R.mem_tris hv).2 hd, ?_⟩
    rcases hpq with rfl | rfl
    · exact Tri.dart_fst h
    · exact Tri.dart_snd h
  rcases Nat.lt_or_ge v inp.points.length with hlt | hge
  · obtain ⟨t, ht, hvt⟩ := hn v hlt
    rcases h0 : σ (t.1, t.2.1) with _ | w
    · exact ⟨t, (R.mem_tris hv).2 ((mem_sq3 R.centres).2 (Or.inl ⟨ht, h0⟩)), hvt⟩
    · obtain ⟨e, he, h1⟩ : ∃ e ∈ t.darts, e.2 = v := by
        simp only [Tri.verts, List.mem_cons, List.not_mem_nil, or_false] at hvt
        rcases hvt with rfl | rfl | rfl
        · exact ⟨(t.2.2, t.1), by simp [Tri.darts], rfl⟩
        · exact ⟨(t.1, t.2.1), by simp [Tri.darts], rfl⟩
        · exact ⟨(t.2.1, t.2.2), by simp [Tri.darts], rfl⟩
      have h2 : σ e = some w := by rw [R.centres.same t ht e he (t.1, t.2.1) (by simp [Tri.darts]), h0]
      exact hdart _ _ (dart_in R.centres h2) (Or.inl h1)
  · obtain ⟨e, he⟩ := hnew v hge hv'
    exact hdart _ _ (dart_in R.centres he) (Or.inr rfl)

theorem cells_mem (R : Sqrt3Result lib inp out f f' u σ pts) {k : CId} {d : Tri} :
    (k, some d.cell) ∈ out.cells ↔ ∃ x, (sq3Items σ u [] (sq3Jobs σ inp.cells))[k]? = some x ∧ x.2.1 = d := by
  rw [R.built.cells, AMap.mem_dense]
  rw [List.getElem?_map, Option.map_eq_some_iff]
  constructor
  · rintro ⟨t, h1, h2⟩
    rw [List.getElem?_map, Option.map_eq_some_iff] at h1
    obtain ⟨x, h3, rfl⟩ := h1
    refine ⟨x, h3, ?_⟩
    simp only [Option.some.injEq, Tri.cell, Cell.mk.injEq, List.cons.injEq, and_true, true_and] at h2
    exact Prod.ext h2.1 (Prod.ext h2.2.1 h2.2.2)
  · rintro ⟨x, h, rfl⟩
    exact ⟨x.2.1, by rw [List.getElem?_map, h]; rfl, rfl⟩

theorem cells_length (R : Sqrt3Result lib inp out f f' u σ pts) (hv : inp.Valid) :
    out.cells.length = inp.cells.length + 2 * (inp.tris.filter fun t => (σ (t.1, t.2.1)).isSome).length := by
  rw [← (R.valid hv).tris_length, (R.tris hv).length_eq, sq3_length R.centres, hv.tris_length]

theorem cells_keys (R : Sqrt3Result lib inp out f f' u σ pts) :
    out.cells.map Prod.fst = List.range (sq3Items σ u [] (sq3Jobs σ inp.cells)).length := by
  rw [R.built.cells, AMap.map_fst_dense, List.length_map, List.length_map]

theorem added (R : Sqrt3Result lib inp out f f' u σ pts) (hv : inp.Valid) {x : Item}
    (h : x ∈ sq3Items σ u [] (sq3Jobs σ inp.cells)) : Added σ u [] (sq3Jobs σ inp.cells) x :=
  mem_sq3Items (jobsOK hv R.centres) (sq3Jobs_sorted hv.cells_sorted) h

theorem boundary (R : Sqrt3Result lib inp out f f' u σ pts) (hv : inp.Valid) {e : Edge} :
    e ∈ boundaryOf out.tris ↔ e ∈ boundaryOf inp.tris := by
  rw [← boundary_sq3 R.centres, mem_boundaryOf, mem_boundaryOf]
  have : ∀ e, e ∈ dartsOf out.tris ↔ e ∈ dartsOf (inp.tris.flatMap (Tri.sq3 σ)) := by
    intro e
    rw [mem_dartsOf, mem_dartsOf]
    constructor
    · rintro ⟨t, ht, he⟩; exact ⟨t, (R.mem_tris hv).1 ht, he⟩
    · rintro ⟨t, ht, he⟩; exact ⟨t, (R.mem_tris hv).2 ht, he⟩
  rw [this, this]

/-- the number of edges -/
theorem edges_length (R : Sqrt3Result lib inp out f f' u σ pts) (hv : inp.Valid) :
    out.edges.length = inp.edges.length + 3 * (inp.tris.filter fun t => (σ (t.1, t.2.1)).isSome).length := by
  have hg := hv.good
  have hv' := R.valid hv
  have e1 := sym_count (E := inp.edges) hg.oriented (fun e => hg.no_loop) hv.edges_once hv.edges_iff
  have e2 := sym_count (E := out.edges) hv'.good.oriented (fun e => hv'.good.no_loop) hv'.edges_once hv'.edges_iff
  change _ = _ + (boundaryOf inp.tris).length at e1
  change _ = _ + (boundaryOf out.tris).length at e2
  have hb : (boundaryOf out.tris).length = (boundaryOf inp.tris).length :=
    ((List.perm_ext_iff_of_nodup (hv'.good.oriented.filter _) (hg.oriented.filter _)).2 fun e => R.boundary hv).length_eq
  rw [dartsOf_length] at e1 e2
  rw [(R.tris hv).length_eq, sq3_length R.centres] at e2
  omega

end Sqrt3Result

variable [Field K] [Zero P] [Add P] [SMul K P]

theorem sqrt3Update_result {lib : QELib} {cosn : Nat → K} {f f' : Filt} {inp out : Mesh P D} (hv : inp.Valid)
    (hsel : inp.SelOK f.cells) (hmax : inp.points.length + (inp.selected f.cells).length ≤ idMax)
    (h : cellUpdate .sqrt3 lib cosn f inp = (.ok out, f')) :
    Sqrt3Result lib inp out f f' f.cells.isEmpty (inp.centreOf f.cells)
        ((List.range inp.points.length).map inp.coord ++ (inp.selected f.cells).map (inp.centroid K)) := by
  obtain ⟨out', f'', h', R⟩ := sqrt3Update_ok hv lib cosn hsel hmax
  rw [h] at h'
  cases h'
  exact R

set_option linter.unusedSectionVars false
theorem Sqrt3Result.madeFrom {inp out : Mesh P D} {u : Bool} {σ : Edge → Option PId} {pts : List P}
    (R : Sqrt3Result lib inp out f f' u σ pts) (hv : inp.Valid) {x : Item} {k : CId}
    (hx : (sq3Items σ u [] (sq3Jobs σ inp.cells))[k]? = some x) :
    ∃ t : Tri, (x.1, some t.cell) ∈ inp.cells ∧ MadeFrom σ t x.2.1 ∧
      (∀ j' (t' : Tri), (j', some t'.cell) ∈ inp.cells → MadeFrom σ t' x.2.1 → x.1 ≤ j') ∧
      x.2.2 = ((σ (t.1, t.2.1)).isSome && !u) := by
  have hσ := R.centres
  have hone : ∀ t' ∈ inp.tris, MadeFrom σ t' x.2.1 → ∀ t ∈ inp.tris, x.2.1 = t → σ (t.1, t.2.1) = none → t' = t := by
    rintro t' ht' hm t ht hxt h0
    rcases hm with ⟨h1, _⟩ | ⟨e, he, v, h1, h2⟩
    · rw [← h1, hxt]
    · exfalso
      have hd : (t.1, t.2.1) ∈ x.2.1.darts := by rw [hxt]; simp [Tri.darts]
      have hd' : (t.1, t.2.1) ∈ t.darts := by simp [Tri.darts]
      rcases h2 with h2 | ⟨v', h2, h3⟩
      · rw [h2] at hd
        exact sq3_keep_piece hσ ht h0 h1 hd' hd
      · rw [h3] at hd
        exact sq3_keep_piece hσ ht h0 h2 hd' hd
  have hpiece : ∀ t' ∈ inp.tris, MadeFrom σ t' x.2.1 → ∀ e v, σ e = some v → x.2.1 = sq3Piece σ v e →
      e ∈ t'.darts ∨ ((σ e.sym).isSome ∧ e.sym ∈ t'.darts) := by
    intro t' ht' hm e v h1 h2
    have hmain : (e.2, v) ∈ x.2.1.darts := by rw [h2]; exact sq3Piece_main
    rcases hm with ⟨h3, h4⟩ | ⟨e', he', v', h3, h4⟩
    · exfalso
      refine sq3_keep_piece hσ ht' (h4 _ (by simp [Tri.darts])) h1 (p := e.2) (q := v) ?_ sq3Piece_main
      rw [← h3]; exact hmain
    · rcases h4 with h4 | ⟨w, h4, h5⟩
      · have := sq3_unique hv.good hσ h1 h3 sq3Piece_main (by rw [← h4]; exact hmain)
        rw [this]; exact Or.inl he'
      · have := sq3_unique hv.good hσ h1 h4 sq3Piece_main (by rw [← h5]; exact hmain)
        rw [this, Edge.sym_sym]
        exact Or.inr ⟨by rw [h3]; rfl, he'⟩
  rcases R.added hv (List.mem_of_getElem? hx) with ⟨h1, h2⟩ | ⟨h1, t, e, v, h2, _, h3, h4⟩
  · obtain ⟨h3, h4 | ⟨e, _, h4, _⟩⟩ := mem_sq3Jobs.1 h2
    · simp only at h3 h4
      have ht : x.2.1 ∈ inp.tris := hv.mem_tris.2 ⟨_, h3⟩
      refine ⟨x.2.1, h3, Or.inl ⟨rfl, ?_⟩, ?_, ?_⟩
      · intro e he
        rw [hσ.same _ ht e he (x.2.1.1, x.2.1.2.1) (by simp [Tri.darts]), h4.2]
      · intro j' t' hj' hm
        have := hone t' (hv.mem_tris.2 ⟨_, hj'⟩) hm x.2.1 ht rfl h4.2
        rw [this] at hj'
        exact Nat.le_of_eq (hv.id_unique h3 hj')
      · rw [h4.2, h1]; rfl
    · cases h4
  · obtain ⟨h5, h6 | ⟨e', he', h6, h7⟩⟩ := mem_sq3Jobs.1 h2
    · cases h6.1
    · simp only [Option.some.injEq] at h5 he' h6 h7
      subst h6
      have ht : t ∈ inp.tris := hv.mem_tris.2 ⟨_, h5⟩
      refine ⟨t, h5, Or.inr ⟨e, he', v, h3, ?_⟩, ?_, ?_⟩
      · rcases h4 with ⟨_, h4⟩ | ⟨v', h8, h9 | h9, _⟩
        · exact Or.inl h4
        · exact Or.inl h9
        · exact Or.inr ⟨v', h8, h9⟩
      · intro j' t' hj' hm
        have ht' : t' ∈ inp.tris := hv.mem_tris.2 ⟨_, hj'⟩
        have same : e ∈ t'.darts → x.1 ≤ j' := by
          intro h
          have := hv.good.eq_of_dart ht ht' he' h
          subst this
          exact Nat.le_of_eq (hv.id_unique h5 hj')
        rcases h4 with ⟨h8, h4⟩ | ⟨v', h8, h9, h10⟩
        · rcases hpiece t' ht' hm e v h3 h4 with h | ⟨h, _⟩
          · exact same h
          · rw [h8] at h; cases h
        · have other : e.sym ∈ t'.darts → x.1 ≤ j' := by
            intro h
            refine h10 j' t' (mem_sq3Jobs.2 ⟨hj', Or.inr ⟨e.sym, h, rfl, ?_⟩⟩)
            rw [hσ.same t' ht' _ (by simp [Tri.darts]) e.sym h, h8]; rfl
          rcases h9 with h9 | h9
          · rcases hpiece t' ht' hm e v h3 h9 with h | ⟨_, h⟩
            · exact same h
            · exact other h
          · rcases hpiece t' ht' hm e.sym v' h8 h9 with h | ⟨_, h⟩
            · exact other h
            · rw [Edge.sym_sym] at h; exact same h
      · rw [h1, h7]; rfl

end Verif
