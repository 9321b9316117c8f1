import Verif.Proofs.Coords
/-
Boundary and Euler characteristic of the face split.
-/
namespace Verif
variable {P D : Type}

theorem distinct_ne {E : List Edge} (h : DistinctEdges E) {a b : Edge} (ha : a ∈ E) (hb : b ∈ E) (hne : a ≠ b) :
    a ≠ b.sym := by
  have hs : ∀ a b : Edge, (a ≠ b ∧ a ≠ b.sym) → (b ≠ a ∧ b ≠ a.sym) := by
    rintro a b ⟨h1, h2⟩
    exact ⟨h1.symm, fun hc => h2 (Edge.sym_eq_iff.1 hc.symm)⟩
  have : Std.Symm (fun a b : Edge => a ≠ b ∧ a ≠ b.sym) := ⟨hs⟩
  exact (List.Pairwise.forall h ha hb hne).2

/-- Edges against directed edges: every edge counts twice, except those that occur in one direction only. -/
theorem sym_count {X E : List Edge} (hX : X.Nodup) (hl : ∀ e ∈ X, e.1 ≠ e.2) (hE : DistinctEdges E)
    (h : ∀ e, (e ∈ E ∨ e.sym ∈ E) ↔ (e ∈ X ∨ e.sym ∈ X)) :
    2 * E.length = X.length + (X.filter fun e => decide (e.sym ∉ X)).length := by
  have hperm : (E ++ E.map Edge.sym).Perm (X ++ (X.filter fun e => decide (e.sym ∉ X)).map Edge.sym) := by
    refine (List.perm_ext_iff_of_nodup ?_ ?_).2 ?_
    · rw [List.nodup_append]
      refine ⟨hE.imp fun h => h.1, List.Nodup.map (fun a b => Edge.sym_inj) (hE.imp fun h => h.1), ?_⟩
      intro a ha b hb hab
      obtain ⟨c, hc, rfl⟩ := List.mem_map.1 hb
      by_cases hac : a = c
      · subst hac
        have : a.1 = a.2 := congrArg Prod.fst hab
        rcases (h a).1 (Or.inl ha) with h1 | h1
        · exact hl _ h1 this
        · exact hl _ h1 this.symm
      · exact distinct_ne hE ha hc hac hab
    · rw [List.nodup_append]
      refine ⟨hX, (hX.filter _).map fun a b => Edge.sym_inj, ?_⟩
      intro a ha b hb hab
      obtain ⟨c, hc, rfl⟩ := List.mem_map.1 hb
      rw [List.mem_filter, decide_eq_true_eq] at hc
      exact hc.2 (hab ▸ ha)
    · intro e
      have h1 : e ∈ E.map Edge.sym ↔ e.sym ∈ E := by
        rw [List.mem_map]
        constructor
        · rintro ⟨c, hc, rfl⟩; exact hc
        · intro hc; exact ⟨_, hc, Edge.sym_sym e⟩
      have h2 : e ∈ (X.filter fun e => decide (e.sym ∉ X)).map Edge.sym ↔ e.sym ∈ X ∧ e ∉ X := by
        rw [List.mem_map]
        constructor
        · rintro ⟨c, hc, rfl⟩
          rw [List.mem_filter, decide_eq_true_eq] at hc
          exact hc
        · rintro ⟨hc, h3⟩
          refine ⟨_, ?_, Edge.sym_sym e⟩
          rw [List.mem_filter, decide_eq_true_eq]
          exact ⟨hc, h3⟩
      rw [List.mem_append, List.mem_append, h1, h2, h]
      tauto
  have := hperm.length_eq
  simp only [List.length_append, List.length_map] at this
  omega

theorem dartsOf_length (T : List Tri) : (dartsOf T).length = 3 * T.length := by
  induction T with
  | nil => rfl
  | cons t T ih =>
    have : dartsOf (t :: T) = t.darts ++ dartsOf T := by simp [dartsOf]
    rw [this, List.length_append, ih, List.length_cons]
    have : t.darts.length = 3 := rfl
    omega

theorem GoodTris.no_loop {T : List Tri} (h : GoodTris T) {e : Edge} (he : e ∈ dartsOf T) : e.1 ≠ e.2 := by
  obtain ⟨x, y⟩ := e
  obtain ⟨z, hz⟩ := dartsOf_iff_hasTri.1 he
  exact (hz.ne h.nd).1

/-- the pieces of a directed edge -/
def Edge.pieces (μ : Edge → Option PId) (e : Edge) : List Edge :=
  match μ e with
  | none => [e]
  | some m => [(e.1, m), (m, e.2)]

theorem mem_pieces {μ : Edge → Option PId} {e : Edge} {p q : PId} : (p, q) ∈ e.pieces μ ↔ OuterOf μ e p q := by
  unfold Edge.pieces OuterOf
  rcases h : μ e with _ | m
  · simp [eq_comm]
  · obtain ⟨x, y⟩ := e
    simp only [List.mem_cons, Prod.mk.injEq, List.not_mem_nil, or_false, Option.some.injEq, reduceCtorEq, and_false,
      false_or]
    constructor
    · rintro (⟨rfl, rfl⟩ | ⟨rfl, rfl⟩) <;> simp
    · rintro (⟨rfl, rfl⟩ | ⟨rfl, rfl⟩) <;> simp

theorem outer_mem_children {μ : Edge → Option PId} {t : Tri} {e : Edge} (he : e ∈ t.darts) {p q : PId}
    (h : OuterOf μ e p q) : (p, q) ∈ dartsOf (t.children μ) := by
  rcases h with ⟨rfl, h⟩ | ⟨rfl, h⟩ | ⟨rfl, h⟩
  · exact children_keep μ t he h
  · exact (children_halves μ t he h).1
  · exact (children_halves μ t he h).2

/-- an inner edge of a cut triangle has both directions -/
theorem inner_both {μ : Edge → Option PId} {a b c : PId} (hl : Local μ a b c) :
    ∀ d ∈ Tri.children μ (a, b, c), ∀ p q, (p, q) ∈ d.darts →
      (∃ e ∈ Tri.darts (a, b, c), OuterOf μ e p q) ∨ (q, p) ∈ dartsOf (Tri.children μ (a, b, c)) := by
  obtain ⟨n1, n2, n3, f0, f1, f2, d01, d12, d02⟩ := hl
  rcases h0 : μ (a, b) with _ | m0 <;> rcases h1 : μ (b, c) with _ | m1 <;>
    rcases h2 : μ (c, a) with _ | m2 <;>
    simp [h0, h1, h2] at f0 f1 f2 d01 d12 d02 <;>
    simp [OuterOf, dartsOf, Tri.children, Tri.darts, h0, h1, h2] <;> grind

/-- the directed edges without a triangle on the other side -/
def boundaryOf (T : List Tri) : List Edge := (dartsOf T).filter fun e => decide (e.sym ∉ dartsOf T)

theorem mem_boundaryOf {T : List Tri} {e : Edge} : e ∈ boundaryOf T ↔ e ∈ dartsOf T ∧ e.sym ∉ dartsOf T := by
  unfold boundaryOf; rw [List.mem_filter, decide_eq_true_eq]

section
variable {T : List Tri} {μ : Edge → Option PId} (hg : GoodTris T) (hμ : Labelling T μ)
include hg hμ

theorem boundary_children {p q : PId} :
    (p, q) ∈ boundaryOf (T.flatMap (Tri.children μ)) ↔ ∃ e ∈ boundaryOf T, OuterOf μ e p q := by
  have sub : ∀ t ∈ T, ∀ e, e ∈ dartsOf (t.children μ) → e ∈ dartsOf (T.flatMap (Tri.children μ)) := by
    intro t ht e he
    obtain ⟨d, hd, he⟩ := mem_dartsOf.1 he
    exact mem_dartsOf.2 ⟨d, List.mem_flatMap.2 ⟨t, ht, hd⟩, he⟩
  rw [mem_boundaryOf]
  constructor
  · rintro ⟨h1, h2⟩
    obtain ⟨d, hd, h1⟩ := mem_dartsOf.1 h1
    obtain ⟨t, ht, hd⟩ := List.mem_flatMap.1 hd
    rcases inner_both (loc hg hμ ht) d hd p q h1 with ⟨e, he, ho⟩ | h3
    · refine ⟨e, mem_boundaryOf.2 ⟨mem_dartsOf.2 ⟨t, ht, he⟩, ?_⟩, ho⟩
      intro hc
      obtain ⟨t', ht', he'⟩ := mem_dartsOf.1 hc
      exact h2 (sub t' ht' _ (outer_mem_children he' (ho.symm hμ)))
    · exact absurd (sub t ht _ h3) h2
  · rintro ⟨e, he, ho⟩
    obtain ⟨h1, h2⟩ := mem_boundaryOf.1 he
    obtain ⟨t, ht, h1⟩ := mem_dartsOf.1 h1
    refine ⟨sub t ht _ (outer_mem_children h1 ho), ?_⟩
    intro hc
    obtain ⟨d', hd', hc⟩ := mem_dartsOf.1 hc
    obtain ⟨t', ht', hd'⟩ := List.mem_flatMap.1 hd'
    exact h2 (mem_dartsOf.2 ⟨t', ht', child_across hg hμ ht ht' h1 hd' ho hc⟩)

theorem boundary_children_perm :
    (boundaryOf (T.flatMap (Tri.children μ))).Perm ((boundaryOf T).flatMap (Edge.pieces μ)) := by
  have hgc := hg.children hμ
  refine (List.perm_ext_iff_of_nodup (hgc.oriented.filter _) ?_).2 ?_
  · rw [List.nodup_flatMap]
    constructor
    · intro e he
      have hd := (mem_boundaryOf.1 he).1
      unfold Edge.pieces
      rcases hm : μ e with _ | m
      · simp
      · obtain ⟨t, ht, hd⟩ := mem_dartsOf.1 hd
        have : e.1 ≠ m := fresh_ne hμ ht hm (Tri.dart_fst hd)
        simp [this]
    · refine (hg.oriented.filter _).imp_of_mem ?_
      rintro e e' he he' hne ⟨p, q⟩ h h'
      obtain ⟨t, ht, hd⟩ := mem_dartsOf.1 (mem_boundaryOf.1 he).1
      obtain ⟨t', ht', hd'⟩ := mem_dartsOf.1 (mem_boundaryOf.1 he').1
      exact hne (outer_unique hμ ht ht' hd hd' (mem_pieces.1 h) (mem_pieces.1 h'))
  · rintro ⟨p, q⟩
    change (p, q) ∈ boundaryOf _ ↔ _
    rw [boundary_children hg hμ, List.mem_flatMap]
    simp only [mem_pieces]

theorem boundary_children_length :
    (boundaryOf (T.flatMap (Tri.children μ))).length =
      (boundaryOf T).length + ((boundaryOf T).filter fun e => (μ e).isSome).length := by
  rw [(boundary_children_perm hg hμ).length_eq]
  induction boundaryOf T with
  | nil => rfl
  | cons e B ih =>
    rw [List.flatMap_cons, List.length_append, ih, List.length_cons, List.filter_cons]
    unfold Edge.pieces
    rcases hm : μ e with _ | m
    · simp; omega
    · simp; omega

end

theorem children_total (μ : Edge → Option PId) (T : List Tri) :
    (T.flatMap (Tri.children μ)).length = T.length + ((dartsOf T).filter fun e => (μ e).isSome).length := by
  induction T with
  | nil => rfl
  | cons t T ih =>
    have : dartsOf (t :: T) = t.darts ++ dartsOf T := by simp [dartsOf]
    rw [List.flatMap_cons, List.length_append, ih, this, List.filter_append, List.length_append, children_length,
      List.length_cons]
    omega

/-- The Euler characteristic of a face split. -/
theorem FaceSplitResult.euler [Zero P] {lib : QELib} {inp out : Mesh P D} {f f' : Filt} {u : Bool} {μ : Edge → Option PId}
    {pts : List P} (R : FaceSplitResult lib inp out f f' u μ pts) (hv : inp.Valid) {E : List Edge} (hE : DistinctEdges E)
    (hlen : pts.length = inp.points.length + E.length) (hsome : ∀ e, (μ e).isSome ↔ e ∈ E ∨ e.sym ∈ E)
    (hEd : ∀ e ∈ E, inp.IsEdge e) :
    (out.points.length : Int) - out.edges.length + out.cells.length =
      (inp.points.length : Int) - inp.edges.length + inp.cells.length := by
  have hg := hv.good
  have hL := R.label
  have hgc := hg.children hL
  have hcells : inp.cells.length = inp.tris.length := by
    unfold Mesh.tris
    have : ∀ (l : AMap (Option Cell)), (∀ c ∈ l, ∃ t : Tri, c.2 = some t.cell) →
        l.length = (l.filterMap fun c => Cell.tri? c.2).length := by
      intro l
      induction l with
      | nil => intro _; rfl
      | cons c l ih =>
        intro h
        obtain ⟨t, ht⟩ := h c (by simp)
        rw [List.filterMap_cons_some (b := t) (by rw [ht]; rfl), List.length_cons, List.length_cons,
          ih fun c hc => h c (by simp [hc])]
    exact this _ fun c hc => let ⟨t, ht, _⟩ := hv.cells_tri c hc; ⟨t, ht⟩
  have e1 := sym_count (E := inp.edges) hg.oriented (fun e => hg.no_loop) hv.edges_once hv.edges_iff
  have hv' := R.valid hv
  have e2 := sym_count (E := out.edges) hv'.good.oriented (fun e => hv'.good.no_loop) hv'.edges_once hv'.edges_iff
  change _ = _ + (boundaryOf inp.tris).length at e1
  change _ = _ + (boundaryOf out.tris).length at e2
  rw [R.tris, boundary_children_length hg hL, dartsOf_length, children_total] at e2
  rw [dartsOf_length] at e1
  have hsym : ∀ e, (μ e.sym).isSome ↔ (μ e).isSome := fun e => by rw [hL.sym]
  have e3 := sym_count (X := (dartsOf inp.tris).filter fun e => (μ e).isSome) (hg.oriented.filter _)
    (fun e he => hg.no_loop (List.mem_filter.1 he).1) hE (by
      intro e
      rw [List.mem_filter, List.mem_filter, hsym, ← hsome]
      constructor
      · intro h
        have : inp.IsEdge e := by
          rcases (hsome e).1 h with h1 | h1
          · exact hEd _ h1
          · exact (hEd _ h1).sym
        rcases (hv.edges_iff e).1 this with h1 | h1
        · exact Or.inl ⟨h1, h⟩
        · exact Or.inr ⟨h1, h⟩
      · rintro (h | h)
        · exact h.2
        · exact h.2)
  have e4 : ((dartsOf inp.tris).filter fun e => (μ e).isSome).filter
        (fun e => decide (e.sym ∉ (dartsOf inp.tris).filter fun e => (μ e).isSome)) =
      (boundaryOf inp.tris).filter fun e => (μ e).isSome := by
    unfold boundaryOf
    rw [List.filter_filter, List.filter_filter]
    apply List.filter_congr
    intro e _
    rw [Bool.eq_iff_iff]
    simp only [Bool.and_eq_true, decide_eq_true_eq, List.mem_filter, hsym]
    tauto
  rw [e4] at e3
  have e5 := R.cells_length
  rw [children_total] at e5
  rw [e5, R.points_length, hlen, hcells]
  push_cast
  omega

end Verif
