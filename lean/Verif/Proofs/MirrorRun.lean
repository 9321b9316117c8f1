import Verif.Proofs.Mirror
/-
Runs of the face split filters on a surface and on its other side.
-/
namespace Verif
set_option linter.unusedSectionVars false

theorem children_flip {μ : Edge → Option PId} (hsym : ∀ e : Edge, μ e.sym = μ e) (a b c : PId)
    (h : (Tri.children μ (a, b, c)).length ≠ 3) :
    (Tri.children μ (c, b, a)).length = (Tri.children μ (a, b, c)).length ∧
    ∀ p q r, (∃ d ∈ Tri.children μ (a, b, c), Tri.Is d p q r) → ∃ d ∈ Tri.children μ (c, b, a), Tri.Is d r q p := by
  have s0 : μ (b, a) = μ (a, b) := hsym (a, b)
  have s1 : μ (c, b) = μ (b, c) := hsym (b, c)
  have s2 : μ (a, c) = μ (c, a) := hsym (c, a)
  rcases h0 : μ (a, b) with _ | m0 <;> rcases h1 : μ (b, c) with _ | m1 <;> rcases h2 : μ (c, a) with _ | m2 <;>
    simp only [Tri.children, s0, s1, s2, h0, h1, h2, List.length_cons, List.length_nil, ne_eq, not_true_eq_false] at h ⊢
  all_goals refine ⟨trivial, ?_⟩
  all_goals
    rintro p q r ⟨d, hd, hi⟩
    simp only [List.mem_cons, List.not_mem_nil, or_false] at hd
    rcases hd with rfl | rfl | rfl | rfl <;> rcases hi with h | h | h <;> cases h <;> simp [Tri.Is]

variable {K P D : Type} [Field K] [AddCommGroup P] [Module K P]

section split
variable {lib lib' : QELib} {ρ : PId → PId} {m m' out out' : Mesh P D} {f f' g g' : Filt} {u u' : Bool}
  {μ μ' : Edge → Option PId} {pts pts' : List P}

/-- Two face splits of the two sides of a surface, splitting the same edges and putting the new points at the same
places, yield the two sides of a surface, provided that no cell has exactly two split edges. -/
theorem split_mirror (R : OtherSide ρ m m') (hv : m.Valid) (hv' : m'.Valid)
    (A : FaceSplitResult lib m out f f' u μ pts) (B : FaceSplitResult lib' m' out' g g' u' μ' pts')
    (hlab : ∀ e, usedBy m.tris e.1 ∧ usedBy m.tris e.2 → ((μ' (e.rename ρ)).isSome ↔ (μ e).isSome))
    (hrot : ∀ t ∈ m.tris, (t.children μ).length ≠ 3)
    (hold : ∀ v, usedBy m.tris v → out'.pos (ρ v) = out.pos v)
    (hnew : ∀ e v w, m.IsEdge e → μ e = some v → μ' (e.rename ρ) = some w → out'.pos w = out.pos v) :
    ∃ ρ', (∀ v, v < m.points.length → ρ' v = ρ v) ∧ OtherSide ρ' out out' ∧
      (∀ n p q r, Kids m.tris μ n p q r → Kids m'.tris μ' n (ρ' r) (ρ' q) (ρ' p)) ∧
      (∀ n p' q' r', Kids m'.tris μ' n p' q' r' → ∃ p q r, Kids m.tris μ n p q r ∧ ρ' r = p' ∧ ρ' q = q' ∧ ρ' p = r') := by
  obtain ⟨ρ', hρ'⟩ : ∃ ρ', ρ' = carryId m.points.length ρ μ μ' := ⟨_, rfl⟩
  have hbase : ∀ v, v < m.points.length → ρ' v = ρ v := by
    intro v hlt
    rw [hρ']
    exact if_pos hlt
  have hused : ∀ {t}, t ∈ m.tris → ∀ {e}, e ∈ t.darts → usedBy m.tris e.1 ∧ usedBy m.tris e.2 :=
    fun ht _ he => usedBy_dart (mem_dartsOf.2 ⟨_, ht, he⟩)
  have hmap : ∀ e, usedBy m.tris e.1 ∧ usedBy m.tris e.2 → μ' (e.rename ρ) = (μ e).map ρ' := by
    intro e he
    have := hlab e he
    rcases h1 : μ e with _ | v <;> rcases h2 : μ' (e.rename ρ) with _ | w <;> simp [h1, h2] at this
    · rfl
    · rw [Option.map_some, hρ', carryId_new A B h1 h2]
  have hkids : ∀ t ∈ m.tris, (t.rename ρ).children μ' = (t.children μ).map (Tri.rename ρ') := fun t ht =>
    (children_rename (fun v hvt => hbase v (hv.verts_lt ht hvt)) fun e he => hmap e (hused ht he)).1
  have hlen : ∀ t ∈ m.tris, ((t.rename ρ).children μ').length = (t.children μ).length := fun t ht => by
    rw [hkids t ht, List.length_map]
  have hfwd : ∀ n p q r, Kids m.tris μ n p q r → Kids m'.tris μ' n (ρ' r) (ρ' q) (ρ' p) := by
    rintro n p q r ⟨t, ht, hn, d, hd, hi⟩
    have hd' : d.rename ρ' ∈ (t.rename ρ).children μ' := by
      rw [hkids t ht]; exact List.mem_map_of_mem hd
    have h3 := hrot t ht
    obtain ⟨a, b, c⟩ := t
    obtain ⟨t', ht', hi'⟩ := hasTri_iff.1 (R.tri a b c (Or.inl ht))
    have h3' : (Tri.children μ' (ρ a, ρ b, ρ c)).length ≠ 3 := by
      rw [show ((ρ a, ρ b, ρ c) : Tri) = Tri.rename ρ (a, b, c) from rfl, hlen _ ht]; exact h3
    obtain ⟨f1, f2⟩ := children_flip B.label.sym _ _ _ h3'
    obtain ⟨k1, k2⟩ := children_is (μ := μ') hi'.sym' (by rw [f1]; exact h3')
    exact ⟨t', ht', k1.trans (f1.trans ((hlen _ ht).trans hn)), k2 _ _ _ (f2 _ _ _ ⟨_, hd', hi.rename ρ'⟩)⟩
  have honto : ∀ n p' q' r', Kids m'.tris μ' n p' q' r' →
      ∃ p q r, Kids m.tris μ n p q r ∧ ρ' r = p' ∧ ρ' q = q' ∧ ρ' p = r' := by
    rintro n p' q' r' ⟨t', ht', hn, d', hd', hi'⟩
    obtain ⟨a', b', c'⟩ := t'
    obtain ⟨a, b, c, h1, rfl, rfl, rfl⟩ := R.onto _ _ _ (Or.inl ht')
    obtain ⟨t, ht, hi⟩ := hasTri_iff.1 h1
    have hir := hi.rename ρ
    have back : ((t.rename ρ).children μ').length = n → (∃ d ∈ (t.rename ρ).children μ', d.Is r' q' p') →
        ∃ p q r, Kids m.tris μ n p q r ∧ ρ' r = p' ∧ ρ' q = q' ∧ ρ' p = r' := by
      rintro hn ⟨d, hd, hid⟩
      rw [hkids t ht] at hd
      obtain ⟨x, hx, rfl⟩ := List.mem_map.1 hd
      have hK : ∀ {p q r}, x.Is p q r → Kids m.tris μ n p q r := fun h => ⟨t, ht, (hlen t ht).symm.trans hn, x, hx, h⟩
      obtain ⟨x1, x2, x3⟩ := x
      simp only [Tri.Is, Tri.rename, Prod.mk.injEq] at hid
      rcases hid with ⟨e1, e2, e3⟩ | ⟨e1, e2, e3⟩ | ⟨e1, e2, e3⟩
      · exact ⟨x1, x2, x3, hK (by simp [Tri.Is]), e3, e2, e1⟩
      · exact ⟨x3, x1, x2, hK (by simp [Tri.Is]), e2, e1, e3⟩
      · exact ⟨x2, x3, x1, hK (by simp [Tri.Is]), e1, e3, e2⟩
    have h3 := hrot t ht
    have k0 := (children_is (μ := μ') hir (by rw [hlen t ht]; exact h3)).1
    have h3' : (Tri.children μ' (ρ a, ρ b, ρ c)).length ≠ 3 := by
      rw [k0, hlen t ht]; exact h3
    have f0 := (children_flip B.label.sym _ _ _ h3').1
    obtain ⟨f1, f2⟩ := children_flip B.label.sym _ _ _ (by rw [f0]; exact h3')
    obtain ⟨k1, k2⟩ := children_is (μ := μ') hir.sym' h3'
    exact back (k1.trans (f1.trans hn)) (k2 _ _ _ (f2 _ _ _ ⟨d', hd', hi'⟩))
  have hhas : ∀ p q r, HasTri out.tris p q r ↔ ∃ n, Kids m.tris μ n p q r := by
    intro p q r
    rw [hasTri_iff, A.tris]
    constructor
    · rintro ⟨d, hd, hi⟩
      obtain ⟨t, ht, hd⟩ := List.mem_flatMap.1 hd
      exact ⟨_, t, ht, rfl, d, hd, hi⟩
    · rintro ⟨n, t, ht, -, d, hd, hi⟩
      exact ⟨d, List.mem_flatMap.2 ⟨t, ht, hd⟩, hi⟩
  have hhas' : ∀ p q r, HasTri out'.tris p q r ↔ ∃ n, Kids m'.tris μ' n p q r := by
    intro p q r
    rw [hasTri_iff, B.tris]
    constructor
    · rintro ⟨d, hd, hi⟩
      obtain ⟨t, ht, hd⟩ := List.mem_flatMap.1 hd
      exact ⟨_, t, ht, rfl, d, hd, hi⟩
    · rintro ⟨n, t, ht, -, d, hd, hi⟩
      exact ⟨d, List.mem_flatMap.2 ⟨t, ht, hd⟩, hi⟩
  have hverts : ∀ d ∈ out.tris, ∀ v ∈ d.verts, usedBy m.tris v ∨
      ∃ e v', (usedBy m.tris e.1 ∧ usedBy m.tris e.2) ∧ m.IsEdge e ∧ μ e = some v ∧ μ' (e.rename ρ) = some v' ∧ ρ' v = v' := by
    intro d hd v hvd
    rw [A.tris] at hd
    obtain ⟨t, ht, hd⟩ := List.mem_flatMap.1 hd
    rcases children_verts (a := t.1) (b := t.2.1) (c := t.2.2) d hd v hvd with h | ⟨e, he, h⟩
    · exact Or.inl ⟨t, ht, h⟩
    · have hu := hused ht he
      have h2 := hmap e hu
      rw [h, Option.map_some] at h2
      exact Or.inr ⟨e, ρ' v, hu, hv.isEdge_of_dart (mem_dartsOf.2 ⟨t, ht, he⟩), h, h2, rfl⟩
  have hlt : ∀ {v}, usedBy m.tris v → v < m.points.length := fun h => Renamed.used_lt hv h
  have hlt' : ∀ {v}, usedBy m.tris v → ρ' v < m'.points.length := fun h => by
    rw [hbase _ (hlt h)]; exact Renamed.used_lt hv' (R.used h)
  refine ⟨ρ', hbase, ⟨?_, ?_, ?_, ?_⟩, hfwd, honto⟩
  · intro x y z h
    obtain ⟨n, h⟩ := (hhas x y z).1 h
    exact (hhas' _ _ _).2 ⟨n, hfwd _ _ _ _ h⟩
  · intro x' y' z' h
    obtain ⟨n, h⟩ := (hhas' x' y' z').1 h
    obtain ⟨p, q, r, h1, h2⟩ := honto _ _ _ _ h
    exact ⟨p, q, r, (hhas _ _ _).2 ⟨n, h1⟩, h2⟩
  · intro d hd d2 hd2 v hvd w hwd heq
    rcases hverts d hd v hvd with h1 | ⟨e, v', hu, he, h1, h2, h3⟩ <;>
      rcases hverts d2 hd2 w hwd with k1 | ⟨e2, w', ku, ke, k1, k2, k3⟩
    · rw [hbase _ (hlt h1), hbase _ (hlt k1)] at heq
      exact R.injOn _ _ h1 k1 heq
    · exact absurd (heq ▸ hlt' h1) (Nat.not_lt.2 (k3 ▸ (B.fresh _ _ k2).1))
    · exact absurd (heq.symm ▸ hlt' k1) (Nat.not_lt.2 (h3 ▸ (B.fresh _ _ h2).1))
    · rw [h3, k3] at heq
      subst heq
      have : e2 = e ∨ e2 = e.sym := by
        rcases B.label.inj _ _ _ h2 k2 with h | h
        · exact Or.inl ((Edge.rename_inj R.injOn ku hu).1 h)
        · rw [Edge.rename_sym] at h
          exact Or.inr ((Edge.rename_inj R.injOn ku ⟨hu.2, hu.1⟩).1 h)
      rcases this with rfl | rfl
      · exact Option.some.inj (h1.symm.trans k1)
      · rw [A.label.sym] at k1
        exact Option.some.inj (h1.symm.trans k1)
  · intro d hd v hvd
    rcases hverts d hd v hvd with h1 | ⟨e, v', hu, he, h1, h2, h3⟩
    · rw [hbase _ (hlt h1)]
      exact hold v h1
    · rw [h3]
      exact hnew e v v' he h1 h2

end split

section runs
variable {lib lib' : QELib} {cosn : Nat → K} {ρ : PId → PId} {m m' out out' : Mesh P D} {f f' g g' : Filt}

theorem OtherSelection.dart {sel sel' : List CId} (R : OtherSide ρ m m') (hv : m.Valid) (hv' : m'.Valid)
    (S : OtherSelection ρ m sel m' sel') {e : Edge} (he : usedBy m.tris e.1 ∧ usedBy m.tris e.2) :
    (e.sym).rename ρ ∈ dartsOf (m'.selected sel') ↔ e ∈ dartsOf (m.selected sel) := by
  obtain ⟨a, b⟩ := e
  show (ρ b, ρ a) ∈ dartsOf (m'.selected sel') ↔ _
  rw [dartsOf_iff_hasTri, dartsOf_iff_hasTri]
  constructor
  · rintro ⟨z, hz⟩
    obtain ⟨t, ht, hi⟩ := hasTri_iff.1 hz
    obtain ⟨x, y, w, h1, h2, h3, rfl⟩ := R.onto _ _ _ (hasTri_iff.2 ⟨t, hv'.selected_subset _ t ht, hi⟩)
    obtain ⟨-, uy, uw⟩ := hasTri_used h1
    obtain rfl := R.injOn _ _ uw he.2 h2
    obtain rfl := R.injOn _ _ uy he.1 h3
    exact ⟨x, ((S _ _ _ h1).1 hz).rot⟩
  · rintro ⟨z, hz⟩
    obtain ⟨t, ht, hi⟩ := hasTri_iff.1 hz
    exact ⟨ρ z, ((S _ _ _ (hasTri_iff.2 ⟨t, hv.selected_subset _ t ht, hi⟩)).2 hz).rot⟩

theorem OtherSelection.dart' {sel sel' : List CId} (R : OtherSide ρ m m') (hv : m.Valid) (hv' : m'.Valid)
    (S : OtherSelection ρ m sel m' sel') {e : Edge} (he : usedBy m.tris e.1 ∧ usedBy m.tris e.2) :
    e.rename ρ ∈ dartsOf (m'.selected sel') ↔ e.sym ∈ dartsOf (m.selected sel) := by
  rw [← S.dart R hv hv' (e := e.sym) ⟨he.2, he.1⟩, Edge.sym_sym]

theorem cellUpdate_mirror {sch : Scheme} (hs : sch ≠ .sqrt3) (R : OtherSide ρ m m') (hn : sch.Needs m)
    (hn' : sch.Needs m') (hc : sch = .butterfly → m.Closed) (hl : sch = .loop → f.uniform = true ∧ g.uniform = true)
    (hsel : m.SelOK f.cells) (hsel' : m'.SelOK g.cells) (S : OtherSelection ρ m f.cells m' g.cells)
    (hrot : ∀ t ∈ m.tris, (t.sharedWith (m.selected f.cells)).length ≠ 2)
    (h : cellUpdate sch lib cosn f m = (.ok out, f')) (h' : cellUpdate sch lib' cosn g m' = (.ok out', g')) :
    ∃ ρ', (∀ v, v < m.points.length → ρ' v = ρ v) ∧ OtherSide ρ' out out' ∧
      OtherSelection ρ' out f'.cells out' g'.cells := by
  obtain ⟨A, -⟩ := cellUpdate_result hs hn hsel h
  obtain ⟨B, -⟩ := cellUpdate_result hs hn' hsel' h'
  have hv := hn.valid
  have hv' := hn'.valid
  have hcl' : sch = .butterfly → m'.Closed := fun h => R.closed (hc h)
  obtain ⟨ρ', h1, h2, h3, h4⟩ := split_mirror R hv hv' A B
    (fun e he => by
      rw [edgePoint_isSome, edgePoint_isSome, Edge.rename_sym, S.dart R hv hv' he, S.dart' R hv hv' he, or_comm])
    (fun t ht h3 => hrot t ht (by rw [shared_length] at h3; omega))
    (fun v hu => by
      rw [cellUpdate_base hs hn' hsel' h' (Renamed.used_lt hv' (R.used hu)),
        cellUpdate_base hs hn hsel h (Renamed.used_lt hv hu), R.schemeBase hn hn' cosn hl hu])
    (fun e v w he hm hm' => by
      have k1 := cellUpdate_edgeMap hs hn (fun e he => schemePoint_sym hn hc he) hsel h e
      have k2 := cellUpdate_edgeMap hs hn' (fun e he => schemePoint_sym hn' hcl' he) hsel' h' (e.rename ρ)
      rw [hm] at k1
      rw [hm'] at k2
      simp only [Option.map_some, Option.isSome_some, if_true, Option.some.injEq] at k1 k2
      rw [k1, k2, valueOf_congr (R.schemePoint hn hn' hc he)])
  refine ⟨ρ', h1, h2, ?_⟩
  intro x y z hxyz
  rw [next_selected hs hn' hsel' h', next_selected hs hn hsel h]
  refine ⟨fun k => ?_, h3 _ _ _ _⟩
  obtain ⟨p, q, r, k1, k2, k3, k4⟩ := h4 _ _ _ _ k
  have hout : HasTri out.tris p q r := by
    obtain ⟨t, ht, -, d, hd, hi⟩ := k1
    exact hasTri_iff.2 ⟨d, by rw [A.tris]; exact List.mem_flatMap.2 ⟨t, ht, hd⟩, hi⟩
  obtain ⟨u1, u2, u3⟩ := hasTri_used hout
  obtain ⟨v1, v2, v3⟩ := hasTri_used hxyz
  obtain rfl := h2.injOn _ _ u3 v3 k2
  obtain rfl := h2.injOn _ _ u2 v2 k3
  obtain rfl := h2.injOn _ _ u1 v1 k4
  exact k1

theorem edgeUpdate_mirror {sch : EdgeScheme} (R : OtherSide ρ m m') (hn : sch.toScheme.Needs m)
    (hn' : sch.toScheme.Needs m') (hc : sch = .butterfly → m.Closed) (hsel : m.EdgeSelOK f.edgeSel)
    (hsel' : m'.EdgeSelOK g.edgeSel) (S : SameSplits ρ m f.edgeSel m' g.edgeSel)
    (hrot : ∀ t ∈ m.tris, (t.splitEdges (m.selectedEdges f.edgeSel)).length ≠ 2)
    (h : edgeUpdate sch lib cosn f m = (.ok out, f')) (h' : edgeUpdate sch lib' cosn g m' = (.ok out', g')) :
    ∃ ρ', (∀ v, v < m.points.length → ρ' v = ρ v) ∧ OtherSide ρ' out out' := by
  have A := edgeUpdate_result hn hsel h
  have B := edgeUpdate_result hn' hsel' h'
  have hv := hn.valid
  have hv' := hn'.valid
  have hc1 : sch.toScheme = .butterfly → m.Closed := by
    intro h; cases sch <;> first | exact hc rfl | cases h
  have hc2 : sch.toScheme = .butterfly → m'.Closed := fun h => R.closed (hc1 h)
  have hE : ∀ {e}, m.IsEdge e ∨ m'.IsEdge (e.rename ρ) → (usedBy m.tris e.1 ∧ usedBy m.tris e.2) → m.IsEdge e := by
    rintro e (he | he) hu
    · exact he
    · obtain ⟨x, hx, hxe⟩ := R.isEdge' hv' hv he
      rwa [(Edge.rename_inj R.injOn (Renamed.used_of_edge hv hx) hu).1 hxe] at hx
  have hsome : ∀ e, (m.listPoint f.edgeSel e).isSome ↔ e ∈ m.selectedEdges f.edgeSel ∨ e.sym ∈ m.selectedEdges f.edgeSel :=
    fun e => lastLabel_isSome _ _ _
  have hsome' : ∀ e, (m'.listPoint g.edgeSel e).isSome ↔ e ∈ m'.selectedEdges g.edgeSel ∨ e.sym ∈ m'.selectedEdges g.edgeSel :=
    fun e => lastLabel_isSome _ _ _
  have hor : ∀ {m : Mesh P D} {f : Filt}, m.EdgeSelOK f.edgeSel → ∀ {e},
      (e ∈ m.selectedEdges f.edgeSel ∨ e.sym ∈ m.selectedEdges f.edgeSel) → m.IsEdge e := by
    rintro m f hs e (h | h)
    · exact selectedEdges_isEdge hs h
    · have := (selectedEdges_isEdge hs h).sym
      rwa [Edge.sym_sym] at this
  obtain ⟨ρ', h1, h2, -, -⟩ := split_mirror R hv hv' A B
    (fun e he => by
      rw [hsome, hsome']
      exact ⟨fun k => (S e (hE (Or.inr (hor hsel' k)) he)).1 k, fun k => (S e (hor hsel k)).2 k⟩)
    (fun t ht h3 => hrot t ht (by
      rw [children_length] at h3
      unfold Tri.splitEdges
      have : (t.darts.filter fun e => decide (e ∈ m.selectedEdges f.edgeSel ∨ e.sym ∈ m.selectedEdges f.edgeSel)) =
          t.darts.filter fun e => (m.listPoint f.edgeSel e).isSome :=
        List.filter_congr fun e _ => by rw [Bool.eq_iff_iff, decide_eq_true_iff, hsome]
      rw [this]
      omega))
    (fun v hu => by
      rw [pos_base B.points (Renamed.used_lt hv' (R.used hu)), pos_base A.points (Renamed.used_lt hv hu), R.coord hu])
    (fun e v w he hm hm' => by
      have k1 := edgeUpdate_edgeMap hn (fun e he => schemePoint_sym hn hc1 he) hsel h e
      have k2 := edgeUpdate_edgeMap hn' (fun e he => schemePoint_sym hn' hc2 he) hsel' h' (e.rename ρ)
      rw [hm] at k1
      rw [hm'] at k2
      simp only [Option.map_some, Option.isSome_some, if_true, Option.some.injEq] at k1 k2
      rw [k1, k2, valueOf_congr (R.schemePoint hn hn' hc1 he)])
  exact ⟨ρ', h1, h2⟩

end runs
end Verif
