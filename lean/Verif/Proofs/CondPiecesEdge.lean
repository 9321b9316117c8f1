import Verif.Proofs.CondPieces
/-
The conditional filter with an edge filter on a mesh and on pieces of it.
-/
namespace Verif
set_option linter.unusedSectionVars false
variable {K P D : Type} [Field K] [LinearOrder K] [AddCommGroup P] [Module K P]
variable {lib lib' : QELib} {cosn : Nat → K} {ρ : PId → PId} {m m' out out' : Mesh P D} {f f' g g' : Filt}
  {len : P → P → K} {L : K}

/-- a mesh between two iterations, with the list of what is too long -/
structure LengthRound (sch : EdgeScheme) (len : P → P → K) (L : K) (sel : List (Option Edge)) (m : Mesh P D) : Prop
    extends LengthInv sch sel m where
  exact' : ∀ e, some e ∈ sel ↔ e ∈ m.edges ∧ m.TooLong len L e

/-- a piece of it -/
structure LengthPiece (sch : EdgeScheme) (len : P → P → K) (L : K) (ρ : PId → PId) (m : Mesh P D) (sel : List (Option Edge))
    (m' : Mesh P D) : Prop extends LengthRound sch len L sel m where
  piece : PieceOf ρ m m'
  closed : sch = .butterfly → m.Closed
  starts : SameStarts ρ m m'

theorem lengthRound_step {sch : EdgeScheme} (hl : sch = .loop ∨ sch = .butterfly → lib.Lawful) (s : Filt)
    {sel : List (Option Edge)} {cur : Mesh P D} (H : LengthRound sch len L sel cur) (hne : sel ≠ []) :
    ∃ m s' sel', edgeUpdate sch lib cosn (s.setEdges sel) cur = (.ok m, s') ∧ lengthCompute len L m sel = (.ok (), sel') ∧
      LengthRound sch len L sel' m := by
  obtain ⟨m, s', sel', h1, h2, h4⟩ := condLength_step (cosn := cosn) hl len L s H.toLengthInv hne
  refine ⟨m, s', sel', h1, h2, { toLengthInv := h4, exact' := ?_ }⟩
  have hm := h4.needs.valid
  obtain ⟨l', k1, -, k2, -⟩ := C29_length_exact len L hm.has_edge_cells hm.endsExist sel
  rw [h2] at k1
  cases k1
  intro e
  rw [← k2 e]
  simp

theorem tooLong_sym (hr : ∀ p q, len q p = len p q) {e : Edge} : m.TooLong len L e.sym ↔ m.TooLong len L e := by
  constructor
  · rintro ⟨p, q, h1, h2, h3⟩
    exact ⟨q, p, h2, h1, by rw [hr]; exact h3⟩
  · rintro ⟨p, q, h1, h2, h3⟩
    exact ⟨q, p, h2, h1, by rw [hr]; exact h3⟩

/-- what is listed, in one direction or the other -/
theorem LengthRound.mem {sch : EdgeScheme} (hr : ∀ p q, len q p = len p q) {sel : List (Option Edge)}
    (H : LengthRound sch len L sel m) (hne : sel ≠ []) {e : Edge} :
    (e ∈ m.selectedEdges sel ∨ e.sym ∈ m.selectedEdges sel) ↔ m.IsEdge e ∧ m.TooLong len L e := by
  have hs : ∀ {e}, e ∈ m.selectedEdges sel ↔ some e ∈ sel := by
    intro e
    unfold Mesh.selectedEdges
    rw [if_neg (by simpa using hne)]
    simp
  rw [hs, hs, H.exact', H.exact', tooLong_sym hr]
  constructor
  · rintro (⟨h1, h2⟩ | ⟨h1, h2⟩)
    · exact ⟨Or.inl h1, h2⟩
    · exact ⟨Or.inr h1, h2⟩
  · rintro ⟨h1 | h1, h2⟩
    · exact Or.inl ⟨h1, h2⟩
    · exact Or.inr ⟨h1, h2⟩

theorem LengthRound.empty {sch : EdgeScheme} (hr : ∀ p q, len q p = len p q) {sel : List (Option Edge)}
    (H : LengthRound sch len L sel m) : sel = [] ↔ ∀ e, m.IsEdge e → ¬ m.TooLong len L e := by
  constructor
  · rintro rfl e (he | he) hb
    · exact absurd ((H.exact' e).2 ⟨he, hb⟩) List.not_mem_nil
    · exact absurd ((H.exact' e.sym).2 ⟨he, (tooLong_sym hr).2 hb⟩) List.not_mem_nil
  · intro h
    obtain ⟨l, rfl, -⟩ := H.list
    refine List.eq_nil_iff_forall_not_mem.2 fun x hx => ?_
    obtain ⟨e, he, rfl⟩ := List.mem_map.1 hx
    obtain ⟨h1, h2⟩ := (H.exact' e).1 hx
    exact h e (Or.inl h1) h2

theorem PieceOf.long (R : PieceOf ρ m m') (hv : m.Valid) {e : Edge} (h : m.IsEdge e) :
    m'.TooLong len L (e.rename ρ) ↔ m.TooLong len L e := by
  obtain ⟨u1, u2⟩ : usedBy m.tris e.1 ∧ usedBy m.tris e.2 := by
    rcases (hv.edges_iff e).1 h with he | he
    · exact usedBy_dart he
    · exact (usedBy_dart he).symm
  obtain ⟨t1, h1, k1⟩ := u1
  obtain ⟨t2, h2, k2⟩ := u2
  unfold Mesh.TooLong
  simp only [Edge.rename, R.pos t1 h1 _ k1, R.pos t2 h2 _ k2]

theorem round_piece_edge {sch : EdgeScheme} (hr : ∀ p q, len q p = len p q)
    (hl : sch = .loop ∨ sch = .butterfly → lib.Lawful) {n : Nat} {sel sel' : List (Option Edge)}
    (H : LengthPiece sch len L ρ m sel m') (B : LengthRound sch len L sel' m') (hne : sel' ≠ [])
    (h' : edgeUpdate sch lib' cosn (g.setEdges sel') m' = (.ok out', g')) (s : Filt) :
    ∃ out l s' ρ', condLoop (condEdgeUpd sch lib cosn) (lengthCompute len L) (n + 1) ⟨s, sel⟩ m =
        condLoop (condEdgeUpd sch lib cosn) (lengthCompute len L) n ⟨s', l⟩ out ∧
      m.points.length ≤ out.points.length ∧ (∀ v, v < m.points.length → ρ' v = ρ v) ∧
      LengthPiece sch len L ρ' out l out' ∧
      ∀ t ∈ m'.tris, ∀ d ∈ t.children (m'.listPoint sel'), (InPiece ρ' out d ↔ InPiece ρ m t) := by
  have hv := H.needs.valid
  have hv' := B.needs.valid
  by_cases h0 : sel = []
  · subst h0
    have S : SparesEdges ρ m (m'.selectedEdges sel') := by
      intro e he hin
      exact (H.empty hr).1 rfl e he ((H.piece.long hv he).1 ((B.mem hr hne).1 (Or.inl hin)).2)
    obtain ⟨k1, k3⟩ := edge_left H.piece hv B.needs (g := g.setEdges sel') B.selOK S h'
    refine ⟨m, [], s, ρ, by rw [condLoop_done rfl, condLoop_done rfl], Nat.le_refl _, fun _ _ => rfl, ?_, k3⟩
    refine { toLengthRound := H.toLengthRound, piece := k1, closed := H.closed, starts := fun t ht => ?_ }
    have ht' := H.starts t ht
    rw [(edgeUpdate_result B.needs (f := g.setEdges sel') B.selOK h').tris]
    refine List.mem_flatMap.2 ⟨_, ht', ?_⟩
    rw [children_none _ _ fun e he => ?_]
    · exact List.mem_singleton_self _
    · by_contra hne'
      obtain ⟨a, b, c⟩ := t
      have hE : ∃ x, m.IsEdge x ∧ x.rename ρ = e := by
        have hd : ∀ {x}, x ∈ Tri.darts (a, b, c) → m.IsEdge x := fun hx => hv.isEdge_of_dart (mem_dartsOf.2 ⟨_, ht, hx⟩)
        simp only [Tri.darts, Tri.rename, List.mem_cons, List.not_mem_nil, or_false] at he
        rcases he with rfl | rfl | rfl
        · exact ⟨(a, b), hd (by simp [Tri.darts]), rfl⟩
        · exact ⟨(b, c), hd (by simp [Tri.darts]), rfl⟩
        · exact ⟨(c, a), hd (by simp [Tri.darts]), rfl⟩
      obtain ⟨x, hx, rfl⟩ := hE
      rcases (lastLabel_isSome _ _ _).1 (Option.isSome_iff_ne_none.2 hne') with hd | hd
      · exact S x hx hd
      · exact S x.sym hx.sym (by rw [← Edge.rename_sym]; exact hd)
  · obtain ⟨out, s', l, h1, h2, h4⟩ := lengthRound_step (cosn := cosn) hl s H.toLengthRound h0
    have S : SameSplits ρ m sel m' sel' := fun e he => by
      rw [H.mem hr h0, B.mem hr hne, H.piece.long hv he]
      exact ⟨fun k => ⟨he, k.2⟩, fun k => ⟨H.piece.isEdge hv' hv he, k.2⟩⟩
    obtain ⟨ρ', k1, k2, k4, k5⟩ := edgeUpdate_listing H.piece H.needs B.needs H.closed
      (f := s.setEdges sel) (g := g.setEdges sel') H.selOK B.selOK S (fun t ht _ => H.starts t ht) h1 h'
    have R := edgeUpdate_result H.needs (f := s.setEdges sel) H.selOK h1
    refine ⟨out, l, s', ρ', condLoop_step h0 h1 h2, ?_, k1,
      { toLengthRound := h4, piece := k2, closed := ?_, starts := k4 H.starts }, k5⟩
    · rw [R.points, AMap.length_dense]; exact R.longer
    · intro hb
      exact (C18_boundary_preserved_edge H.needs (f := s.setEdges sel) H.selOK h1).2.1 (H.closed hb)

theorem condLoop_pieces_edge {sch : EdgeScheme} (hr : ∀ p q, len q p = len p q) {ι : Type} {libs : ι → QELib}
    (hl : ∀ i, sch = .loop ∨ sch = .butterfly → (libs i).Lawful) (hl' : sch = .loop ∨ sch = .butterfly → lib'.Lawful) (n : Nat) :
    ∀ {ρ : ι → PId → PId} {m : ι → Mesh P D} {sel : ι → List (Option Edge)} {m' : Mesh P D} {sel' : List (Option Edge)}
      (s : ι → Filt) (s' : Filt), (∀ i, LengthPiece sch len L (ρ i) (m i) (sel i) m') → LengthRound sch len L sel' m' →
      (∃ out' c', condLoop (condEdgeUpd sch lib' cosn) (lengthCompute len L) n ⟨s', sel'⟩ m' = some (.ok out', c') ∧
        ∃ (out : ι → Mesh P D) (c : ι → Cond Filt (Option Edge)) (ρ' : ι → PId → PId),
        (∀ i, condLoop (condEdgeUpd sch (libs i) cosn) (lengthCompute len L) n ⟨s i, sel i⟩ (m i) = some (.ok (out i), c i)) ∧
        (∀ i, ∀ v, v < (m i).points.length → ρ' i v = ρ i v) ∧ (∀ i, PieceOf (ρ' i) (out i) out') ∧
        ((∀ t ∈ m'.tris, ∃ i, InPiece (ρ i) (m i) t) → ∀ t ∈ out'.tris, ∃ i, InPiece (ρ' i) (out i) t) ∧
        ((∀ t ∈ m'.tris, ∀ i j, InPiece (ρ i) (m i) t → InPiece (ρ j) (m j) t → i = j) →
          ∀ t ∈ out'.tris, ∀ i j, InPiece (ρ' i) (out i) t → InPiece (ρ' j) (out j) t → i = j)) ∨
      (condLoop (condEdgeUpd sch lib' cosn) (lengthCompute len L) n ⟨s', sel'⟩ m' = none ∧
        ((∀ t ∈ m'.tris, ∃ i, InPiece (ρ i) (m i) t) →
          ∃ i, condLoop (condEdgeUpd sch (libs i) cosn) (lengthCompute len L) n ⟨s i, sel i⟩ (m i) = none)) := by
  have done : ∀ {ρ : ι → PId → PId} {m : ι → Mesh P D} {sel : ι → List (Option Edge)} {m' : Mesh P D},
      (∀ i, LengthPiece sch len L (ρ i) (m i) (sel i) m') → LengthRound sch len L [] m' → ∀ i, sel i = [] := by
    intro ρ m sel m' H B i
    rw [(H i).empty hr]
    intro e he hb
    exact (B.empty hr).1 rfl _ ((H i).piece.isEdge B.needs.valid (H i).needs.valid he)
      (((H i).piece.long (H i).needs.valid he).2 hb)
  induction n with
  | zero =>
    intro ρ m sel m' sel' s s' H B
    by_cases hne : sel' = []
    · subst hne
      exact Or.inl ⟨m', _, condLoop_done rfl, m, _, ρ, fun i => condLoop_done (done H B i), fun _ _ _ => rfl,
        fun i => (H i).piece, fun h => h, fun h => h⟩
    · refine Or.inr ⟨condLoop_zero hne, fun hall => ?_⟩
      have : ∃ e, m'.IsEdge e ∧ m'.TooLong len L e := by
        by_contra hx
        exact hne ((B.empty hr).2 fun e he hb => hx ⟨e, he, hb⟩)
      obtain ⟨e, he, hb⟩ := this
      have hd : ∃ t ∈ m'.tris, e.1 ∈ t.verts := by
        rcases (B.needs.valid.edges_iff e).1 he with h | h
        · exact (usedBy_dart h).1
        · exact (usedBy_dart h).2
      obtain ⟨t, ht, het⟩ := hd
      obtain ⟨i, a, b, c, h0, rfl⟩ := hall t ht
      obtain ⟨ua, ub, uc⟩ := hasTri_used h0
      have hx : ∃ x, usedBy (m i).tris x ∧ ρ i x = e.1 := by
        simp only [Tri.verts, List.mem_cons, List.not_mem_nil, or_false] at het
        rcases het with h | h | h
        · exact ⟨a, ua, h.symm⟩
        · exact ⟨b, ub, h.symm⟩
        · exact ⟨c, uc, h.symm⟩
      obtain ⟨x, hx, hxe⟩ := hx
      obtain ⟨y, hy, rfl⟩ := (H i).piece.isEdge' B.needs.valid (H i).needs.valid hx hxe he
      refine ⟨i, condLoop_zero fun hs => ?_⟩
      exact ((H i).empty hr).1 hs _ hy (((H i).piece.long (H i).needs.valid hy).1 hb)
  | succ n ih =>
    intro ρ m sel m' sel' s s' H B
    by_cases hne : sel' = []
    · subst hne
      exact Or.inl ⟨m', _, condLoop_done rfl, m, _, ρ, fun i => condLoop_done (done H B i), fun _ _ _ => rfl,
        fun i => (H i).piece, fun h => h, fun h => h⟩
    · obtain ⟨o', g', l', h1, h2, B1⟩ := lengthRound_step (cosn := cosn) hl' s' B hne
      have key := fun i => round_piece_edge (n := n) hr (hl i) (H i) B hne h1 (s i)
      choose o l g σ k1 k2 k3 k4 k5 using key
      have hstep : condLoop (condEdgeUpd sch lib' cosn) (lengthCompute len L) (n + 1) ⟨s', sel'⟩ m' =
          condLoop (condEdgeUpd sch lib' cosn) (lengthCompute len L) n ⟨g', l'⟩ o' := condLoop_step hne h1 h2
      have hfrom : ∀ {d}, d ∈ o'.tris → ∃ t ∈ m'.tris, d ∈ t.children (m'.listPoint sel') := by
        intro d hd
        rw [(edgeUpdate_result B.needs (f := s'.setEdges sel') B.selOK h1).tris] at hd
        exact List.mem_flatMap.1 hd
      have hall : (∀ t ∈ m'.tris, ∃ i, InPiece (ρ i) (m i) t) → ∀ t ∈ o'.tris, ∃ i, InPiece (σ i) (o i) t := by
        intro hx d hd
        obtain ⟨t, ht, hf⟩ := hfrom hd
        obtain ⟨i, hi⟩ := hx t ht
        exact ⟨i, (k5 i t ht d hf).2 hi⟩
      rcases ih g g' k4 B1 with ⟨out', c', e1, out, c, τ, e2, e3, e4, e5, e6⟩ | ⟨e1, e2⟩
      · refine Or.inl ⟨out', c', hstep.trans e1, out, c, τ, fun i => (k1 i).trans (e2 i), fun i v hv => ?_, e4,
          fun hx => e5 (hall hx), fun hx => e6 fun d hd i j hi hj => ?_⟩
        · rw [e3 i v (Nat.lt_of_lt_of_le hv (k2 i)), k3 i v hv]
        · obtain ⟨t, ht, hf⟩ := hfrom hd
          exact hx t ht i j ((k5 i t ht d hf).1 hi) ((k5 j t ht d hf).1 hj)
      · refine Or.inr ⟨hstep.trans e1, fun hx => ?_⟩
        obtain ⟨i, hi⟩ := e2 (hall hx)
        exact ⟨i, (k1 i).trans hi⟩

end Verif
