import Verif.Proofs.PiecesLeft
import Verif.Properties.CondExact
/-
The conditional filter on a mesh and on pieces of it.
-/
namespace Verif
set_option linter.unusedSectionVars false
variable {K P D : Type} [Field K] [LinearOrder K] [AddCommGroup P] [Module K P]
variable {lib lib' : QELib} {cosn : Nat → K} {ρ : PId → PId} {m m' out out' : Mesh P D} {f f' g g' : Filt}
  {area : P → P → P → K} {A : K}

theorem bigTri_turn (hr : ∀ p q r, area q r p = area p q r) {t : Tri} {x y z : PId} (hi : t.Is x y z) :
    m.BigTri area A t ↔ m.BigTri area A (x, y, z) := by
  have turn : ∀ {x y z}, m.BigTri area A (x, y, z) → m.BigTri area A (y, z, x) := by
    rintro x y z ⟨p, q, r, h1, h2, h3, h4⟩
    exact ⟨q, r, p, h2, h3, h1, by rw [hr]; exact h4⟩
  rcases hi with rfl | rfl | rfl
  · rfl
  · exact ⟨fun h => turn (turn h), turn⟩
  · exact ⟨turn, fun h => turn (turn h)⟩

theorem hasTri_selected (hr : ∀ p q r, area q r p = area p q r) (hv : m.Valid) {sel : List CId} (hne : sel ≠ [])
    (hex : ∀ k, k ∈ sel ↔ m.TooLarge area A k) {x y z : PId} :
    HasTri (m.selected sel) x y z ↔ HasTri m.tris x y z ∧ m.BigTri area A (x, y, z) := by
  rw [hasTri_iff, hasTri_iff]
  constructor
  · rintro ⟨t, ht, hi⟩
    obtain ⟨h1, h2⟩ := (selected_big hv hne hex).1 ht
    exact ⟨⟨t, h1, hi⟩, (bigTri_turn hr hi).1 h2⟩
  · rintro ⟨⟨t, ht, hi⟩, hb⟩
    exact ⟨t, (selected_big hv hne hex).2 ⟨ht, (bigTri_turn hr hi).2 hb⟩, hi⟩

theorem list_empty (hv : m.Valid) {sel : List CId} (hex : ∀ k, k ∈ sel ↔ m.TooLarge area A k) :
    sel = [] ↔ ∀ t ∈ m.tris, ¬ m.BigTri area A t := by
  constructor
  · rintro rfl t ht hb
    obtain ⟨k, hk⟩ := hv.mem_tris.1 ht
    exact absurd ((hex k).2 ((tooLarge_tri hv hk).2 hb)) List.not_mem_nil
  · intro h
    refine List.eq_nil_iff_forall_not_mem.2 fun k hk => ?_
    obtain ⟨t, pa, pb, pc, h1, h2⟩ := (hex k).1 hk
    exact h t (hv.mem_tris.2 ⟨k, h1⟩) ⟨pa, pb, pc, h2⟩

theorem PieceOf.big (R : PieceOf ρ m m') {x y z : PId} (h : HasTri m.tris x y z) :
    m'.BigTri area A (ρ x, ρ y, ρ z) ↔ m.BigTri area A (x, y, z) := by
  obtain ⟨⟨t1, h1, k1⟩, ⟨t2, h2, k2⟩, ⟨t3, h3, k3⟩⟩ := hasTri_used h
  unfold Mesh.BigTri
  simp only [R.pos t1 h1 x k1, R.pos t2 h2 y k2, R.pos t3 h3 z k3]

/-- a mesh between two iterations, with the list of what is too large -/
structure AreaRound (sch : Scheme) (area : P → P → P → K) (A : K) (n : Nat) (sel : List CId) (m : Mesh P D) : Prop
    extends AreaInv sch n sel m where
  exact' : ∀ k, k ∈ sel ↔ m.TooLarge area A k

/-- a piece of it -/
structure AreaPiece (sch : Scheme) (area : P → P → P → K) (A : K) (n : Nat) (ρ : PId → PId) (m : Mesh P D) (sel : List CId)
    (m' : Mesh P D) : Prop extends AreaRound sch area A n sel m where
  piece : PieceOf ρ m m'
  closed : sch = .butterfly → m.Closed
  starts : sch = .sqrt3 ∨ SameStarts ρ m m'

theorem areaRound_step {sch : Scheme} (hl : sch = .loop ∨ sch = .butterfly → lib.Lawful) {n : Nat} (s : Filt)
    {sel : List CId} {cur : Mesh P D} (H : AreaRound sch area A (n + 1) sel cur) (hne : sel ≠ []) :
    ∃ m s' sel', cellUpdate sch lib cosn (s.setCells sel) cur = (.ok m, s') ∧ areaCompute area A m sel = (.ok (), sel') ∧
      (sch = .sqrt3 → cur.points.length + (cur.selected sel).length ≤ idMax) ∧ AreaRound sch area A n sel' m := by
  obtain ⟨m, s', sel', h1, h2, h3, h4⟩ := condArea_step (cosn := cosn) hl area A s H.toAreaInv hne
  refine ⟨m, s', sel', h1, h2, h3, { toAreaInv := h4, exact' := ?_ }⟩
  have hm := h4.needs.valid
  obtain ⟨l', k1, -, k2⟩ := C28_area_exact area A hm.cells_sorted hm.allTriangles hm.cornersExist sel
  rw [h2] at k1
  cases k1
  exact k2

/-- an iteration on the whole mesh is one on the piece, or the piece is done -/
theorem round_piece {sch : Scheme} (hs : sch ≠ .loop) (hr : ∀ p q r, area q r p = area p q r)
    (hl : sch = .loop ∨ sch = .butterfly → lib.Lawful) {n : Nat} {sel sel' : List CId}
    (H : AreaPiece sch area A (n + 1) ρ m sel m') (B : AreaRound sch area A (n + 1) sel' m') (hne : sel' ≠ [])
    (h' : cellUpdate sch lib' cosn (g.setCells sel') m' = (.ok out', g'))
    (hmax : sch = .sqrt3 → m'.points.length + (m'.selected sel').length ≤ idMax) (s : Filt) :
    ∃ out l s' ρ', condLoop (condCellUpd sch lib cosn) (areaCompute area A) (n + 1) ⟨s, sel⟩ m =
        condLoop (condCellUpd sch lib cosn) (areaCompute area A) n ⟨s', l⟩ out ∧
      m.points.length ≤ out.points.length ∧ (∀ v, v < m.points.length → ρ' v = ρ v) ∧
      AreaPiece sch area A n ρ' out l out' ∧ ∀ t d, LevelFrom sch m' sel' t d → (InPiece ρ' out d ↔ InPiece ρ m t) := by
  have hv := H.needs.valid
  have hv' := B.needs.valid
  by_cases h0 : sel = []
  · subst h0
    have S : Spares ρ m (m'.selected sel') := by
      intro x y z h k
      have hb := (H.piece.big h).1 ((hasTri_selected hr hv' hne B.exact').1 k).2
      obtain ⟨t, ht, hi⟩ := hasTri_iff.1 h
      exact (list_empty hv H.exact').1 rfl t ht ((bigTri_turn hr hi).2 hb)
    obtain ⟨k1, k2, k3⟩ := level_left hs H.piece B.needs (g := g.setCells sel') B.selOK hmax S h'
    refine ⟨m, [], s, ρ, by rw [condLoop_done rfl, condLoop_done rfl], Nat.le_refl _, fun _ _ => rfl, ?_, k3⟩
    refine { needs := H.needs, selOK := H.selOK, nodup := H.nodup, ids := fun h3 => ?_, exact' := H.exact', piece := k1,
             closed := H.closed, starts := ?_ }
    · refine Nat.le_trans (Nat.add_le_add_left (Nat.mul_le_mul_right _ ?_) _) (H.ids h3)
      exact Nat.pow_le_pow_right (by omega) (by omega)
    · rcases H.starts with h3 | h3
      · exact Or.inl h3
      · refine (em (sch = .sqrt3)).imp id fun h4 t ht => ?_
        have ht' := h3 t ht
        rw [(cellUpdate_result h4 B.needs (f := g.setCells sel') B.selOK h').1.tris]
        refine List.mem_flatMap.2 ⟨_, ht', ?_⟩
        obtain ⟨a, b, c⟩ := t
        rw [children_none _ _ fun e he => ?_]
        · exact List.mem_singleton_self _
        · by_contra hne'
          have hin : InPiece ρ m (Tri.rename ρ (a, b, c)) := ⟨a, b, c, Or.inl ht, rfl⟩
          have huse : ∃ x, usedBy m.tris x ∧ ρ x = e.1 := by
            simp only [Tri.darts, Tri.rename, List.mem_cons, List.not_mem_nil, or_false] at he
            rcases he with rfl | rfl | rfl
            · exact ⟨a, ⟨_, ht, by simp [Tri.verts]⟩, rfl⟩
            · exact ⟨b, ⟨_, ht, by simp [Tri.verts]⟩, rfl⟩
            · exact ⟨c, ⟨_, ht, by simp [Tri.verts]⟩, rfl⟩
          obtain ⟨x, hx, hxe⟩ := huse
          rcases (edgePoint_isSome _ _ _).1 (Option.isSome_iff_ne_none.2 hne') with hd | hd
          · exact S.dart H.piece (hv'.selected_subset _) hx hd (Or.inl hxe)
          · exact S.dart H.piece (hv'.selected_subset _) hx hd (Or.inr hxe)
  · obtain ⟨out, s', l, h1, h2, h3, h4⟩ := areaRound_step (cosn := cosn) hl s H.toAreaRound h0
    have S : SameSelection ρ m sel m' sel' := fun x y z h => by
      rw [hasTri_selected hr hv h0 H.exact', hasTri_selected hr hv' hne B.exact', H.piece.big h]
      exact ⟨fun k => ⟨h, k.2⟩, fun k => ⟨H.piece.tri _ _ _ h, k.2⟩⟩
    obtain ⟨ρ', k1, k2, k3, k4, k5⟩ := level_piece H.piece H.needs B.needs H.closed (fun h => absurd h hs)
      (f := s.setCells sel) (g := g.setCells sel') H.selOK B.selOK S h3 hmax (H.starts.imp_right Or.inr) h1 h'
    refine ⟨out, l, s', ρ', condLoop_step h0 h1 h2, ?_, k1,
      { toAreaRound := h4, piece := k2, closed := ?_, starts := ?_ }, k5⟩
    · exact level_longer H.needs (f := s.setCells sel) H.selOK h3 h1
    · rintro rfl
      exact (C18_boundary_preserved (by decide) H.needs (f := s.setCells sel) H.selOK h1).2.1 (H.closed rfl)
    · rcases k4 with k | k | k
      · exact Or.inl k
      · by_cases h5 : sch = .sqrt3
        · exact Or.inl h5
        · exact absurd k ((C16_selection_after_run h5 H.needs (f := s.setCells sel) H.selOK h1).2 h0).1
      · exact Or.inr k

/-- the conditional filter on a mesh and on pieces of it: it ends for the mesh if it does for all pieces -/
theorem condLoop_pieces {sch : Scheme} (hs : sch ≠ .loop) (hr : ∀ p q r, area q r p = area p q r) {ι : Type} {libs : ι → QELib}
    (hl : ∀ i, sch = .loop ∨ sch = .butterfly → (libs i).Lawful) (hl' : sch = .loop ∨ sch = .butterfly → lib'.Lawful) (n : Nat) :
    ∀ {ρ : ι → PId → PId} {m : ι → Mesh P D} {sel : ι → List CId} {m' : Mesh P D} {sel' : List CId} (s : ι → Filt) (s' : Filt),
      (∀ i, AreaPiece sch area A n (ρ i) (m i) (sel i) m') → AreaRound sch area A n sel' m' →
      (∃ out' c', condLoop (condCellUpd sch lib' cosn) (areaCompute area A) n ⟨s', sel'⟩ m' = some (.ok out', c') ∧
        ∃ (out : ι → Mesh P D) (c : ι → Cond Filt CId) (ρ' : ι → PId → PId),
        (∀ i, condLoop (condCellUpd sch (libs i) cosn) (areaCompute area A) n ⟨s i, sel i⟩ (m i) = some (.ok (out i), c i)) ∧
        (∀ i, ∀ v, v < (m i).points.length → ρ' i v = ρ i v) ∧ (∀ i, PieceOf (ρ' i) (out i) out') ∧
        ((∀ t ∈ m'.tris, ∃ i, InPiece (ρ i) (m i) t) → ∀ t ∈ out'.tris, ∃ i, InPiece (ρ' i) (out i) t) ∧
        ((∀ t ∈ m'.tris, ∀ i j, InPiece (ρ i) (m i) t → InPiece (ρ j) (m j) t → i = j) →
          ∀ t ∈ out'.tris, ∀ i j, InPiece (ρ' i) (out i) t → InPiece (ρ' j) (out j) t → i = j)) ∨
      (condLoop (condCellUpd sch lib' cosn) (areaCompute area A) n ⟨s', sel'⟩ m' = none ∧
        ((∀ t ∈ m'.tris, ∃ i, InPiece (ρ i) (m i) t) →
          ∃ i, condLoop (condCellUpd sch (libs i) cosn) (areaCompute area A) n ⟨s i, sel i⟩ (m i) = none)) := by
  have done : ∀ (n : Nat) {ρ : ι → PId → PId} {m : ι → Mesh P D} {sel : ι → List CId} {m' : Mesh P D},
      (∀ i, AreaPiece sch area A n (ρ i) (m i) (sel i) m') → AreaRound sch area A n [] m' → ∀ i, sel i = [] := by
    intro n ρ m sel m' H B i
    rw [list_empty (H i).needs.valid (H i).exact']
    rintro ⟨a, b, c⟩ ht hb
    have h0 : HasTri (m i).tris a b c := Or.inl ht
    obtain ⟨t', ht', hi⟩ := hasTri_iff.1 ((H i).piece.tri a b c h0)
    exact (list_empty B.needs.valid B.exact').1 rfl t' ht' ((bigTri_turn hr hi).2 (((H i).piece.big h0).2 hb))
  induction n with
  | zero =>
    intro ρ m sel m' sel' s s' H B
    by_cases hne : sel' = []
    · subst hne
      exact Or.inl ⟨m', _, condLoop_done rfl, m, _, ρ, fun i => condLoop_done (done 0 H B i), fun _ _ _ => rfl,
        fun i => (H i).piece, fun h => h, fun h => h⟩
    · refine Or.inr ⟨condLoop_zero hne, fun hall => ?_⟩
      have : ∃ t ∈ m'.tris, m'.BigTri area A t := by
        by_contra hx
        exact hne ((list_empty B.needs.valid B.exact').2 fun t ht hb => hx ⟨t, ht, hb⟩)
      obtain ⟨t, ht, hb⟩ := this
      obtain ⟨i, a, b, c, h0, rfl⟩ := hall t ht
      refine ⟨i, condLoop_zero fun he => ?_⟩
      obtain ⟨t', ht', hi⟩ := hasTri_iff.1 h0
      exact (list_empty (H i).needs.valid (H i).exact').1 he t' ht' ((bigTri_turn hr hi).2 (((H i).piece.big h0).1 hb))
  | succ n ih =>
    intro ρ m sel m' sel' s s' H B
    by_cases hne : sel' = []
    · subst hne
      exact Or.inl ⟨m', _, condLoop_done rfl, m, _, ρ, fun i => condLoop_done (done _ H B i), fun _ _ _ => rfl,
        fun i => (H i).piece, fun h => h, fun h => h⟩
    · obtain ⟨o', g', l', h1, h2, h3, B1⟩ := areaRound_step (cosn := cosn) hl' s' B hne
      have key := fun i => round_piece hs hr (hl i) (H i) B hne h1 h3 (s i)
      choose o l g σ k1 k2 k3 k4 k5 using key
      have hstep : condLoop (condCellUpd sch lib' cosn) (areaCompute area A) (n + 1) ⟨s', sel'⟩ m' =
          condLoop (condCellUpd sch lib' cosn) (areaCompute area A) n ⟨g', l'⟩ o' := condLoop_step hne h1 h2
      have hall : (∀ t ∈ m'.tris, ∃ i, InPiece (ρ i) (m i) t) → ∀ t ∈ o'.tris, ∃ i, InPiece (σ i) (o i) t := by
        intro hx d hd
        obtain ⟨t, ht, hf⟩ := level_from B.needs (f := s'.setCells sel') B.selOK h3 h1 hd
        obtain ⟨i, hi⟩ := hx t ht
        exact ⟨i, (k5 i t d hf).2 hi⟩
      rcases ih g g' k4 B1 with ⟨out', c', e1, out, c, τ, e2, e3, e4, e5, e6⟩ | ⟨e1, e2⟩
      · refine Or.inl ⟨out', c', hstep.trans e1, out, c, τ, fun i => (k1 i).trans (e2 i), fun i v hv => ?_, e4,
          fun hx => e5 (hall hx), fun hx => e6 fun d hd i j hi hj => ?_⟩
        · rw [e3 i v (Nat.lt_of_lt_of_le hv (k2 i)), k3 i v hv]
        · obtain ⟨t, ht, hf⟩ := level_from B.needs (f := s'.setCells sel') B.selOK h3 h1 hd
          exact hx t ht i j ((k5 i t d hf).1 hi) ((k5 j t d hf).1 hj)
      · refine Or.inr ⟨hstep.trans e1, fun hx => ?_⟩
        obtain ⟨i, hi⟩ := e2 (hall hx)
        exact ⟨i, (k1 i).trans hi⟩

end Verif
