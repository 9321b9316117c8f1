import Verif.Proofs.Pieces
/-
Runs of the filters on a mesh with a piece in which nothing is selected.
-/
namespace Verif
set_option linter.unusedSectionVars false
variable {K P D : Type} [Field K] [AddCommGroup P] [Module K P]
variable {lib : QELib} {cosn : Nat → K} {ρ : PId → PId} {m m' out' : Mesh P D} {g g' : Filt}

theorem PieceOf.inPiece (R : PieceOf ρ m m') {x : PId} (hx : usedBy m.tris x) {t : Tri} (ht : t ∈ m'.tris) (hxt : ρ x ∈ t.verts) :
    InPiece ρ m t := by
  obtain ⟨y', z', hi⟩ := Tri.mem_verts.1 hxt
  obtain ⟨y, z, h1, rfl, rfl⟩ := R.star' hx (hasTri_iff.2 ⟨t, ht, hi⟩)
  rcases hi with rfl | rfl | rfl
  · exact ⟨_, _, _, h1, rfl⟩
  · exact ⟨_, _, _, h1.rot, rfl⟩
  · exact ⟨_, _, _, h1.rot.rot, rfl⟩

theorem Spares.dart {T : List Tri} (R : PieceOf ρ m m') (hT : ∀ t ∈ T, t ∈ m'.tris) (S : Spares ρ m T) {x : PId}
    (hx : usedBy m.tris x) {e : Edge} (he : e ∈ dartsOf T) (hxe : ρ x = e.1 ∨ ρ x = e.2) : False := by
  obtain ⟨t, ht, hd⟩ := mem_dartsOf.1 he
  have : ρ x ∈ t.verts := by
    simp only [Tri.darts, List.mem_cons, List.not_mem_nil, or_false] at hd
    rcases hd with rfl | rfl | rfl <;> rcases hxe with h | h <;> rw [h] <;> simp [Tri.verts]
  obtain ⟨a, b, c, h, rfl⟩ := R.inPiece hx (hT t ht) this
  exact S a b c h (Or.inl ht)

/-- a face split in which no edge of the piece is split -/
theorem split_left {u : Bool} {μ : Edge → Option PId} {pts : List P} (R : PieceOf ρ m m') (hv : m'.Valid)
    (B : FaceSplitResult lib m' out' g g' u μ pts)
    (hno : ∀ x, usedBy m.tris x → ∀ e, ρ x = e.1 → μ e = none) (hpos : ∀ v, usedBy m.tris v → out'.pos (ρ v) = m'.pos (ρ v)) :
    PieceOf ρ m out' ∧ (∀ t ∈ m'.tris, InPiece ρ m t → t.children μ = [t]) ∧
      ∀ t ∈ m'.tris, ∀ d ∈ t.children μ, (InPiece ρ m d ↔ InPiece ρ m t) := by
  have hkids : ∀ t ∈ m'.tris, InPiece ρ m t → t.children μ = [t] := by
    rintro t ht ⟨a, b, c, h, rfl⟩
    obtain ⟨ua, ub, uc⟩ := hasTri_used h
    refine children_none _ _ fun e he => ?_
    simp only [Tri.darts, List.mem_cons, List.not_mem_nil, or_false] at he
    rcases he with rfl | rfl | rfl
    · exact hno a ua _ rfl
    · exact hno b ub _ rfl
    · exact hno c uc _ rfl
  have hfrom : ∀ {x t d}, usedBy m.tris x → t ∈ m'.tris → d ∈ t.children μ → ρ x ∈ d.verts → ρ x ∈ t.verts := by
    intro x t d hx ht hd hxd
    rcases children_verts (a := t.1) (b := t.2.1) (c := t.2.2) d hd _ hxd with h | ⟨e, -, h⟩
    · exact h
    · exact absurd (Renamed.used_lt hv (R.used hx)) (Nat.not_lt.2 (B.fresh _ _ h).1)
  refine ⟨⟨?_, ?_, R.inj, ?_⟩, hkids, ?_⟩
  · intro x y z h
    obtain ⟨t, ht, hi⟩ := hasTri_iff.1 (R.tri x y z h)
    refine hasTri_iff.2 ⟨t, ?_, hi⟩
    rw [B.tris]
    exact List.mem_flatMap.2 ⟨t, ht, by
      rw [hkids t ht (R.inPiece (hasTri_used h).1 ht (Tri.mem_verts.2 ⟨_, _, hi⟩))]; simp⟩
  · intro x y z y' z' h h'
    obtain ⟨d, hd, hi⟩ := hasTri_iff.1 h'
    rw [B.tris] at hd
    obtain ⟨t, ht, hd⟩ := List.mem_flatMap.1 hd
    have hx := (hasTri_used h).1
    have hxt := hfrom hx ht hd (Tri.mem_verts.2 ⟨_, _, hi⟩)
    rw [hkids t ht (R.inPiece hx ht hxt)] at hd
    obtain rfl := List.mem_singleton.1 hd
    exact R.star' hx (hasTri_iff.2 ⟨d, ht, hi⟩)
  · intro t ht v hvt
    rw [hpos v ⟨t, ht, hvt⟩]
    exact R.pos t ht v hvt
  · intro t ht d hd
    constructor
    · rintro ⟨a, b, c, h, rfl⟩
      exact R.inPiece (hasTri_used h).1 ht (hfrom (hasTri_used h).1 ht hd (by simp [Tri.verts]))
    · intro h
      rw [hkids t ht h] at hd
      obtain rfl := List.mem_singleton.1 hd
      exact h

/-- a run in which no triangle of the piece is selected leaves the piece as it is, and the next selection has none of its
triangles either -/
theorem level_left {sch : Scheme} (hs : sch ≠ .loop) (R : PieceOf ρ m m') (hn : sch.Needs m') (hsel : m'.SelOK g.cells)
    (hmax : sch = .sqrt3 → m'.points.length + (m'.selected g.cells).length ≤ idMax) (S : Spares ρ m (m'.selected g.cells))
    (h : cellUpdate sch lib cosn g m' = (.ok out', g')) :
    PieceOf ρ m out' ∧ Spares ρ m (out'.selected g'.cells) ∧
      ∀ t d, LevelFrom sch m' g.cells t d → (InPiece ρ m d ↔ InPiece ρ m t) := by
  have hv := hn.valid
  have hsub := hv.selected_subset g.cells
  have hpos : ∀ v, usedBy m.tris v → out'.pos (ρ v) = m'.pos (ρ v) := by
    intro v hu
    rw [hv.pos_eq (Renamed.used_lt hv (R.used hu))]
    exact C06_original_points_kept hs hv.points_dense h _ _ (hv.pos_eq (Renamed.used_lt hv (R.used hu)))
  by_cases h3 : sch = .sqrt3
  · subst h3
    have B := sqrt3Update_result hv hsel (hmax rfl) h
    have hnone : ∀ x, usedBy m.tris x → ∀ e, ρ x = e.1 ∨ ρ x = e.2 → m'.centreOf g.cells e = none := by
      intro x hx e he
      by_contra hne
      exact S.dart R hsub hx (centreIn_isSome.1 (Option.isSome_iff_ne_none.2 hne)) he
    have hnew : ∀ x, usedBy m.tris x → ∀ q r, ¬ NewTri (m'.centreOf g.cells) (ρ x) q r := by
      rintro x hx q r ⟨e, w, h1, hi⟩
      have hmem : ρ x ∈ (sq3Piece (m'.centreOf g.cells) w e).verts := Tri.mem_verts.2 ⟨_, _, hi⟩
      have hlt := Renamed.used_lt hv (R.used hx)
      have hend : ¬ (ρ x = e.1 ∨ ρ x = e.2) := fun he => by
        rw [hnone x hx e he] at h1; cases h1
      unfold sq3Piece at hmem
      rcases h2 : m'.centreOf g.cells e.sym with _ | w' <;> rw [h2] at hmem <;>
        simp only [Tri.verts, List.mem_cons, List.not_mem_nil, or_false] at hmem <;> rcases hmem with h | h | h
      · exact hend (Or.inl h)
      · exact hend (Or.inr h)
      · exact absurd (h ▸ hlt) (Nat.not_lt.2 (B.fresh _ _ h1).1)
      · exact absurd (h ▸ hlt) (Nat.not_lt.2 (B.fresh _ _ h1).1)
      · exact absurd (h ▸ hlt) (Nat.not_lt.2 (B.fresh _ _ h2).1)
      · exact hend (Or.inr h)
    refine ⟨⟨?_, ?_, R.inj, ?_⟩, ?_, ?_⟩
    · intro x y z h
      exact (sqrt3_hasTri B hv).2 (Or.inl ⟨R.tri x y z h, hnone x (hasTri_used h).1 _ (Or.inl rfl)⟩)
    · intro x y z y' z' h h'
      rcases (sqrt3_hasTri B hv).1 h' with ⟨k, -⟩ | k
      · exact R.star _ _ _ _ _ h k
      · exact absurd k (hnew x (hasTri_used h).1 _ _)
    · intro t ht v hvt
      rw [hpos v ⟨t, ht, hvt⟩]
      exact R.pos t ht v hvt
    · intro x y z h0 k
      exact hnew x (hasTri_used h0).1 _ _ ((sq3_next_selected hv hsel (hmax rfl) h).1 k)
    · intro t d hf
      rcases (hf.1 rfl).2 with ⟨rfl, -⟩ | ⟨e, he, w, h1, rfl⟩
      · rfl
      · constructor
        · rintro ⟨a, b, c, h0, hx⟩
          exact absurd ⟨e, w, h1, Or.inl hx⟩ (hnew a (hasTri_used h0).1 _ _)
        · rintro ⟨a, b, c, h0, rfl⟩
          obtain ⟨ua, ub, uc⟩ := hasTri_used h0
          have : m'.centreOf g.cells e = none := by
            simp only [Tri.darts, List.mem_cons, List.not_mem_nil, or_false] at he
            rcases he with rfl | rfl | rfl
            · exact hnone a ua _ (Or.inl rfl)
            · exact hnone b ub _ (Or.inl rfl)
            · exact hnone c uc _ (Or.inl rfl)
          rw [this] at h1
          cases h1
  · have B := (cellUpdate_result h3 hn hsel h).1
    obtain ⟨k1, k2, k3⟩ := split_left R hv B (fun x hx e he => by
      by_contra hne
      rcases (edgePoint_isSome _ _ _).1 (Option.isSome_iff_ne_none.2 hne) with hd | hd
      · exact S.dart R hsub hx hd (Or.inl he)
      · exact S.dart R hsub hx hd (Or.inr he)) hpos
    refine ⟨k1, ?_, fun t d hf => k3 t (hf.2 h3).1 d (hf.2 h3).2⟩
    intro x y z h0 k
    obtain ⟨t, ht, h4, d, hd, hi⟩ := (next_selected h3 hn hsel h).1 k
    have hx := (hasTri_used h0).1
    have hxt : ρ x ∈ t.verts := by
      rcases children_verts (a := t.1) (b := t.2.1) (c := t.2.2) d hd _ (Tri.mem_verts.2 ⟨_, _, hi⟩) with h | ⟨e, -, h⟩
      · exact h
      · exact absurd (Renamed.used_lt hv (R.used hx)) (Nat.not_lt.2 (B.fresh _ _ h).1)
    rw [k2 t ht (R.inPiece hx ht hxt)] at h4
    cases h4

theorem manyLevels_left {sch : Scheme} (hs : sch ≠ .loop) (hlib : sch = .loop ∨ sch = .butterfly → lib.Lawful) (L : Nat) :
    ∀ {m' : Mesh P D} {sel : List CId}, Ready sch L m' sel → PieceOf ρ m m' → Spares ρ m (m'.selected sel) →
      ∃ out' s, manyLevels sch lib cosn L (m', sel) = .ok (out', s) ∧ PieceOf ρ m out' := by
  induction L with
  | zero => exact fun _ R _ => ⟨_, _, rfl, R⟩
  | succ L ih =>
    intro m' sel A R S
    obtain ⟨o1, _, f1, h1, A1, c1, rfl⟩ := oneLevel_run hlib cosn A
    obtain ⟨k1, k2, -⟩ := level_left hs R A.needs (g := Filt.new.setCells sel) A.listed (fun h => IdsLeft.now A.ids h) S c1
    obtain ⟨out', s, e1, e2⟩ := ih A1 k1 k2
    exact ⟨out', s, by unfold manyLevels; rw [h1]; exact e1, e2⟩

/-- an edge filter whose list has no edge of the piece -/
theorem edge_left {sch : EdgeScheme} (R : PieceOf ρ m m') (hv : m.Valid) (hn : sch.toScheme.Needs m')
    (hsel : m'.EdgeSelOK g.edgeSel) (S : SparesEdges ρ m (m'.selectedEdges g.edgeSel))
    (h : edgeUpdate sch lib cosn g m' = (.ok out', g')) :
    PieceOf ρ m out' ∧ ∀ t ∈ m'.tris, ∀ d ∈ t.children (m'.listPoint g.edgeSel), (InPiece ρ m d ↔ InPiece ρ m t) := by
  have hv' := hn.valid
  refine (fun k => ⟨k.1, k.2.2⟩) (split_left R hv' (edgeUpdate_result hn hsel h) (fun x hx e he => ?_) fun v hu => ?_)
  · by_contra hne
    have key : ∀ {e}, e ∈ m'.selectedEdges g.edgeSel → ¬ (ρ x = e.1 ∨ ρ x = e.2) := by
      rintro ⟨a, b⟩ hin hor
      have hE := selectedEdges_isEdge hsel hin
      obtain ⟨y, hy⟩ : ∃ y, m.IsEdge y ∧ (y.rename ρ = (a, b)) := by
        rcases hor with rfl | rfl
        · obtain ⟨y, k1, k2⟩ := R.isEdge' hv' hv hx rfl hE
          exact ⟨_, k1, k2⟩
        · obtain ⟨y, k1, k2⟩ := R.isEdge' hv' hv hx rfl hE.sym
          exact ⟨_, k1.sym, by rw [← Edge.rename_sym, k2]; rfl⟩
      exact S y hy.1 (hy.2 ▸ hin)
    rcases (lastLabel_isSome _ _ _).1 (Option.isSome_iff_ne_none.2 hne) with hd | hd
    · exact key hd (Or.inl he)
    · exact key hd (Or.inr he)
  · rw [hv'.pos_eq (Renamed.used_lt hv' (R.used hu))]
    exact C06_original_points_kept_edge hv'.points_dense h _ _ (hv'.pos_eq (Renamed.used_lt hv' (R.used hu)))

end Verif
