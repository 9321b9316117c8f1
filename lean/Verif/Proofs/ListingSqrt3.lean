import Verif.Proofs.ListingRun
/-
Runs of the SquareThree filter on two listings of the same surface.
-/
namespace Verif
set_option linter.unusedSectionVars false
variable {K P D : Type} [Field K] [AddCommGroup P] [Module K P]
variable {lib lib' : QELib} {cosn : Nat → K} {ρ : PId → PId} {m m' out out' : Mesh P D} {f f' g g' : Filt}

/-- the triangles at the new points, up to rotation -/
def NewTri (σ : Edge → Option PId) (p q r : PId) : Prop := ∃ e v, σ e = some v ∧ (sq3Piece σ v e).Is p q r

theorem sqrt3_hasTri {u : Bool} {σ : Edge → Option PId} {pts : List P} (R : Sqrt3Result lib m out f f' u σ pts) (hv : m.Valid)
    {p q r : PId} : HasTri out.tris p q r ↔ (HasTri m.tris p q r ∧ σ (p, q) = none) ∨ NewTri σ p q r := by
  rw [hasTri_iff]
  constructor
  · rintro ⟨d, hd, hi⟩
    rcases mem_sq3 (T := m.tris) (R.centres) |>.1 ((R.mem_tris hv).1 hd) with ⟨h1, h2⟩ | ⟨e, v, h1, rfl⟩
    · refine Or.inl ⟨hasTri_iff.2 ⟨d, h1, hi⟩, ?_⟩
      rw [← h2]
      exact R.centres.same d h1 _ hi.dart _ (by simp [Tri.darts])
    · exact Or.inr ⟨e, v, h1, hi⟩
  · rintro (⟨h1, h2⟩ | ⟨e, v, h1, hi⟩)
    · obtain ⟨d, hd, hi⟩ := hasTri_iff.1 h1
      refine ⟨d, (R.mem_tris hv).2 ((mem_sq3 R.centres).2 (Or.inl ⟨hd, ?_⟩)), hi⟩
      rw [← h2]
      exact R.centres.same d hd _ (by simp [Tri.darts]) _ hi.dart
    · exact ⟨_, (R.mem_tris hv).2 ((mem_sq3 R.centres).2 (Or.inr ⟨e, v, h1, rfl⟩)), hi⟩

theorem sq3_next_selected (hv : m.Valid) (hsel : m.SelOK f.cells)
    (hmax : m.points.length + (m.selected f.cells).length ≤ idMax)
    (h : cellUpdate .sqrt3 lib cosn f m = (.ok out, f')) {p q r : PId} :
    HasTri (out.selected f'.cells) p q r ↔ NewTri (m.centreOf f.cells) p q r := by
  have A := sqrt3Update_result hv hsel hmax h
  have hov := (C13_sqrt3_valid hv hsel hmax h).1
  obtain ⟨c1, c2⟩ := C16_selection_after_run_sqrt3 hv hsel hmax h
  by_cases hne : f.cells = []
  · rw [c1 hne]
    show HasTri out.tris p q r ↔ _
    rw [sqrt3_hasTri A hv]
    refine ⟨?_, Or.inr⟩
    rintro (⟨h1, h2⟩ | h1)
    · obtain ⟨t, ht, hi⟩ := hasTri_iff.1 h1
      have := (centreOf_isSome hv (sel := f.cells) ht hi.dart).2 (by rw [hne]; exact ht)
      rw [h2] at this
      cases this
    · exact h1
  · obtain ⟨u1, -, -, u2⟩ := c2 hne
    rw [hasTri_iff]
    constructor
    · rintro ⟨d, hd, hi⟩
      obtain ⟨k, hk, hd⟩ := (mem_selected u1).1 hd
      obtain ⟨j, hj, t, ht, hm⟩ := (u2 k d (hov.triAt_iff.1 hd)).1 hk
      rcases hm with ⟨-, hm⟩ | ⟨e, he, v, h1, rfl | ⟨v', h2, rfl⟩⟩
      · have h0 : ((t.1, t.2.1) : Edge) ∈ t.darts := by simp [Tri.darts]
        have := (centreOf_isSome hv (sel := f.cells) (hv.mem_tris.2 ⟨j, ht⟩) h0).2
          ((mem_selected hne).2 ⟨j, hj, hv.triAt_iff.2 ht⟩)
        rw [hm _ h0] at this
        cases this
      · exact ⟨e, v, h1, hi⟩
      · exact ⟨e.sym, v', h2, hi⟩
    · rintro ⟨e, v, h1, hi⟩
      have hdo : sq3Piece (m.centreOf f.cells) v e ∈ out.tris :=
        (A.mem_tris hv).2 ((mem_sq3 A.centres).2 (Or.inr ⟨e, v, h1, rfl⟩))
      obtain ⟨k, hk⟩ := hov.mem_tris.1 hdo
      obtain ⟨t, ht, he⟩ := mem_dartsOf.1 (A.centres.only e v h1)
      have hts := (centreOf_isSome hv (sel := f.cells) ht he).1 (by rw [h1]; rfl)
      obtain ⟨j, hj, hjt⟩ := (mem_selected hne).1 hts
      exact ⟨_, (mem_selected u1).2 ⟨k, (u2 k _ hk).2 ⟨j, hj, t, hv.triAt_iff.1 hjt, Or.inr ⟨e, he, v, h1, Or.inl rfl⟩⟩,
        hov.triAt_iff.2 hk⟩, hi⟩

theorem centre_pos (hv : m.Valid) (hsel : m.SelOK f.cells) (hmax : m.points.length + (m.selected f.cells).length ≤ idMax)
    (h : cellUpdate .sqrt3 lib cosn f m = (.ok out, f')) {a b c v : PId} (hT : HasTri m.tris a b c)
    (hc : m.centreOf f.cells (a, b) = some v) : out.pos v = some (m.centroid K (a, b, c)) := by
  have A := sqrt3Update_result hv hsel hmax h
  obtain ⟨i, t, h1, h2, rfl⟩ := centreIn_some (n := m.points.length) (L := m.selected f.cells) hc
  have ht := hv.selected_subset _ t (List.mem_of_getElem? h1)
  obtain ⟨t', ht', hi⟩ := hasTri_iff.1 hT
  obtain rfl := hv.good.eq_of_dart ht' ht hi.dart h2
  unfold Mesh.pos
  rw [A.points, AMap.find?_dense, List.getElem?_append_right (by simp)]
  simp only [List.length_map, List.length_range, Nat.add_sub_cancel_left, List.getElem?_map, h1, Option.map_some,
    Mesh.centroid, zero_add, Option.some.injEq]
  congr 1
  rcases hi with rfl | rfl | rfl <;> abel

/-- a triangle of the output of SquareThree and one of the input from which it comes -/
def Sq3From (m' : Mesh P D) (σ' : Edge → Option PId) (t d : Tri) : Prop :=
  t ∈ m'.tris ∧ (d = t ∧ (∀ e ∈ t.darts, σ' e = none) ∨ ∃ e ∈ t.darts, ∃ w, σ' e = some w ∧ d = sq3Piece σ' w e)

theorem sqrt3_from {u : Bool} {σ : Edge → Option PId} {pts : List P} (R : Sqrt3Result lib m out f f' u σ pts) (hv : m.Valid)
    {d : Tri} (hd : d ∈ out.tris) : ∃ t, Sq3From m σ t d := by
  rcases mem_sq3 (T := m.tris) R.centres |>.1 ((R.mem_tris hv).1 hd) with ⟨h1, h2⟩ | ⟨e, v, h1, rfl⟩
  · refine ⟨d, h1, Or.inl ⟨rfl, fun e he => ?_⟩⟩
    rw [← h2]
    exact R.centres.same d h1 _ he _ (by simp [Tri.darts])
  · obtain ⟨t, ht, he⟩ := mem_dartsOf.1 (R.centres.only _ _ h1)
    exact ⟨t, ht, Or.inr ⟨e, he, v, h1, rfl⟩⟩

theorem sqrt3Update_listing (R : PieceOf ρ m m') (hv : m.Valid) (hv' : m'.Valid)
    (hsel : m.SelOK f.cells) (hsel' : m'.SelOK g.cells) (S : SameSelection ρ m f.cells m' g.cells)
    (hmax : m.points.length + (m.selected f.cells).length ≤ idMax)
    (hmax' : m'.points.length + (m'.selected g.cells).length ≤ idMax)
    (h : cellUpdate .sqrt3 lib cosn f m = (.ok out, f')) (h' : cellUpdate .sqrt3 lib' cosn g m' = (.ok out', g')) :
    ∃ ρ', (∀ v, v < m.points.length → ρ' v = ρ v) ∧ PieceOf ρ' out out' ∧
      SameSelection ρ' out f'.cells out' g'.cells ∧
      ∀ t' d', Sq3From m' (m'.centreOf g.cells) t' d' → (InPiece ρ' out d' ↔ InPiece ρ m t') := by
  have A := sqrt3Update_result hv hsel hmax h
  have B := sqrt3Update_result hv' hsel' hmax' h'
  obtain ⟨σ, hσ⟩ : ∃ σ, σ = m.centreOf f.cells := ⟨_, rfl⟩
  obtain ⟨σ', hσ'⟩ : ∃ σ', σ' = m'.centreOf g.cells := ⟨_, rfl⟩
  obtain ⟨ρ', hρ'⟩ : ∃ ρ', ρ' = carryId m.points.length ρ σ σ' := ⟨_, rfl⟩
  have hpos : ∀ {a b c v}, HasTri m.tris a b c → σ (a, b) = some v → out.pos v = some (m.centroid K (a, b, c)) :=
    fun h1 h2 => centre_pos hv hsel hmax h h1 (hσ ▸ h2)
  have hpos' : ∀ {a b c v}, HasTri m'.tris a b c → σ' (a, b) = some v → out'.pos v = some (m'.centroid K (a, b, c)) :=
    fun h1 h2 => centre_pos hv' hsel' hmax' h' h1 (hσ' ▸ h2)
  have hsome : ∀ e, (σ e).isSome ↔ e ∈ dartsOf (m.selected f.cells) := fun e => by
    rw [hσ]; exact centreIn_isSome
  have hsome' : ∀ e, (σ' e).isSome ↔ e ∈ dartsOf (m'.selected g.cells) := fun e => by
    rw [hσ']; exact centreIn_isSome
  have hnx : ∀ {p q r}, HasTri (out.selected f'.cells) p q r ↔ NewTri σ p q r := by
    rw [hσ]; exact sq3_next_selected hv hsel hmax h
  have hnx' : ∀ {p q r}, HasTri (out'.selected g'.cells) p q r ↔ NewTri σ' p q r := by
    rw [hσ']; exact sq3_next_selected hv' hsel' hmax' h'
  rw [← hσ] at A
  rw [← hσ'] at B
  have hbase : ∀ v, v < m.points.length → ρ' v = ρ v := by
    intro v hlt
    rw [hρ']
    exact if_pos hlt
  have hdart : ∀ {e v}, σ e = some v → e ∈ dartsOf m.tris := fun h => A.centres.only _ _ h
  -- edges of one triangle
  have hsame' : ∀ {e e'}, (∃ t ∈ m.tris, e ∈ t.darts ∧ e' ∈ t.darts) → σ' (e.rename ρ) = σ' (e'.rename ρ) := by
    rintro e e' ⟨t, ht, h1, h2⟩
    obtain ⟨a, b, c⟩ := t
    obtain ⟨t', ht', hi⟩ := hasTri_iff.1 (R.tri a b c (Or.inl ht))
    have hd : ∀ {x : Edge}, x ∈ Tri.darts (a, b, c) → x.rename ρ ∈ t'.darts := by
      intro x hx
      simp only [Tri.darts, List.mem_cons, List.not_mem_nil, or_false] at hx
      rcases hx with rfl | rfl | rfl <;> rcases hi with rfl | rfl | rfl <;> simp [Tri.darts, Edge.rename]
    exact B.centres.same t' ht' _ (hd h1) _ (hd h2)
  have hcarry : ∀ {e v w}, σ e = some v → σ' (e.rename ρ) = some w → ρ' v = w := by
    intro e v w h1 h2
    have hx : ∃ e, σ e = some v := ⟨e, h1⟩
    rw [hρ']
    unfold carryId
    rw [if_neg (Nat.not_lt.2 (A.fresh e v h1).1), dif_pos hx]
    obtain ⟨t, ht, he⟩ := mem_dartsOf.1 (hdart h1)
    rw [hsame' ⟨t, ht, A.centres.inj e _ v h1 hx.choose_spec t ht he, he⟩, h2]
    rfl
  have hmap : ∀ e, usedBy m.tris e.1 ∧ usedBy m.tris e.2 → σ' (e.rename ρ) = (σ e).map ρ' := by
    intro e he
    have : (σ' (e.rename ρ)).isSome ↔ (σ e).isSome := by rw [hsome, hsome', S.dart R hv hv' he]
    rcases h1 : σ e with _ | v <;> rcases h2 : σ' (e.rename ρ) with _ | w <;> simp [h1, h2] at this
    · rfl
    · rw [Option.map_some, hcarry h1 h2]
  have hpiece : ∀ {e v}, σ e = some v → σ' (e.rename ρ) = some (ρ' v) ∧
      sq3Piece σ' (ρ' v) (e.rename ρ) = (sq3Piece σ v e).rename ρ' := by
    intro e v h1
    have hu := usedBy_dart (hdart h1)
    refine ⟨by rw [hmap e hu, h1]; rfl, sq3Piece_rename ⟨?_, ?_⟩ ?_ v⟩
    · exact hbase _ (Renamed.used_lt hv hu.1)
    · exact hbase _ (Renamed.used_lt hv hu.2)
    · rw [Edge.rename_sym]; exact hmap e.sym ⟨hu.2, hu.1⟩
  have hnew : ∀ {p q r}, NewTri σ p q r → NewTri σ' (ρ' p) (ρ' q) (ρ' r) := by
    rintro p q r ⟨e, v, h1, hi⟩
    obtain ⟨k1, k2⟩ := hpiece h1
    exact ⟨e.rename ρ, ρ' v, k1, by rw [k2]; exact hi.rename ρ'⟩
  have hnewBack : ∀ {p' q' r' e' w}, σ' e' = some w → (sq3Piece σ' w e').Is p' q' r' →
      (∃ e ∈ dartsOf m.tris, e.rename ρ = e') → ∃ p q r, NewTri σ p q r ∧ ρ' p = p' ∧ ρ' q = q' ∧ ρ' r = r' := by
    rintro p' q' r' e' w h1 hi ⟨e, he, rfl⟩
    have hm := hmap e (usedBy_dart he)
    rw [h1] at hm
    obtain ⟨v, hv1, rfl⟩ := Option.map_eq_some_iff.1 hm.symm
    rw [(hpiece hv1).2] at hi
    have hK : ∀ {p q r}, (sq3Piece σ v e).Is p q r → NewTri σ p q r := fun h => ⟨e, v, hv1, h⟩
    obtain ⟨⟨x1, x2, x3⟩, hx⟩ : ∃ x, x = sq3Piece σ v e := ⟨_, rfl⟩
    rw [← hx] at hi hK
    simp only [Tri.Is, Tri.rename, Prod.mk.injEq] at hi
    rcases hi with ⟨e1, e2, e3⟩ | ⟨e1, e2, e3⟩ | ⟨e1, e2, e3⟩
    · exact ⟨x1, x2, x3, hK (by simp [Tri.Is]), e1, e2, e3⟩
    · exact ⟨x3, x1, x2, hK (by simp [Tri.Is]), e3, e1, e2⟩
    · exact ⟨x2, x3, x1, hK (by simp [Tri.Is]), e2, e3, e1⟩
  have hlt : ∀ {v}, usedBy m.tris v → v < m.points.length := fun h => Renamed.used_lt hv h
  have hlt' : ∀ {v}, usedBy m.tris v → ρ' v < m'.points.length := fun h => by
    rw [hbase _ (hlt h)]; exact Renamed.used_lt hv' (R.used h)
  -- the corners of the output
  have hverts : ∀ d ∈ out.tris, ∀ v ∈ d.verts, usedBy m.tris v ∨ ∃ e, σ e = some v := by
    intro d hd v hvd
    rcases (mem_sq3 A.centres).1 ((A.mem_tris hv).1 hd) with ⟨h1, -⟩ | ⟨e, w, h1, rfl⟩
    · exact Or.inl ⟨d, h1, hvd⟩
    · have hu := usedBy_dart (hdart h1)
      unfold sq3Piece at hvd
      rcases h2 : σ e.sym with _ | w' <;> rw [h2] at hvd <;>
        simp only [Tri.verts, List.mem_cons, List.not_mem_nil, or_false] at hvd <;> rcases hvd with rfl | rfl | rfl
      · exact Or.inl hu.1
      · exact Or.inl hu.2
      · exact Or.inr ⟨e, h1⟩
      · exact Or.inr ⟨e, h1⟩
      · exact Or.inr ⟨_, h2⟩
      · exact Or.inl hu.2
  have hinj : ∀ t ∈ out.tris, ∀ t' ∈ out.tris, ∀ v ∈ t.verts, ∀ w ∈ t'.verts, ρ' v = ρ' w → v = w := by
    intro d hd d2 hd2 v hvd w hwd heq
    rcases hverts d hd v hvd with h1 | ⟨e, h1⟩ <;> rcases hverts d2 hd2 w hwd with k1 | ⟨e2, k1⟩
    · rw [hbase _ (hlt h1), hbase _ (hlt k1)] at heq
      exact R.injOn _ _ h1 k1 heq
    · exact absurd (heq ▸ hlt' h1) (Nat.not_lt.2 (B.fresh _ _ (hpiece k1).1).1)
    · exact absurd (heq.symm ▸ hlt' k1) (Nat.not_lt.2 (B.fresh _ _ (hpiece h1).1).1)
    · have a1 := (hpiece h1).1
      have a2 := (hpiece k1).1
      rw [← heq] at a2
      obtain ⟨t, ht, he⟩ := mem_dartsOf.1 (hdart h1)
      obtain ⟨a, b, c⟩ := t
      obtain ⟨t', ht', hi⟩ := hasTri_iff.1 (R.tri a b c (Or.inl ht))
      have he' : e.rename ρ ∈ t'.darts := by
        simp only [Tri.darts, List.mem_cons, List.not_mem_nil, or_false] at he
        rcases he with rfl | rfl | rfl <;> rcases hi with rfl | rfl | rfl <;> simp [Tri.darts, Edge.rename]
      have hd2 := B.centres.inj _ _ _ a1 a2 t' ht' he'
      have hd3 : e2.rename ρ ∈ (Tri.darts (a, b, c)).map (Edge.rename ρ) := by
        rcases hi with rfl | rfl | rfl <;>
          simp only [Tri.darts, List.mem_cons, List.not_mem_nil, or_false, List.map_cons, List.map_nil, Edge.rename] at hd2 ⊢ <;> tauto
      obtain ⟨e3, he3, heq3⟩ := List.mem_map.1 hd3
      have hu3 := usedBy_dart (mem_dartsOf.2 ⟨_, ht, he3⟩)
      have := (Edge.rename_inj R.injOn hu3 (usedBy_dart (hdart k1))).1 heq3
      subst this
      have := A.centres.same _ ht _ he _ he3
      rw [h1, k1] at this
      exact Option.some.inj this
  have hT : ∀ {p q r}, HasTri out.tris p q r ↔ (HasTri m.tris p q r ∧ σ (p, q) = none) ∨ NewTri σ p q r := sqrt3_hasTri A hv
  have hT' : ∀ {p q r}, HasTri out'.tris p q r ↔ (HasTri m'.tris p q r ∧ σ' (p, q) = none) ∨ NewTri σ' p q r :=
    sqrt3_hasTri B hv'
  -- a triangle at a new point that has a corner in the piece comes from the piece
  have hnewFrom : ∀ {v e' w}, usedBy out.tris v → σ' e' = some w → ρ' v ∈ (sq3Piece σ' w e').verts →
      ∃ e ∈ dartsOf m.tris, e.rename ρ = e' := by
    rintro v e' w ⟨d0, hd0, hvd⟩ h1 hmem
    have hd1 : e' ∈ dartsOf m'.tris := B.centres.only _ _ h1
    have hold' : ∀ {x}, usedBy m.tris x → ρ x = e'.1 ∨ ρ x = e'.2 → ∃ e ∈ dartsOf m.tris, e.rename ρ = e' := by
      rintro x hx (h | h)
      · obtain ⟨y, k1, k2⟩ := R.dart' hx h hd1
        exact ⟨_, k1, k2⟩
      · obtain ⟨y, k1, k2⟩ := R.dart2' hx h hd1
        exact ⟨_, k1, k2⟩
    have hend : e'.1 < m'.points.length ∧ e'.2 < m'.points.length :=
      ⟨Renamed.used_lt hv' (usedBy_dart hd1).1, Renamed.used_lt hv' (usedBy_dart hd1).2⟩
    have hsamecentre : ∀ {e x : Edge} {u}, σ e = some v → σ' (e.rename ρ) = some u → σ' x = some u → ∃ y, usedBy m.tris y ∧ ρ y = x.1 := by
      intro e x u k1 k2 k3
      obtain ⟨a, b⟩ := e
      obtain ⟨c, hc⟩ := dartsOf_iff_hasTri.1 (hdart k1)
      obtain ⟨ua, ub, uc⟩ := hasTri_used hc
      obtain ⟨t', ht', hi⟩ := hasTri_iff.1 (R.tri _ _ _ hc)
      have hx := B.centres.inj _ _ _ k2 k3 t' ht' hi.dart
      have : x.1 = ρ a ∨ x.1 = ρ b ∨ x.1 = ρ c := by
        rcases hi with rfl | rfl | rfl <;>
          simp only [Tri.darts, List.mem_cons, List.not_mem_nil, or_false] at hx <;> rcases hx with rfl | rfl | rfl <;> simp
      rcases this with h | h | h
      · exact ⟨a, ua, h.symm⟩
      · exact ⟨b, ub, h.symm⟩
      · exact ⟨c, uc, h.symm⟩
    · have hcase : ρ' v = e'.1 ∨ ρ' v = e'.2 ∨ ρ' v = w ∨ ∃ w', σ' e'.sym = some w' ∧ ρ' v = w' := by
        unfold sq3Piece at hmem
        rcases h2 : σ' e'.sym with _ | w' <;> rw [h2] at hmem <;>
          simp only [Tri.verts, List.mem_cons, List.not_mem_nil, or_false] at hmem <;> rcases hmem with h | h | h <;> simp [h]
      rcases hverts d0 hd0 v hvd with k1 | ⟨e, k1⟩
      · have hb := hbase _ (hlt k1)
        rcases hcase with h | h | h | ⟨w', h2, h⟩
        · exact hold' k1 (Or.inl (hb.symm.trans h))
        · exact hold' k1 (Or.inr (hb.symm.trans h))
        · exact absurd (h ▸ hlt' k1) (Nat.not_lt.2 (B.fresh _ _ h1).1)
        · exact absurd (h ▸ hlt' k1) (Nat.not_lt.2 (B.fresh _ _ h2).1)
      · have k2 := (hpiece k1).1
        have hge := (B.fresh _ _ k2).1
        rcases hcase with h | h | h | ⟨w', h2, h⟩
        · exact absurd (h ▸ hend.1) (Nat.not_lt.2 hge)
        · exact absurd (h ▸ hend.2) (Nat.not_lt.2 hge)
        · obtain ⟨y, hy, hr⟩ := hsamecentre k1 k2 (h ▸ h1)
          exact hold' hy (Or.inl hr)
        · obtain ⟨y, hy, hr⟩ := hsamecentre k1 k2 (h ▸ h2)
          exact hold' hy (Or.inr hr)
  have hnewStar : ∀ {v q' r'}, usedBy out.tris v → NewTri σ' (ρ' v) q' r' →
      ∃ q r, NewTri σ v q r ∧ ρ' q = q' ∧ ρ' r = r' := by
    rintro v q' r' hu ⟨e', w, h1, hi⟩
    obtain ⟨p, q, r, k1, k2, k3, k4⟩ := hnewBack h1 hi (hnewFrom hu h1 (Tri.mem_verts.2 ⟨_, _, hi⟩))
    obtain ⟨d0, hd0, hvd⟩ := hu
    obtain ⟨t1, ht1, hp1⟩ := (hasTri_used (hT.2 (Or.inr k1))).1
    obtain rfl := hinj _ ht1 _ hd0 _ hp1 _ hvd k2
    exact ⟨q, r, k1, k3, k4⟩
  have htri : ∀ x y z, HasTri out.tris x y z → HasTri out'.tris (ρ' x) (ρ' y) (ρ' z) := by
    · intro x y z h
      rcases hT.1 h with ⟨h1, h2⟩ | h1
      · obtain ⟨ux, uy, uz⟩ := hasTri_used h1
        rw [hbase _ (hlt ux), hbase _ (hlt uy), hbase _ (hlt uz)]
        refine hT'.2 (Or.inl ⟨R.tri _ _ _ h1, ?_⟩)
        have : σ' (Edge.rename ρ (x, y)) = _ := hmap (x, y) ⟨ux, uy⟩
        rw [h2] at this
        exact this
      · exact hT'.2 (Or.inr (hnew h1))
  have hposs : ∀ t ∈ out.tris, ∀ v ∈ t.verts, out'.pos (ρ' v) = out.pos v := by
    · intro d hd v hvd
      rcases hverts d hd v hvd with h1 | ⟨⟨a, b⟩, h1⟩
      · rw [hbase _ (hlt h1), pos_base B.points (Renamed.used_lt hv' (R.used h1)), pos_base A.points (hlt h1), R.coord h1]
      · obtain ⟨c, hc⟩ := dartsOf_iff_hasTri.1 (hdart h1)
        obtain ⟨ua, ub, uc⟩ := hasTri_used hc
        rw [hpos hc h1, hpos' (R.tri _ _ _ hc) (hpiece h1).1]
        simp only [Mesh.centroid, R.coord ua, R.coord ub, R.coord uc]
  have hkeep : ∀ {x y z}, HasTri m.tris x y z → σ' (ρ x, ρ y) = none →
      HasTri out.tris x y z ∧ ρ' x = ρ x ∧ ρ' y = ρ y ∧ ρ' z = ρ z := by
    intro x y z h3 h2
    obtain ⟨ux, uy, uz⟩ := hasTri_used h3
    have : σ' (Edge.rename ρ (x, y)) = _ := hmap (x, y) ⟨ux, uy⟩
    refine ⟨hT.2 (Or.inl ⟨h3, ?_⟩), hbase _ (hlt ux), hbase _ (hlt uy), hbase _ (hlt uz)⟩
    have h2' : σ' (Edge.rename ρ (x, y)) = none := h2
    rw [h2'] at this
    exact Option.map_eq_none_iff.1 this.symm
  have hss : PieceOf ρ' out out' := by
    refine ⟨htri, ?_, hinj, hposs⟩
    intro x y z y' z' h h'
    have hux := (hasTri_used h).1
    rcases hT'.1 h' with ⟨h1, h2⟩ | h1
    · have hxm : usedBy m.tris x := by
        obtain ⟨d, hd, hxd⟩ := hux
        rcases hverts d hd x hxd with k | ⟨e, k⟩
        · exact k
        · exact absurd (Renamed.used_lt hv' (hasTri_used h1).1) (Nat.not_lt.2 (B.fresh _ _ (hpiece k).1).1)
      rw [hbase _ (hlt hxm)] at h1 h2
      obtain ⟨u, w, h3, rfl, rfl⟩ := R.star' hxm h1
      obtain ⟨k1, -, k2, k3⟩ := hkeep h3 h2
      exact ⟨u, w, k1, k2, k3⟩
    · obtain ⟨q, r, k1, k2⟩ := hnewStar hux h1
      exact ⟨q, r, hT.2 (Or.inr k1), k2⟩
  refine ⟨ρ', hbase, hss, ?_, ?_⟩
  · intro x y z hxyz
    rw [hnx, hnx']
    refine ⟨fun k => ?_, hnew⟩
    obtain ⟨v1, v2, v3⟩ := hasTri_used hxyz
    obtain ⟨q, r, k1, k3, k4⟩ := hnewStar v1 k
    obtain ⟨-, u2, u3⟩ := hasTri_used (hT.2 (Or.inr k1))
    obtain rfl := hss.injOn _ _ u2 v2 k3
    obtain rfl := hss.injOn _ _ u3 v3 k4
    exact k1
  · rw [← hσ']
    rintro t' d' ⟨ht', hfrom⟩
    have hinPiece : ∀ {x}, usedBy m.tris x → ρ x ∈ t'.verts → InPiece ρ m t' := by
      intro x hx hxt
      obtain ⟨y', z', hi⟩ := Tri.mem_verts.1 hxt
      obtain ⟨y, z, h1, rfl, rfl⟩ := R.star' hx (hasTri_iff.2 ⟨t', ht', hi⟩)
      rcases hi with rfl | rfl | rfl
      · exact ⟨_, _, _, h1, rfl⟩
      · exact ⟨_, _, _, h1.rot, rfl⟩
      · exact ⟨_, _, _, h1.rot.rot, rfl⟩
    rcases hfrom with ⟨rfl, hno⟩ | ⟨e', he', w, h1, rfl⟩
    · constructor
      · rintro ⟨a, b, c, h, rfl⟩
        have hx : usedBy m.tris a := by
          obtain ⟨d, hd, hxd⟩ := (hasTri_used h).1
          rcases hverts d hd a hxd with k | ⟨e, k⟩
          · exact k
          · exact absurd (hv'.verts_lt ht' (by simp [Tri.verts])) (Nat.not_lt.2 (B.fresh _ _ (hpiece k).1).1)
        exact hinPiece hx (by rw [← hbase _ (hlt hx)]; simp [Tri.verts])
      · rintro ⟨a, b, c, h, rfl⟩
        obtain ⟨k1, k2, k3, k4⟩ := hkeep h (hno _ (by simp [Tri.darts]))
        exact ⟨a, b, c, k1, by rw [k2, k3, k4]⟩
    · constructor
      · rintro ⟨a, b, c, h, heq⟩
        obtain ⟨e, he, rfl⟩ := hnewFrom (hasTri_used h).1 h1 (by rw [heq]; simp [Tri.verts])
        refine hinPiece (usedBy_dart he).1 ?_
        simp only [Tri.darts, List.mem_cons, List.not_mem_nil, or_false] at he'
        rcases he' with h | h | h <;> rw [show ρ e.1 = (Edge.rename ρ e).1 from rfl, h] <;> simp [Tri.verts]
      · rintro ⟨a, b, c, h, rfl⟩
        have : ∃ e ∈ dartsOf m.tris, e.rename ρ = e' := by
          simp only [Tri.darts, List.mem_cons, List.not_mem_nil, or_false] at he'
          rcases he' with rfl | rfl | rfl
          · exact ⟨_, h.dart, rfl⟩
          · exact ⟨_, h.rot.dart, rfl⟩
          · exact ⟨_, h.rot.rot.dart, rfl⟩
        obtain ⟨⟨x1, x2, x3⟩, hx⟩ : ∃ x, x = sq3Piece σ' w e' := ⟨_, rfl⟩
        obtain ⟨p, q, r, k1, k2, k3, k4⟩ := hnewBack (p' := x1) (q' := x2) (r' := x3) h1 (Or.inl hx.symm) this
        exact ⟨p, q, r, hT.2 (Or.inr k1), by rw [k2, k3, k4]; exact hx.symm⟩

end Verif
