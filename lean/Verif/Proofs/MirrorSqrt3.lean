import Verif.Proofs.MirrorRun
/-
Runs of the SquareThree filter on a surface and on its other side.
-/
namespace Verif
set_option linter.unusedSectionVars false
variable {K P D : Type} [Field K] [AddCommGroup P] [Module K P]
variable {lib lib' : QELib} {cosn : Nat → K} {ρ : PId → PId} {m m' out out' : Mesh P D} {f f' g g' : Filt}

theorem sqrt3Update_mirror (R : OtherSide ρ m m') (hv : m.Valid) (hv' : m'.Valid)
    (hsel : m.SelOK f.cells) (hsel' : m'.SelOK g.cells) (S : OtherSelection ρ m f.cells m' g.cells)
    (hmax : m.points.length + (m.selected f.cells).length ≤ idMax)
    (hmax' : m'.points.length + (m'.selected g.cells).length ≤ idMax)
    (h : cellUpdate .sqrt3 lib cosn f m = (.ok out, f')) (h' : cellUpdate .sqrt3 lib' cosn g m' = (.ok out', g')) :
    ∃ ρ', (∀ v, v < m.points.length → ρ' v = ρ v) ∧ OtherSide ρ' out out' ∧
      OtherSelection ρ' out f'.cells out' g'.cells := by
  have A := sqrt3Update_result hv hsel hmax h
  have B := sqrt3Update_result hv' hsel' hmax' h'
  obtain ⟨σ, hσ⟩ : ∃ σ, σ = m.centreOf f.cells := ⟨_, rfl⟩
  obtain ⟨σ', hσ'⟩ : ∃ σ', σ' = m'.centreOf g.cells := ⟨_, rfl⟩
  obtain ⟨ρ', hρ'⟩ : ∃ ρ', ρ' = carryId m.points.length ρ σ (fun e => σ' e.sym) := ⟨_, rfl⟩
  have hpos : ∀ {a b c v}, HasTri m.tris a b c → σ (a, b) = some v → out.pos v = some (m.centroid K (a, b, c)) :=
    fun h1 h2 => centre_pos hv hsel hmax h h1 (hσ ▸ h2)
  have hpos' : ∀ {a b c v}, HasTri m'.tris a b c → σ' (a, b) = some v → out'.pos v = some (m'.centroid K (a, b, c)) :=
    fun h1 h2 => centre_pos hv' hsel' hmax' h' h1 (hσ' ▸ h2)
  have hsome : ∀ e, (σ e).isSome ↔ e ∈ dartsOf (m.selected f.cells) := fun e => by
    rw [hσ]; exact centreIn_isSome
  have hsome' : ∀ e, (σ' e).isSome ↔ e ∈ dartsOf (m'.selected g.cells) := fun e => by
    rw [hσ']; exact centreIn_isSome
  have hnx : ∀ {p q r}, HasTri (out.selected f'.cells) p q r ↔ NewTri σ p q r := by
    rw [hσ]; exact sq3_next_selected hv hsel hmax h
  have hnx' : ∀ {p q r}, HasTri (out'.selected g'.cells) p q r ↔ NewTri σ' p q r := by
    rw [hσ']; exact sq3_next_selected hv' hsel' hmax' h'
  rw [← hσ] at A
  rw [← hσ'] at B
  have hbase : ∀ v, v < m.points.length → ρ' v = ρ v := by
    intro v hlt
    rw [hρ']
    exact if_pos hlt
  have hdart : ∀ {e v}, σ e = some v → e ∈ dartsOf m.tris := fun h => A.centres.only _ _ h
  -- edges of one triangle
  have hsame' : ∀ {e e'}, (∃ t ∈ m.tris, e ∈ t.darts ∧ e' ∈ t.darts) → σ' ((e.sym).rename ρ) = σ' ((e'.sym).rename ρ) := by
    rintro e e' ⟨t, ht, h1, h2⟩
    obtain ⟨a, b, c⟩ := t
    obtain ⟨t', ht', hi⟩ := hasTri_iff.1 (R.tri a b c (Or.inl ht))
    have hd : ∀ {x : Edge}, x ∈ Tri.darts (a, b, c) → (x.sym).rename ρ ∈ t'.darts := by
      intro x hx
      simp only [Tri.darts, List.mem_cons, List.not_mem_nil, or_false] at hx
      rcases hx with rfl | rfl | rfl <;> rcases hi with rfl | rfl | rfl <;> simp [Tri.darts, Edge.rename, Edge.sym]
    exact B.centres.same t' ht' _ (hd h1) _ (hd h2)
  have hcarry : ∀ {e v w}, σ e = some v → σ' ((e.sym).rename ρ) = some w → ρ' v = w := by
    intro e v w h1 h2
    have hx : ∃ e, σ e = some v := ⟨e, h1⟩
    rw [hρ']
    unfold carryId
    rw [if_neg (Nat.not_lt.2 (A.fresh e v h1).1), dif_pos hx]
    obtain ⟨t, ht, he⟩ := mem_dartsOf.1 (hdart h1)
    show (σ' (Edge.sym (Edge.rename ρ hx.choose))).getD 0 = w
    rw [Edge.rename_sym, hsame' ⟨t, ht, A.centres.inj e _ v h1 hx.choose_spec t ht he, he⟩, h2]
    rfl
  have hmap : ∀ e, usedBy m.tris e.1 ∧ usedBy m.tris e.2 → σ' ((e.sym).rename ρ) = (σ e).map ρ' := by
    intro e he
    have : (σ' ((e.sym).rename ρ)).isSome ↔ (σ e).isSome := by rw [hsome, hsome', S.dart R hv hv' he]
    rcases h1 : σ e with _ | v <;> rcases h2 : σ' ((e.sym).rename ρ) with _ | w <;> simp [h1, h2] at this
    · rfl
    · rw [Option.map_some, hcarry h1 h2]
  have hcen : ∀ {e v}, σ e = some v → σ' ((e.sym).rename ρ) = some (ρ' v) := fun h1 => by
    rw [hmap _ (usedBy_dart (hdart h1)), h1]; rfl
  have hnone : ∀ {e v}, σ e = some v → σ e.sym = none → σ' (e.rename ρ) = none := by
    intro e v h1 h2
    have hu := usedBy_dart (hdart h1)
    have := hmap e.sym ⟨hu.2, hu.1⟩
    rw [Edge.sym_sym, h2] at this
    exact this
  have hsome2 : ∀ {e : Edge} {v}, σ e.sym = some v → σ' (e.rename ρ) = some (ρ' v) := by
    intro e v h1
    have := hcen h1
    rwa [Edge.sym_sym] at this
  have hends : ∀ {e v}, σ e = some v → ρ' e.1 = ρ e.1 ∧ ρ' e.2 = ρ e.2 := by
    intro e v h1
    have hu := usedBy_dart (hdart h1)
    exact ⟨hbase _ (Renamed.used_lt hv hu.1), hbase _ (Renamed.used_lt hv hu.2)⟩
  -- the piece at an edge, seen from the other side
  have hpiece : ∀ {e v}, σ e = some v → ∃ e' w, σ' e' = some w ∧ ∀ p q r, (sq3Piece σ v e).Is p q r →
      (sq3Piece σ' w e').Is (ρ' r) (ρ' q) (ρ' p) := by
    intro e v h1
    obtain ⟨b1, b2⟩ := hends h1
    rcases h2 : σ e.sym with _ | v'
    · refine ⟨_, _, hcen h1, ?_⟩
      intro p q r hi
      unfold sq3Piece at hi ⊢
      rw [h2] at hi
      rw [Edge.rename_sym, Edge.sym_sym, hnone h1 h2]
      rcases hi with hi | hi | hi <;> cases hi <;> simp [Tri.Is, Edge.rename, Edge.sym, b1, b2]
    · refine ⟨_, _, hsome2 h2, ?_⟩
      intro p q r hi
      unfold sq3Piece at hi ⊢
      rw [h2] at hi
      rw [Edge.rename_sym, hcen h1]
      rcases hi with hi | hi | hi <;> cases hi <;> simp [Tri.Is, Edge.rename, b2]
  have hnew : ∀ {p q r}, NewTri σ p q r → NewTri σ' (ρ' r) (ρ' q) (ρ' p) := by
    rintro p q r ⟨e, v, h1, hi⟩
    obtain ⟨e', w, k1, k2⟩ := hpiece h1
    exact ⟨e', w, k1, k2 _ _ _ hi⟩
  have hnewOnto : ∀ {p' q' r'}, NewTri σ' p' q' r' → ∃ p q r, NewTri σ p q r ∧ ρ' r = p' ∧ ρ' q = q' ∧ ρ' p = r' := by
    rintro p' q' r' ⟨e', w, h1, hi⟩
    obtain ⟨e, he, rfl⟩ := R.dart' (B.centres.only _ _ h1)
    have hm := hmap e (usedBy_dart he)
    rw [h1] at hm
    obtain ⟨v, hv1, rfl⟩ := Option.map_eq_some_iff.1 hm.symm
    obtain ⟨b1, b2⟩ := hends hv1
    rcases h2 : σ e.sym with _ | v'
    · have hK : ∀ {p q r}, Tri.Is (e.1, e.2, v) p q r → NewTri σ p q r := fun h => ⟨e, v, hv1, by
        unfold sq3Piece; rw [h2]; exact h⟩
      unfold sq3Piece at hi
      rw [Edge.rename_sym, Edge.sym_sym, hnone hv1 h2] at hi
      rcases hi with hi | hi | hi <;> cases hi
      · exact ⟨v, e.1, e.2, hK (by simp [Tri.Is]), b2, b1, rfl⟩
      · exact ⟨e.1, e.2, v, hK (by simp [Tri.Is]), rfl, b2, b1⟩
      · exact ⟨e.2, v, e.1, hK (by simp [Tri.Is]), b1, rfl, b2⟩
    · have hK : ∀ {p q r}, Tri.Is (v', v, e.1) p q r → NewTri σ p q r := fun h => ⟨e.sym, v', h2, by
        unfold sq3Piece; rw [Edge.sym_sym, hv1]; exact h⟩
      unfold sq3Piece at hi
      rw [Edge.rename_sym, Edge.sym_sym, hsome2 h2] at hi
      rcases hi with hi | hi | hi <;> cases hi
      · exact ⟨e.1, v', v, hK (by simp [Tri.Is]), rfl, rfl, b1⟩
      · exact ⟨v', v, e.1, hK (by simp [Tri.Is]), b1, rfl, rfl⟩
      · exact ⟨v, e.1, v', hK (by simp [Tri.Is]), rfl, b1, rfl⟩
  have hlt : ∀ {v}, usedBy m.tris v → v < m.points.length := fun h => Renamed.used_lt hv h
  have hlt' : ∀ {v}, usedBy m.tris v → ρ' v < m'.points.length := fun h => by
    rw [hbase _ (hlt h)]; exact Renamed.used_lt hv' (R.used h)
  -- the corners of the output
  have hverts : ∀ d ∈ out.tris, ∀ v ∈ d.verts, usedBy m.tris v ∨ ∃ e, σ e = some v := by
    intro d hd v hvd
    rcases (mem_sq3 A.centres).1 ((A.mem_tris hv).1 hd) with ⟨h1, -⟩ | ⟨e, w, h1, rfl⟩
    · exact Or.inl ⟨d, h1, hvd⟩
    · have hu := usedBy_dart (hdart h1)
      unfold sq3Piece at hvd
      rcases h2 : σ e.sym with _ | w' <;> rw [h2] at hvd <;>
        simp only [Tri.verts, List.mem_cons, List.not_mem_nil, or_false] at hvd <;> rcases hvd with rfl | rfl | rfl
      · exact Or.inl hu.1
      · exact Or.inl hu.2
      · exact Or.inr ⟨e, h1⟩
      · exact Or.inr ⟨e, h1⟩
      · exact Or.inr ⟨_, h2⟩
      · exact Or.inl hu.2
  have hinj : ∀ t ∈ out.tris, ∀ t' ∈ out.tris, ∀ v ∈ t.verts, ∀ w ∈ t'.verts, ρ' v = ρ' w → v = w := by
    intro d hd d2 hd2 v hvd w hwd heq
    rcases hverts d hd v hvd with h1 | ⟨e, h1⟩ <;> rcases hverts d2 hd2 w hwd with k1 | ⟨e2, k1⟩
    · rw [hbase _ (hlt h1), hbase _ (hlt k1)] at heq
      exact R.injOn _ _ h1 k1 heq
    · exact absurd (heq ▸ hlt' h1) (Nat.not_lt.2 (B.fresh _ _ (hcen k1)).1)
    · exact absurd (heq.symm ▸ hlt' k1) (Nat.not_lt.2 (B.fresh _ _ (hcen h1)).1)
    · have a1 := hcen h1
      have a2 := hcen k1
      rw [← heq] at a2
      obtain ⟨t, ht, he⟩ := mem_dartsOf.1 (hdart h1)
      obtain ⟨a, b, c⟩ := t
      obtain ⟨t', ht', hi⟩ := hasTri_iff.1 (R.tri a b c (Or.inl ht))
      have he' : (e.sym).rename ρ ∈ t'.darts := by
        simp only [Tri.darts, List.mem_cons, List.not_mem_nil, or_false] at he
        rcases he with rfl | rfl | rfl <;> rcases hi with rfl | rfl | rfl <;> simp [Tri.darts, Edge.rename, Edge.sym]
      have hd2 := B.centres.inj _ _ _ a1 a2 t' ht' he'
      have hd3 : (e2.sym).rename ρ ∈ (Tri.darts (a, b, c)).map (fun e => (e.sym).rename ρ) := by
        rcases hi with rfl | rfl | rfl <;>
          simp only [Tri.darts, List.mem_cons, List.not_mem_nil, or_false, List.map_cons, List.map_nil, Edge.rename, Edge.sym] at hd2 ⊢ <;> tauto
      obtain ⟨e3, he3, heq3⟩ := List.mem_map.1 hd3
      have hu3 := usedBy_dart (mem_dartsOf.2 ⟨_, ht, he3⟩)
      have hu2 := usedBy_dart (hdart k1)
      have := (Edge.rename_inj R.injOn (e := e3.sym) (e' := e2.sym) ⟨hu3.2, hu3.1⟩ ⟨hu2.2, hu2.1⟩).1 heq3
      have := congrArg Edge.sym this
      rw [Edge.sym_sym, Edge.sym_sym] at this
      subst this
      have := A.centres.same _ ht _ he _ he3
      rw [h1, k1] at this
      exact Option.some.inj this
  have hT : ∀ {p q r}, HasTri out.tris p q r ↔ (HasTri m.tris p q r ∧ σ (p, q) = none) ∨ NewTri σ p q r := sqrt3_hasTri A hv
  have hT' : ∀ {p q r}, HasTri out'.tris p q r ↔ (HasTri m'.tris p q r ∧ σ' (p, q) = none) ∨ NewTri σ' p q r :=
    sqrt3_hasTri B hv'
  have hturn : ∀ {x y z}, HasTri m.tris x y z → σ (y, z) = σ (x, y) := by
    intro x y z h
    obtain ⟨t, ht, hi⟩ := hasTri_iff.1 h
    exact A.centres.same t ht _ hi.rot.dart _ hi.dart
  have hss : OtherSide ρ' out out' := by
    refine ⟨?_, ?_, hinj, ?_⟩
    · intro x y z h
      rcases hT.1 h with ⟨h1, h2⟩ | h1
      · obtain ⟨ux, uy, uz⟩ := hasTri_used h1
        rw [hbase _ (hlt ux), hbase _ (hlt uy), hbase _ (hlt uz)]
        refine hT'.2 (Or.inl ⟨R.tri _ _ _ h1, ?_⟩)
        have : σ' (Edge.rename ρ (Edge.sym (y, z))) = _ := hmap (y, z) ⟨uy, uz⟩
        rw [hturn h1, h2] at this
        exact this
      · exact hT'.2 (Or.inr (hnew h1))
    · intro x' y' z' h
      rcases hT'.1 h with ⟨h1, h2⟩ | h1
      · obtain ⟨x, y, z, h3, rfl, rfl, rfl⟩ := R.onto _ _ _ h1
        obtain ⟨ux, uy, uz⟩ := hasTri_used h3
        have : σ' (Edge.rename ρ (Edge.sym (y, z))) = _ := hmap (y, z) ⟨uy, uz⟩
        refine ⟨x, y, z, hT.2 (Or.inl ⟨h3, ?_⟩), hbase _ (hlt uz), hbase _ (hlt uy), hbase _ (hlt ux)⟩
        have h2' : σ' (Edge.rename ρ (Edge.sym (y, z))) = none := h2
        rw [h2', hturn h3] at this
        exact Option.map_eq_none_iff.1 this.symm
      · obtain ⟨p, q, r, h2, h3⟩ := hnewOnto h1
        exact ⟨p, q, r, hT.2 (Or.inr h2), h3⟩
    · intro d hd v hvd
      rcases hverts d hd v hvd with h1 | ⟨⟨a, b⟩, h1⟩
      · rw [hbase _ (hlt h1), pos_base B.points (Renamed.used_lt hv' (R.used h1)), pos_base A.points (hlt h1), R.coord h1]
      · obtain ⟨c, hc⟩ := dartsOf_iff_hasTri.1 (hdart h1)
        obtain ⟨ua, ub, uc⟩ := hasTri_used hc
        rw [hpos hc h1, hpos' (R.tri _ _ _ hc).rot (hcen h1)]
        simp only [Mesh.centroid, R.coord ua, R.coord ub, R.coord uc, Option.some.injEq]
        congr 1
        abel
  refine ⟨ρ', hbase, hss, ?_⟩
  intro x y z hxyz
  rw [hnx, hnx']
  refine ⟨fun k => ?_, hnew⟩
  obtain ⟨p, q, r, k1, k2, k3, k4⟩ := hnewOnto k
  obtain ⟨u1, u2, u3⟩ := hasTri_used (hT.2 (Or.inr k1))
  obtain ⟨v1, v2, v3⟩ := hasTri_used hxyz
  obtain rfl := hss.injOn _ _ u3 v3 k2
  obtain rfl := hss.injOn _ _ u2 v2 k3
  obtain rfl := hss.injOn _ _ u1 v1 k4
  exact k1

end Verif
