import Verif.Proofs.RoundedLength
import Verif.Properties.Topology
/-
Lengths of edges when the Loop edge filter splits the long edges of a mesh, in machine arithmetic.
-/
namespace Verif
set_option linter.unusedSectionVars false

section vectors
variable {V : Type} [NormedAddCommGroup V] [InnerProductSpace ℝ V] {L S κ : ℝ} {x y z p q : V}

/-- the value `p` of a computed new point -/
def NearAt (κ S : ℝ) (x y z p : V) : Prop := ∃ p', NewAt S x y z p' ∧ ‖p - p'‖ ≤ κ

theorem NearAt.symm (h : NearAt κ S x y z p) : NearAt κ S y x z p := by
  obtain ⟨p', h1, h2⟩ := h
  exact ⟨p', h1.symm, h2⟩

theorem NearAt.half (h : NearAt κ S x y z p) (hxy : dist x y ≤ S) (hz : dist z x ≤ S) : dist p x ≤ 9 / 10 * S + κ := by
  obtain ⟨p', h1, h2⟩ := h
  have h3 := h1.half hxy hz
  have h4 := dist_triangle p p' x
  rw [dist_eq_norm p p'] at h4
  linarith

theorem NearAt.between (h : NearAt κ S x y z p) (h' : NearAt κ S y z x q) (hxy : dist x y ≤ S) (hzx : dist z x ≤ S) :
    dist p q ≤ 9 / 10 * S + 2 * κ := by
  obtain ⟨p', h1, h2⟩ := h
  obtain ⟨q', h3, h4⟩ := h'
  have h5 := h1.between h3 hxy hzx
  have h6 := dist_triangle4 p p' q' q
  rw [dist_eq_norm p p', dist_comm q' q, dist_eq_norm q q'] at h6
  linarith

/-- the line to the opposite corner in a triangle with a short side -/
theorem NearAt.across (h : NearAt κ S x y z p) (hL : 0 ≤ L) (hκ : κ ≤ L / 50) (hS : 98 / 95 * L ≤ S)
    (hxy : 49 / 50 * L ≤ dist x y) (hxz : dist x z ≤ S) (hyz : dist y z ≤ S)
    (hs : dist x z ≤ 51 / 50 * L ∨ dist y z ≤ 51 / 50 * L) : dist p z ≤ 19 / 20 * S := by
  obtain ⟨p', h, hp⟩ := h
  have h1 := parallelogram_law_with_norm ℝ (x - z) (y - z)
  rw [sub_sub_sub_cancel_right] at h1
  rw [dist_eq_norm] at hxy hxz hyz
  rw [dist_eq_norm, dist_eq_norm] at hs
  have hS0 : 0 ≤ S := le_trans (by positivity) hS
  have k1 : (49 / 50 * L) ^ 2 ≤ ‖x - y‖ ^ 2 := pow_le_pow_left₀ (by positivity) hxy 2
  have k2 : ‖x - z‖ ^ 2 ≤ S ^ 2 := pow_le_pow_left₀ (norm_nonneg _) hxz 2
  have k3 : ‖y - z‖ ^ 2 ≤ S ^ 2 := pow_le_pow_left₀ (norm_nonneg _) hyz 2
  have k4 : (98 / 95 * L) ^ 2 ≤ S ^ 2 := pow_le_pow_left₀ (by positivity) hS 2
  have hm : ‖(x - z) + (y - z)‖ ^ 2 ≤ (7 / 4 * S) ^ 2 := by
    rcases hs with hs | hs
    · have k5 : ‖x - z‖ ^ 2 ≤ (51 / 50 * L) ^ 2 := pow_le_pow_left₀ (norm_nonneg _) hs 2
      nlinarith
    · have k5 : ‖y - z‖ ^ 2 ≤ (51 / 50 * L) ^ 2 := pow_le_pow_left₀ (norm_nonneg _) hs 2
      nlinarith
  have hm' : ‖(x - z) + (y - z)‖ ≤ 7 / 4 * S := (sq_le_sq₀ (norm_nonneg _) (by positivity)).1 hm
  have key : dist p' z ≤ 29 / 32 * S := by
    rcases h with h | ⟨w, h1, h2, h3⟩
    · have : p' - z = (1 / 2 : ℝ) • ((x - z) + (y - z)) := by rw [h]; module
      rw [dist_eq_norm, this, norm_smul]
      norm_num
      linarith
    · have : p' - z = (3 / 8 : ℝ) • ((x - z) + (y - z)) + (1 / 8 : ℝ) • (w - x) + (1 / 8 : ℝ) • (x - z) := by rw [h3]; module
      rw [dist_eq_norm] at h1
      rw [dist_eq_norm, this]
      refine (norm_add₃_le).trans ?_
      rw [norm_smul, norm_smul, norm_smul]
      norm_num
      linarith
  have h4 := dist_triangle p p' z
  rw [dist_eq_norm p p'] at h4
  linarith

end vectors

section mesh
variable {P V D : Type} [Zero P] [Add P] [SMul ℝ P] [NormedAddCommGroup V] [InnerProductSpace ℝ V] {val : P → V}
  {lib : QELib} {cosn : Nat → ℝ} {f f' : Filt} {inp out : Mesh P D} {len : P → P → ℝ} {L S R κ : ℝ}

/-- where the Loop edge filter puts the new point of an edge -/
theorem loop_nearAt (H : MeasuredLoop val len R κ) (hn : EdgeScheme.loop.toScheme.Needs inp) (hsel : inp.EdgeSelOK f.edgeSel)
    (hR : ∀ v p, inp.pos v = some p → ‖val p‖ ≤ R) (h : edgeUpdate .loop lib cosn f inp = (.ok out, f'))
    (hS : ∀ {e}, inp.IsEdge e → dist (inp.spot val e.1) (inp.spot val e.2) ≤ S) {a b c m : PId} (ht : HasTri inp.tris a b c)
    (hm : inp.listPoint f.edgeSel (a, b) = some m) :
    NearAt κ S (inp.spot val a) (inp.spot val b) (inp.spot val c) (out.spot val m) := by
  have hv := hn.valid
  have hr := hn.ring (Or.inl rfl)
  have hb : ∀ {v}, v < inp.points.length → ‖inp.spot val v‖ ≤ R := fun {v} hlt => hR v _ (hv.pos_eq hlt)
  obtain ⟨e', p, g1, g2, g3, g4⟩ := edgeUpdate_edgeValue hn hsel h hm
  have he := hv.isEdge_of_dart ht.dart
  have g3 : loopPoint ℝ inp e' = .ok p := g3
  rw [spot_of_pos g4]
  have la := hb (hv.isEdge_lt he).1
  have lb := hb (hv.isEdge_lt he).2
  have lc := hb (hv.isEdge_lt (hv.isEdge_of_dart ht.rot.dart)).2
  by_cases hba : (b, a) ∈ dartsOf inp.tris
  · obtain ⟨d, hd⟩ := dartsOf_iff_hasTri.1 hba
    have ld := hb (hv.isEdge_lt (hv.isEdge_of_dart hd.rot.dart)).2
    have hw : NewAt S (inp.spot val a) (inp.spot val b) (inp.spot val c) ((3 / 8 : ℝ) • inp.spot val a +
        (3 / 8 : ℝ) • inp.spot val b + (1 / 8 : ℝ) • inp.spot val c + (1 / 8 : ℝ) • inp.spot val d) :=
      Or.inr ⟨inp.spot val d, hS (hv.isEdge_of_dart hd.rot.dart).sym, hS (hv.isEdge_of_dart hd.rot.rot.dart), rfl⟩
    refine ⟨_, hw, ?_⟩
    rcases g1 with rfl | rfl
    · have h1 := loopPoint_inner (K := ℝ) hv hr ht hd
      rw [g3] at h1
      rw [Except.ok.inj h1]
      exact H.four _ _ _ _ la lb lc ld
    · have h1 := loopPoint_inner (K := ℝ) hv hr hd ht
      have g3 : loopPoint ℝ inp (b, a) = .ok p := g3
      rw [g3] at h1
      rw [Except.ok.inj h1]
      have h2 := H.four _ _ _ _ lb la ld lc
      refine le_trans (le_of_eq (congrArg _ (congrArg _ ?_))) h2
      change _ = (3 / 8 : ℝ) • inp.spot val b + (3 / 8 : ℝ) • inp.spot val a + (1 / 8 : ℝ) • inp.spot val d +
        (1 / 8 : ℝ) • inp.spot val c
      abel
  · have h1 := loopPoint_border (K := ℝ) hv g2 (by
      rcases g1 with rfl | rfl
      · exact fun hc => hba hc.2
      · exact fun hc => hba hc.1)
    rw [g3] at h1
    rw [Except.ok.inj h1]
    refine ⟨_, Or.inl rfl, ?_⟩
    rw [← smul_add]
    rcases g1 with rfl | rfl
    · exact H.mid _ _ la lb
    · rw [add_comm]; exact H.mid _ _ lb la

/-- one iteration of the conditional filter -/
theorem rounded_loop_iteration (H : MeasuredLoop val len R κ) (hn : EdgeScheme.loop.toScheme.Needs inp) {l : List Edge} (hne : l ≠ [])
    (hL : 0 < L) (hκ : κ ≤ L / 50) (hS : 98 / 95 * L ≤ S) (hs : ∀ e, e ∈ l ↔ e ∈ inp.edges ∧ inp.TooLong len L e)
    (hR : ∀ v p, inp.pos v = some p → ‖val p‖ ≤ R)
    (hM : ∀ e, inp.IsEdge e → dist (inp.spot val e.1) (inp.spot val e.2) ≤ S ∨ ¬ inp.TooLong len L e)
    (h : edgeUpdate .loop lib cosn (f.setEdges (l.map some)) inp = (.ok out, f')) (hvo : out.Valid) :
    ∀ e, out.IsEdge e → dist (out.spot val e.1) (out.spot val e.2) ≤ 19 / 20 * S ∨ ¬ out.TooLong len L e := by
  have hv := hn.valid
  have hsel : inp.EdgeSelOK (f.setEdges (l.map some)).edgeSel := by
    intro e he
    obtain ⟨e', he', h⟩ := List.mem_map.1 he
    cases h
    exact Or.inl ((hs _).1 he').1
  have T := edgeUpdate_result hn hsel h
  have hk := C06_original_points_kept_edge hv.points_dense h
  have hb : ∀ {v}, v < inp.points.length → ‖inp.spot val v‖ ≤ R := fun {v} hlt => hR v _ (hv.pos_eq hlt)
  have kept : ∀ {v}, v < inp.points.length → out.pos v = some (inp.coord v) ∧ out.spot val v = inp.spot val v := by
    intro v hlt
    have := hk v _ (hv.pos_eq hlt)
    exact ⟨this, spot_of_pos this⟩
  -- lengths of edges that are split, and of those that are not
  have big : ∀ {e}, inp.IsEdge e → inp.TooLong len L e → 49 / 50 * L ≤ dist (inp.spot val e.1) (inp.spot val e.2) := by
    intro e he ht
    rw [tooLong_coord hv he] at ht
    have hlt := hv.isEdge_lt he
    have := abs_le.1 (H.near _ _ (hb hlt.1) (hb hlt.2))
    change L < _ at ht
    have e1 : dist (inp.spot val e.1) (inp.spot val e.2) = dist (val (inp.coord e.1)) (val (inp.coord e.2)) := rfl
    linarith [this.1, this.2]
  have small : ∀ {e}, inp.IsEdge e → ¬ inp.TooLong len L e → dist (inp.spot val e.1) (inp.spot val e.2) ≤ 51 / 50 * L := by
    intro e he ht
    rw [tooLong_coord hv he, not_lt] at ht
    have hlt := hv.isEdge_lt he
    have := abs_le.1 (H.near _ _ (hb hlt.1) (hb hlt.2))
    have e1 : dist (inp.spot val e.1) (inp.spot val e.2) = dist (val (inp.coord e.1)) (val (inp.coord e.2)) := rfl
    linarith [this.1, this.2]
  have all : ∀ {e}, inp.IsEdge e → dist (inp.spot val e.1) (inp.spot val e.2) ≤ S := by
    intro e he
    rcases hM e he with h | h
    · exact h
    · exact (small he h).trans (by linarith)
  have new : ∀ {a b c m : PId}, HasTri inp.tris a b c → inp.listPoint (l.map some) (a, b) = some m →
      NearAt κ S (inp.spot val a) (inp.spot val b) (inp.spot val c) (out.spot val m) := fun ht hm =>
    loop_nearAt H hn hsel hR h all ht hm
  have hS1 : L ≤ S := by linarith
  have key : ∀ e ∈ dartsOf out.tris, dist (out.spot val e.1) (out.spot val e.2) ≤ 19 / 20 * S ∨ ¬ out.TooLong len L e := by
    intro e he
    rw [T.tris] at he
    obtain ⟨d, hd, hed⟩ := mem_dartsOf.1 he
    obtain ⟨t, ht, hd⟩ := List.mem_flatMap.1 hd
    obtain ⟨⟨x, y, z⟩, hs', hc⟩ := childEdge_kinds hd hed
    have hT : HasTri inp.tris x y z := by
      have h0 : HasTri inp.tris t.1 t.2.1 t.2.2 := Or.inl ht
      simp only [List.mem_cons, List.not_mem_nil, or_false, Prod.mk.injEq] at hs'
      rcases hs' with ⟨rfl, rfl, rfl⟩ | ⟨rfl, rfl, rfl⟩ | ⟨rfl, rfl, rfl⟩
      · exact h0
      · exact h0.rot
      · exact h0.rot.rot
    have e0 := hv.isEdge_of_dart hT.dart
    have e1 := hv.isEdge_of_dart hT.rot.dart
    have e2 := hv.isEdge_of_dart hT.rot.rot.dart
    have px := (kept (hv.isEdge_lt e0).1).2
    have py := (kept (hv.isEdge_lt e0).2).2
    have pz := (kept (hv.isEdge_lt e1).2).2
    have m0 := all e0
    have m1 := all e1
    have m2 := all e2
    have s0 := long_split H.symm hne hs e0
    have s1 := long_split H.symm hne hs e1
    have s2 := long_split H.symm hne hs e2
    simp only at hc px py pz m0 m1 m2
    rcases hc with ⟨rfl, hμ⟩ | ⟨m, hμ, hc⟩ | ⟨m, m', hμ, hμ', hc⟩ | ⟨m, hμ, hμ', hc⟩
    · refine Or.inr ?_
      change inp.listPoint (l.map some) (x, y) = none at hμ
      rw [hμ] at s0
      rintro ⟨p, q, h1, h2, h3⟩
      refine absurd (s0.2 ⟨_, _, hv.pos_eq (hv.isEdge_lt e0).1, hv.pos_eq (hv.isEdge_lt e0).2, ?_⟩) (by simp)
      have e1 := (kept (hv.isEdge_lt e0).1).1
      have e2 := (kept (hv.isEdge_lt e0).2).1
      change out.pos x = some p at h1
      change out.pos y = some q at h2
      change out.pos x = _ at e1
      change out.pos y = _ at e2
      rw [h1] at e1
      rw [h2] at e2
      rw [← Option.some.inj e1, ← Option.some.inj e2]
      exact h3
    · refine Or.inl ?_
      have k := new hT hμ
      have k1 := k.half m0 m2
      have k2 := k.symm.half (by rw [dist_comm]; exact m0) (by rw [dist_comm]; exact m1)
      have bound : 9 / 10 * S + κ ≤ 19 / 20 * S := by linarith
      rcases hc with rfl | rfl | rfl | rfl
      · change dist (out.spot val x) (out.spot val m) ≤ _
        rw [px, dist_comm]; exact k1.trans bound
      · change dist (out.spot val m) (out.spot val x) ≤ _
        rw [px]; exact k1.trans bound
      · change dist (out.spot val y) (out.spot val m) ≤ _
        rw [py, dist_comm]; exact k2.trans bound
      · change dist (out.spot val m) (out.spot val y) ≤ _
        rw [py]; exact k2.trans bound
    · refine Or.inl ?_
      have k := (new hT hμ).between (new hT.rot hμ') m0 m2
      have bound : 9 / 10 * S + 2 * κ ≤ 19 / 20 * S := by linarith
      rcases hc with rfl | rfl
      · exact k.trans bound
      · rw [dist_comm]; exact k.trans bound
    · refine Or.inl ?_
      have hl : inp.TooLong len L (x, y) := s0.1 (by
        rw [show inp.listPoint (l.map some) (x, y) = some m from hμ]; rfl)
      have k := (new hT hμ).across hL.le hκ hS (big e0 hl) (by rw [dist_comm]; exact m2) m1 (by
        rcases hμ' with hμ' | hμ'
        · change inp.listPoint (l.map some) (y, z) = none at hμ'
          rw [hμ'] at s1
          exact Or.inr (small e1 (by simpa using s1))
        · change inp.listPoint (l.map some) (z, x) = none at hμ'
          rw [hμ'] at s2
          refine Or.inl ?_
          rw [dist_comm]; exact small e2 (by simpa using s2))
      rw [← pz] at k
      rcases hc with rfl | rfl
      · exact k
      · rw [dist_comm]; exact k
  intro e he
  rcases (hvo.edges_iff e).1 he with h | h
  · exact key e h
  · rcases key _ h with h1 | h1
    · left; rw [dist_comm]; exact h1
    · right; rwa [tooLong_flip H.symm] at h1

/-- places stay in a ball a little larger -/
theorem rounded_loop_ball (H : MeasuredLoop val len R κ) (hn : EdgeScheme.loop.toScheme.Needs inp) {l : List Edge}
    (hE : ∀ e ∈ l, inp.IsEdge e) {B : ℝ} (hκ : 0 ≤ κ) (hB : B ≤ R) (hR : ∀ v p, inp.pos v = some p → ‖val p‖ ≤ B)
    (h : edgeUpdate .loop lib cosn (f.setEdges (l.map some)) inp = (.ok out, f')) :
    ∀ v p, out.pos v = some p → ‖val p‖ ≤ B + κ := by
  have hv := hn.valid
  have hr := hn.ring (Or.inl rfl)
  have hsel : inp.EdgeSelOK (f.setEdges (l.map some)).edgeSel := by
    intro e he
    obtain ⟨e', he', h⟩ := List.mem_map.1 he
    cases h
    exact hE _ he'
  have T := edgeUpdate_result hn hsel h
  refine in_of_dense (P := P) (out := out) (C := {p : P | ‖val p‖ ≤ B + κ}) T.points fun p hp => ?_
  have old : ∀ {w}, w < inp.points.length → ‖val (inp.coord w)‖ ≤ B := fun {w} hw => hR w _ (hv.pos_eq hw)
  have e2 : ‖(1 / 2 : ℝ)‖ = 1 / 2 := by norm_num
  have e3 : ‖(3 / 8 : ℝ)‖ = 3 / 8 := by norm_num
  have e4 : ‖(1 / 8 : ℝ)‖ = 1 / 8 := by norm_num
  have close : ∀ {v w : V}, ‖v - w‖ ≤ κ → ‖w‖ ≤ B → ‖v‖ ≤ B + κ := by
    intro v w h1 h2
    have := norm_add_le (v - w) w
    rw [sub_add_cancel] at this
    linarith
  rcases List.mem_append.1 hp with hp | hp
  · obtain ⟨w, hw, rfl⟩ := List.mem_map.1 hp
    have := old (List.mem_range.1 hw)
    change ‖val _‖ ≤ B + κ
    linarith
  · obtain ⟨⟨a, b⟩, he, rfl⟩ := List.mem_map.1 hp
    have he' := selectedEdges_isEdge hsel he
    have hlt := hv.isEdge_lt he'
    have hval := valueOf_ok (schemePoint_ok (K := ℝ) hn he')
    change ‖val (valueOf (schemePoint EdgeScheme.loop.toScheme ℝ inp) (a, b))‖ ≤ _
    by_cases hb : (a, b) ∈ dartsOf inp.tris ∧ (b, a) ∈ dartsOf inp.tris
    · obtain ⟨c, hc⟩ := dartsOf_iff_hasTri.1 hb.1
      obtain ⟨d, hd⟩ := dartsOf_iff_hasTri.1 hb.2
      have lc := old (hv.isEdge_lt (hv.isEdge_of_dart hc.rot.dart)).2
      have ld := old (hv.isEdge_lt (hv.isEdge_of_dart hd.rot.dart)).2
      have la := old hlt.1
      have lb := old hlt.2
      rw [Except.ok.inj (hval.symm.trans (loopPoint_inner (K := ℝ) hv hr hc hd))]
      refine close (H.four _ _ _ _ (la.trans hB) (lb.trans hB) (lc.trans hB) (ld.trans hB)) ?_
      refine (norm_add_le _ _).trans ?_
      have := norm_add₃_le (a := (3 / 8 : ℝ) • val (inp.coord a)) (b := (3 / 8 : ℝ) • val (inp.coord b))
        (c := (1 / 8 : ℝ) • val (inp.coord c))
      simp only [norm_smul, e3, e4] at this ⊢
      simp only at la lb lc ld
      linarith
    · rw [Except.ok.inj (hval.symm.trans (loopPoint_border (K := ℝ) hv he' hb))]
      refine close (H.mid _ _ ((old hlt.1).trans hB) ((old hlt.2).trans hB)) ?_
      rw [norm_smul, e2]
      have h4 := norm_add_le (val (inp.coord a)) (val (inp.coord b))
      have := old hlt.1
      have := old hlt.2
      simp only at *
      linarith

/-- there is a boundary edge between `x` and `y` -/
def Mesh.RimBetween (m : Mesh P D) (x y : P) : Prop :=
  ∃ e, m.IsBoundary e ∧ (m.pos e.1 = some x ∧ m.pos e.2 = some y ∨ m.pos e.1 = some y ∧ m.pos e.2 = some x)

/-- a boundary edge between neighbours leaves a boundary edge between neighbours -/
theorem rim_neighbours_step {x y : P} (hN : Neighbours x y) (hn : EdgeScheme.loop.toScheme.Needs inp) {l : List Edge}
    (hs : ∀ e, e ∈ l ↔ e ∈ inp.edges ∧ inp.TooLong len L e)
    (h : edgeUpdate .loop lib cosn (f.setEdges (l.map some)) inp = (.ok out, f')) (hd : inp.RimBetween x y) :
    out.RimBetween x y := by
  have hv := hn.valid
  have hsel : inp.EdgeSelOK (f.setEdges (l.map some)).edgeSel := by
    intro e he
    obtain ⟨e', he', h⟩ := List.mem_map.1 he
    cases h
    exact Or.inl ((hs _).1 he').1
  have hk := C06_original_points_kept_edge hv.points_dense h
  obtain ⟨e, he, hxy⟩ := hd
  have up : ∀ {d}, IsPiece (inp.listPoint (l.map some)) e d → out.IsBoundary d := fun {d} hd =>
    ((C18_boundary_preserved_edge hn hsel h).1 d).2 ⟨e, he, hd⟩
  rcases hm : inp.listPoint (l.map some) e with _ | m
  · refine ⟨e, up (Or.inl ⟨hm, rfl⟩), ?_⟩
    rcases hxy with ⟨h1, h2⟩ | ⟨h1, h2⟩
    · exact Or.inl ⟨hk _ _ h1, hk _ _ h2⟩
    · exact Or.inr ⟨hk _ _ h1, hk _ _ h2⟩
  · have c1 : out.IsBoundary (e.1, m) := up (Or.inr ⟨m, hm, Or.inl rfl⟩)
    have c2 : out.IsBoundary (m, e.2) := up (Or.inr ⟨m, hm, Or.inr rfl⟩)
    obtain ⟨e', p, g1, g2, g3, g4⟩ := edgeUpdate_edgeValue hn hsel h hm
    have hp : midPoint ℝ (inp.coord e'.1) (inp.coord e'.2) = p := by
      have := loopPoint_border (K := ℝ) hv g2 (by
        rcases g1 with rfl | rfl
        · exact fun hc => he.2 hc.2
        · exact fun hc => he.2 hc.1)
      exact Except.ok.inj (this.symm.trans g3)
    have hpxy : p = x ∨ p = y := by
      rcases hxy with ⟨h1, h2⟩ | ⟨h1, h2⟩ <;> rcases g1 with rfl | rfl <;>
        simp only [Edge.sym, inp.coord_of_pos h1, inp.coord_of_pos h2] at hp <;> rw [← hp]
      · exact hN.1
      · exact hN.2
      · exact hN.2
      · exact hN.1
    rcases hxy with ⟨h1, h2⟩ | ⟨h1, h2⟩ <;> rcases hpxy with rfl | rfl
    · exact ⟨_, c2, Or.inl ⟨g4, hk _ _ h2⟩⟩
    · exact ⟨_, c1, Or.inl ⟨hk _ _ h1, g4⟩⟩
    · exact ⟨_, c1, Or.inr ⟨hk _ _ h1, g4⟩⟩
    · exact ⟨_, c2, Or.inr ⟨g4, hk _ _ h2⟩⟩

theorem rim_neighbours_loop (hlib : lib.Lawful) {x y : P} (hN : Neighbours x y) (h1 : L < len x y) (h2 : L < len y x) (n : Nat)
    {s : Filt} {l : List Edge} (hL : LengthInv .loop (l.map some) inp)
    (hs : ∀ e, e ∈ l ↔ e ∈ inp.edges ∧ inp.TooLong len L e) (hd : inp.RimBetween x y) :
    condLoop (condEdgeUpd .loop lib cosn) (lengthCompute len L) n ⟨s, l.map some⟩ inp = none := by
  have hne : ∀ {m : Mesh P D} {l : List Edge}, m.Valid → (∀ e, e ∈ l ↔ e ∈ m.edges ∧ m.TooLong len L e) →
      m.RimBetween x y → l ≠ [] := by
    rintro m l hm hs ⟨e, he, hxy⟩ rfl
    have t1 : m.TooLong len L e := by
      rcases hxy with ⟨k1, k2⟩ | ⟨k1, k2⟩
      · exact ⟨_, _, k1, k2, h1⟩
      · exact ⟨_, _, k1, k2, h2⟩
    have t2 : m.TooLong len L e.sym := by
      rcases hxy with ⟨k1, k2⟩ | ⟨k1, k2⟩
      · exact ⟨_, _, k2, k1, h2⟩
      · exact ⟨_, _, k2, k1, h1⟩
    rcases hm.isEdge_of_dart he.1 with h | h
    · exact absurd ((hs _).2 ⟨h, t1⟩) List.not_mem_nil
    · exact absurd ((hs _).2 ⟨h, t2⟩) List.not_mem_nil
  induction n generalizing l inp s with
  | zero => exact condLoop_zero (by simpa using hne hL.needs.valid hs hd)
  | succ n ih =>
    have hne' := hne hL.needs.valid hs hd
    have h0 : l.map some ≠ [] := by simpa using hne'
    obtain ⟨out, s', sel', h3, h4, h5⟩ := condLength_step (lib := lib) (cosn := cosn) (fun _ => hlib) len L s hL h0
    rw [condLoop_step h0 h3 h4]
    have hm := h5.needs.valid
    obtain ⟨l', k1, -, k2, -⟩ := C29_length_exact len L hm.has_edge_cells hm.endsExist (l.map some)
    rw [h4] at k1
    cases k1
    exact ih h5 k2 (rim_neighbours_step hN hL.needs hs h3 hd)

end mesh
end Verif
