import Verif.Proofs.LoopLength
import Verif.Proofs.CondInduct
import Verif.Proofs.Stable
import Verif.Spec.Measured
import Verif.Spec.Rounding
/-
Lengths of edges when the Linear edge filter splits the long edges of a mesh, in machine arithmetic.
-/
namespace Verif
set_option linter.unusedSectionVars false

section vectors
variable {V : Type} [NormedAddCommGroup V] [InnerProductSpace ℝ V] {L S κ : ℝ} {x y z p q : V}

/-- the value `p` of a computed midpoint -/
def NearMid (κ : ℝ) (x y p : V) : Prop := ‖p - (1 / 2 : ℝ) • (x + y)‖ ≤ κ

theorem NearMid.symm (h : NearMid κ x y p) : NearMid κ y x p := by
  unfold NearMid at *
  rwa [add_comm]

theorem NearMid.half (h : NearMid κ x y p) (hxy : dist x y ≤ S) : dist p x ≤ S / 2 + κ := by
  have e : p - x = (p - (1 / 2 : ℝ) • (x + y)) + (1 / 2 : ℝ) • (y - x) := by module
  rw [dist_eq_norm, e]
  refine (norm_add_le _ _).trans ?_
  rw [norm_smul]
  rw [dist_comm, dist_eq_norm] at hxy
  unfold NearMid at h
  have e2 : ‖(1 / 2 : ℝ)‖ = 1 / 2 := by norm_num
  rw [e2]
  linarith

theorem NearMid.between (h : NearMid κ x y p) (h' : NearMid κ y z q) (hzx : dist z x ≤ S) : dist p q ≤ S / 2 + 2 * κ := by
  have e : p - q = (p - (1 / 2 : ℝ) • (x + y)) + (1 / 2 : ℝ) • (x - z) + ((1 / 2 : ℝ) • (y + z) - q) := by module
  rw [dist_eq_norm, e]
  refine (norm_add₃_le).trans ?_
  rw [norm_smul]
  rw [dist_comm, dist_eq_norm] at hzx
  unfold NearMid at h h'
  rw [norm_sub_rev] at h'
  have e2 : ‖(1 / 2 : ℝ)‖ = 1 / 2 := by norm_num
  rw [e2]
  linarith

/-- the line to the opposite corner in a triangle with a short side -/
theorem NearMid.across (h : NearMid κ x y p) (hL : 0 ≤ L) (hκ : κ ≤ L / 50) (hS : 98 / 90 * L ≤ S)
    (hxy : 49 / 50 * L ≤ dist x y) (hxz : dist x z ≤ S) (hyz : dist y z ≤ S)
    (hs : dist x z ≤ 51 / 50 * L ∨ dist y z ≤ 51 / 50 * L) : dist p z ≤ 9 / 10 * S := by
  have h1 := parallelogram_law_with_norm ℝ (x - z) (y - z)
  rw [sub_sub_sub_cancel_right] at h1
  rw [dist_eq_norm] at hxy hxz hyz
  rw [dist_eq_norm, dist_eq_norm] at hs
  have hS0 : 0 ≤ S := le_trans (by positivity) hS
  have k1 : (49 / 50 * L) ^ 2 ≤ ‖x - y‖ ^ 2 := pow_le_pow_left₀ (by positivity) hxy 2
  have k2 : ‖x - z‖ ^ 2 ≤ S ^ 2 := pow_le_pow_left₀ (norm_nonneg _) hxz 2
  have k3 : ‖y - z‖ ^ 2 ≤ S ^ 2 := pow_le_pow_left₀ (norm_nonneg _) hyz 2
  have k4 : (98 / 90 * L) ^ 2 ≤ S ^ 2 := pow_le_pow_left₀ (by positivity) hS 2
  have hm : ‖(x - z) + (y - z)‖ ^ 2 ≤ (43 / 25 * S) ^ 2 := by
    rcases hs with hs | hs
    · have k5 : ‖x - z‖ ^ 2 ≤ (51 / 50 * L) ^ 2 := pow_le_pow_left₀ (norm_nonneg _) hs 2
      nlinarith
    · have k5 : ‖y - z‖ ^ 2 ≤ (51 / 50 * L) ^ 2 := pow_le_pow_left₀ (norm_nonneg _) hs 2
      nlinarith
  have hm' : ‖(x - z) + (y - z)‖ ≤ 43 / 25 * S := (sq_le_sq₀ (norm_nonneg _) (by positivity)).1 hm
  have e : p - z = (p - (1 / 2 : ℝ) • (x + y)) + (1 / 2 : ℝ) • ((x - z) + (y - z)) := by module
  rw [dist_eq_norm, e]
  refine (norm_add_le _ _).trans ?_
  rw [norm_smul]
  unfold NearMid at h
  have e2 : ‖(1 / 2 : ℝ)‖ = 1 / 2 := by norm_num
  rw [e2]
  linarith

end vectors

section mesh
variable {P V D : Type} [Zero P] [Add P] [SMul ℝ P] [NormedAddCommGroup V] [InnerProductSpace ℝ V] {val : P → V}
  {lib : QELib} {cosn : Nat → ℝ} {f f' : Filt} {inp out : Mesh P D} {len : P → P → ℝ} {L S R κ : ℝ}

/-- the exact value of the place of a point -/
def Mesh.spot (val : P → V) (m : Mesh P D) (v : PId) : V := val (m.coord v)

theorem spot_of_pos {m : Mesh P D} {v : PId} {p : P} (h : m.pos v = some p) : m.spot val v = val p := by
  unfold Mesh.spot
  rw [m.coord_of_pos h]

theorem tooLong_coord (hv : inp.Valid) {e : Edge} (he : inp.IsEdge e) :
    inp.TooLong len L e ↔ L < len (inp.coord e.1) (inp.coord e.2) := by
  have h := hv.isEdge_lt he
  constructor
  · rintro ⟨p, q, h1, h2, h3⟩
    rw [inp.coord_of_pos h1, inp.coord_of_pos h2]; exact h3
  · intro h3
    exact ⟨_, _, hv.pos_eq h.1, hv.pos_eq h.2, h3⟩

theorem tooLong_flip (hs : ∀ p q, len p q = len q p) {e : Edge} : inp.TooLong len L e.sym ↔ inp.TooLong len L e := by
  constructor
  · rintro ⟨p, q, h1, h2, h3⟩; exact ⟨q, p, h2, h1, by rw [hs]; exact h3⟩
  · rintro ⟨p, q, h1, h2, h3⟩; exact ⟨q, p, h2, h1, by rw [hs]; exact h3⟩

theorem long_split (hsym : ∀ p q, len p q = len q p) {l : List Edge} (hne : l ≠ [])
    (hs : ∀ e, e ∈ l ↔ e ∈ inp.edges ∧ inp.TooLong len L e) {e : Edge} (he : inp.IsEdge e) :
    (inp.listPoint (l.map some) e).isSome = true ↔ inp.TooLong len L e := by
  unfold Mesh.listPoint
  rw [lastLabel_isSome, selectedEdges_some _ hne, hs, hs, tooLong_flip hsym]
  constructor
  · rintro (h | h) <;> exact h.2
  · intro h
    rcases he with he | he
    · exact Or.inl ⟨he, h⟩
    · exact Or.inr ⟨he, h⟩

/-- one iteration of the conditional filter -/
theorem rounded_length_iteration (H : Measured val len R κ) (hv : inp.Valid) {l : List Edge} (hne : l ≠ [])
    (hL : 0 < L) (hκ : κ ≤ L / 50) (hS : 98 / 90 * L ≤ S) (hs : ∀ e, e ∈ l ↔ e ∈ inp.edges ∧ inp.TooLong len L e)
    (hR : ∀ v p, inp.pos v = some p → ‖val p‖ ≤ R)
    (hM : ∀ e, inp.IsEdge e → dist (inp.spot val e.1) (inp.spot val e.2) ≤ S ∨ ¬ inp.TooLong len L e)
    (h : edgeUpdate .linear lib cosn (f.setEdges (l.map some)) inp = (.ok out, f')) (hvo : out.Valid) :
    ∀ e, out.IsEdge e → dist (out.spot val e.1) (out.spot val e.2) ≤ 9 / 10 * S ∨ ¬ out.TooLong len L e := by
  have hn : EdgeScheme.linear.toScheme.Needs inp := ⟨hv, by simp [EdgeScheme.toScheme], by simp [EdgeScheme.toScheme]⟩
  have hsel : inp.EdgeSelOK (f.setEdges (l.map some)).edgeSel := by
    intro e he
    obtain ⟨e', he', h⟩ := List.mem_map.1 he
    cases h
    exact Or.inl ((hs _).1 he').1
  have T := edgeUpdate_result hn hsel h
  have hk := C06_original_points_kept_edge hv.points_dense h
  have hb : ∀ {v}, v < inp.points.length → ‖inp.spot val v‖ ≤ R := fun {v} hlt => hR v _ (hv.pos_eq hlt)
  have kept : ∀ {v}, v < inp.points.length → out.pos v = some (inp.coord v) ∧ out.spot val v = inp.spot val v := by
    intro v hlt
    have := hk v _ (hv.pos_eq hlt)
    exact ⟨this, spot_of_pos this⟩
  have new : ∀ {a b m : PId}, inp.IsEdge (a, b) → inp.listPoint (l.map some) (a, b) = some m →
      NearMid κ (inp.spot val a) (inp.spot val b) (out.spot val m) := by
    intro a b m hab hm
    obtain ⟨e', p, g1, g2, g3, g4⟩ := edgeUpdate_edgeValue hn hsel h hm
    have hlt := hv.isEdge_lt g2
    rw [spot_of_pos g4]
    have hp : midPoint ℝ (inp.coord e'.1) (inp.coord e'.2) = p := by
      have := linearPoint_ok (K := ℝ) hv g2
      exact Except.ok.inj (this.symm.trans g3)
    have : NearMid κ _ _ (val (midPoint ℝ _ _)) := H.mid _ _ (hb hlt.1) (hb hlt.2)
    rw [hp] at this
    rcases g1 with rfl | rfl
    · exact this
    · exact this.symm
  -- lengths of edges that are split, and of those that are not
  have big : ∀ {e}, inp.IsEdge e → inp.TooLong len L e → 49 / 50 * L ≤ dist (inp.spot val e.1) (inp.spot val e.2) := by
    intro e he ht
    rw [tooLong_coord hv he] at ht
    have hlt := hv.isEdge_lt he
    have := abs_le.1 (H.near _ _ (hb hlt.1) (hb hlt.2))
    change L < _ at ht
    have e1 : dist (inp.spot val e.1) (inp.spot val e.2) = dist (val (inp.coord e.1)) (val (inp.coord e.2)) := rfl
    linarith [this.1, this.2]
  have small : ∀ {e}, inp.IsEdge e → ¬ inp.TooLong len L e → dist (inp.spot val e.1) (inp.spot val e.2) ≤ 51 / 50 * L := by
    intro e he ht
    rw [tooLong_coord hv he, not_lt] at ht
    have hlt := hv.isEdge_lt he
    have := abs_le.1 (H.near _ _ (hb hlt.1) (hb hlt.2))
    have e1 : dist (inp.spot val e.1) (inp.spot val e.2) = dist (val (inp.coord e.1)) (val (inp.coord e.2)) := rfl
    linarith [this.1, this.2]
  have all : ∀ {e}, inp.IsEdge e → dist (inp.spot val e.1) (inp.spot val e.2) ≤ S := by
    intro e he
    rcases hM e he with h | h
    · exact h
    · exact (small he h).trans (by linarith)
  have hS1 : L ≤ S := by linarith
  have key : ∀ e ∈ dartsOf out.tris, dist (out.spot val e.1) (out.spot val e.2) ≤ 9 / 10 * S ∨ ¬ out.TooLong len L e := by
    intro e he
    rw [T.tris] at he
    obtain ⟨d, hd, hed⟩ := mem_dartsOf.1 he
    obtain ⟨t, ht, hd⟩ := List.mem_flatMap.1 hd
    obtain ⟨⟨x, y, z⟩, hs', hc⟩ := childEdge_kinds hd hed
    have hT : HasTri inp.tris x y z := by
      have h0 : HasTri inp.tris t.1 t.2.1 t.2.2 := Or.inl ht
      simp only [List.mem_cons, List.not_mem_nil, or_false, Prod.mk.injEq] at hs'
      rcases hs' with ⟨rfl, rfl, rfl⟩ | ⟨rfl, rfl, rfl⟩ | ⟨rfl, rfl, rfl⟩
      · exact h0
      · exact h0.rot
      · exact h0.rot.rot
    have e0 := hv.isEdge_of_dart hT.dart
    have e1 := hv.isEdge_of_dart hT.rot.dart
    have e2 := hv.isEdge_of_dart hT.rot.rot.dart
    have px := (kept (hv.isEdge_lt e0).1).2
    have py := (kept (hv.isEdge_lt e0).2).2
    have pz := (kept (hv.isEdge_lt e1).2).2
    have m0 := all e0
    have m1 := all e1
    have m2 := all e2
    have s0 := long_split H.symm hne hs e0
    have s1 := long_split H.symm hne hs e1
    have s2 := long_split H.symm hne hs e2
    simp only at hc px py pz m0 m1 m2
    rcases hc with ⟨rfl, hμ⟩ | ⟨m, hμ, hc⟩ | ⟨m, m', hμ, hμ', hc⟩ | ⟨m, hμ, hμ', hc⟩
    · refine Or.inr ?_
      change inp.listPoint (l.map some) (x, y) = none at hμ
      rw [hμ] at s0
      rintro ⟨p, q, h1, h2, h3⟩
      refine absurd (s0.2 ⟨_, _, hv.pos_eq (hv.isEdge_lt e0).1, hv.pos_eq (hv.isEdge_lt e0).2, ?_⟩) (by simp)
      have e1 := (kept (hv.isEdge_lt e0).1).1
      have e2 := (kept (hv.isEdge_lt e0).2).1
      change out.pos x = some p at h1
      change out.pos y = some q at h2
      change out.pos x = _ at e1
      change out.pos y = _ at e2
      rw [h1] at e1
      rw [h2] at e2
      rw [← Option.some.inj e1, ← Option.some.inj e2]
      exact h3
    · refine Or.inl ?_
      have k := new e0 hμ
      have k1 := k.half m0
      have k2 := k.symm.half (S := S) (by rw [dist_comm]; exact m0)
      have bound : S / 2 + κ ≤ 9 / 10 * S := by linarith
      rcases hc with rfl | rfl | rfl | rfl
      · change dist (out.spot val x) (out.spot val m) ≤ _
        rw [px, dist_comm]; exact k1.trans bound
      · change dist (out.spot val m) (out.spot val x) ≤ _
        rw [px]; exact k1.trans bound
      · change dist (out.spot val y) (out.spot val m) ≤ _
        rw [py, dist_comm]; exact k2.trans bound
      · change dist (out.spot val m) (out.spot val y) ≤ _
        rw [py]; exact k2.trans bound
    · refine Or.inl ?_
      have k := (new e0 hμ).between (new e1 hμ') m2
      have bound : S / 2 + 2 * κ ≤ 9 / 10 * S := by linarith
      rcases hc with rfl | rfl
      · exact k.trans bound
      · rw [dist_comm]; exact k.trans bound
    · refine Or.inl ?_
      have hl : inp.TooLong len L (x, y) := s0.1 (by
        rw [show inp.listPoint (l.map some) (x, y) = some m from hμ]; rfl)
      have k := (new e0 hμ).across hL.le hκ hS (big e0 hl) (by rw [dist_comm]; exact m2) m1 (by
        rcases hμ' with hμ' | hμ'
        · change inp.listPoint (l.map some) (y, z) = none at hμ'
          rw [hμ'] at s1
          exact Or.inr (small e1 (by simpa using s1))
        · change inp.listPoint (l.map some) (z, x) = none at hμ'
          rw [hμ'] at s2
          refine Or.inl ?_
          rw [dist_comm]; exact small e2 (by simpa using s2))
      rw [← pz] at k
      rcases hc with rfl | rfl
      · exact k
      · rw [dist_comm]; exact k
  intro e he
  rcases (hvo.edges_iff e).1 he with h | h
  · exact key e h
  · rcases key _ h with h1 | h1
    · left; rw [dist_comm]; exact h1
    · right; rwa [tooLong_flip H.symm] at h1

/-- places stay in a ball a little larger -/
theorem rounded_ball (H : Measured val len R κ) (hv : inp.Valid) {l : List Edge} (hE : ∀ e ∈ l, inp.IsEdge e)
    {B : ℝ} (hκ : 0 ≤ κ) (hB : B ≤ R) (hR : ∀ v p, inp.pos v = some p → ‖val p‖ ≤ B)
    (h : edgeUpdate .linear lib cosn (f.setEdges (l.map some)) inp = (.ok out, f')) :
    ∀ v p, out.pos v = some p → ‖val p‖ ≤ B + κ := by
  have hn : EdgeScheme.linear.toScheme.Needs inp := ⟨hv, by simp [EdgeScheme.toScheme], by simp [EdgeScheme.toScheme]⟩
  have hsel : inp.EdgeSelOK (f.setEdges (l.map some)).edgeSel := by
    intro e he
    obtain ⟨e', he', h⟩ := List.mem_map.1 he
    cases h
    exact hE _ he'
  have T := edgeUpdate_result hn hsel h
  refine in_of_dense (P := P) (out := out) (C := {p : P | ‖val p‖ ≤ B + κ}) T.points fun p hp => ?_
  have old : ∀ {w}, w < inp.points.length → ‖val (inp.coord w)‖ ≤ B := fun {w} hw => hR w _ (hv.pos_eq hw)
  rcases List.mem_append.1 hp with hp | hp
  · obtain ⟨w, hw, rfl⟩ := List.mem_map.1 hp
    have := old (List.mem_range.1 hw)
    change ‖val _‖ ≤ B + κ
    linarith
  · obtain ⟨e, he, rfl⟩ := List.mem_map.1 hp
    have he' := selectedEdges_isEdge hsel he
    have hlt := hv.isEdge_lt he'
    have hp : valueOf (schemePoint EdgeScheme.linear.toScheme ℝ inp) e = midPoint ℝ (inp.coord e.1) (inp.coord e.2) :=
      Except.ok.inj ((valueOf_ok (schemePoint_ok hn he')).symm.trans (linearPoint_ok (K := ℝ) hv he'))
    change ‖val _‖ ≤ _
    rw [hp]
    have h1 := H.mid _ _ ((old hlt.1).trans hB) ((old hlt.2).trans hB)
    have h2 := norm_add_le (val (midPoint ℝ (inp.coord e.1) (inp.coord e.2)) -
      (1 / 2 : ℝ) • (val (inp.coord e.1) + val (inp.coord e.2))) ((1 / 2 : ℝ) • (val (inp.coord e.1) + val (inp.coord e.2)))
    rw [sub_add_cancel] at h2
    have h3 : ‖(1 / 2 : ℝ) • (val (inp.coord e.1) + val (inp.coord e.2))‖ ≤ B := by
      rw [norm_smul]
      have h4 := norm_add_le (val (inp.coord e.1)) (val (inp.coord e.2))
      have e2 : ‖(1 / 2 : ℝ)‖ = 1 / 2 := by norm_num
      rw [e2]
      linarith [old hlt.1, old hlt.2]
    have h1' : ‖val (midPoint ℝ (inp.coord e.1) (inp.coord e.2)) -
      (1 / 2 : ℝ) • (val (inp.coord e.1) + val (inp.coord e.2))‖ ≤ κ := h1
    linarith

/-- an edge between neighbours leaves an edge between neighbours -/
theorem neighbours_step {x y : P} (hN : Neighbours x y) (hv : inp.Valid) {l : List Edge}
    (hs : ∀ e, e ∈ l ↔ e ∈ inp.edges ∧ inp.TooLong len L e)
    (h : edgeUpdate .linear lib cosn (f.setEdges (l.map some)) inp = (.ok out, f'))
    (hd : ∃ e ∈ dartsOf inp.tris, inp.pos e.1 = some x ∧ inp.pos e.2 = some y ∨ inp.pos e.1 = some y ∧ inp.pos e.2 = some x) :
    ∃ e ∈ dartsOf out.tris, out.pos e.1 = some x ∧ out.pos e.2 = some y ∨ out.pos e.1 = some y ∧ out.pos e.2 = some x := by
  have hn : EdgeScheme.linear.toScheme.Needs inp := ⟨hv, by simp [EdgeScheme.toScheme], by simp [EdgeScheme.toScheme]⟩
  have hsel : inp.EdgeSelOK (f.setEdges (l.map some)).edgeSel := by
    intro e he
    obtain ⟨e', he', h⟩ := List.mem_map.1 he
    cases h
    exact Or.inl ((hs _).1 he').1
  have T := edgeUpdate_result hn hsel h
  have hk := C06_original_points_kept_edge hv.points_dense h
  obtain ⟨e, he, hxy⟩ := hd
  obtain ⟨t, ht, het⟩ := mem_dartsOf.1 he
  have up : ∀ {d}, d ∈ dartsOf (t.children (inp.listPoint (l.map some))) → d ∈ dartsOf out.tris := by
    intro d hd
    rw [T.tris]
    obtain ⟨u, hu, hd⟩ := mem_dartsOf.1 hd
    exact mem_dartsOf.2 ⟨u, List.mem_flatMap.2 ⟨t, ht, hu⟩, hd⟩
  rcases hm : inp.listPoint (l.map some) e with _ | m
  · refine ⟨e, up (children_keep _ t het hm), ?_⟩
    rcases hxy with ⟨h1, h2⟩ | ⟨h1, h2⟩
    · exact Or.inl ⟨hk _ _ h1, hk _ _ h2⟩
    · exact Or.inr ⟨hk _ _ h1, hk _ _ h2⟩
  · obtain ⟨c1, c2⟩ := children_halves _ t het hm
    obtain ⟨e', p, g1, g2, g3, g4⟩ := edgeUpdate_edgeValue hn hsel h hm
    have hp : midPoint ℝ (inp.coord e'.1) (inp.coord e'.2) = p := by
      have := linearPoint_ok (K := ℝ) hv g2
      exact Except.ok.inj (this.symm.trans g3)
    have hpxy : p = x ∨ p = y := by
      rcases hxy with ⟨h1, h2⟩ | ⟨h1, h2⟩ <;> rcases g1 with rfl | rfl <;>
        simp only [Edge.sym, inp.coord_of_pos h1, inp.coord_of_pos h2] at hp <;> rw [← hp]
      · exact hN.1
      · exact hN.2
      · exact hN.2
      · exact hN.1
    rcases hxy with ⟨h1, h2⟩ | ⟨h1, h2⟩ <;> rcases hpxy with rfl | rfl
    · exact ⟨_, up c2, Or.inl ⟨g4, hk _ _ h2⟩⟩
    · exact ⟨_, up c1, Or.inl ⟨hk _ _ h1, g4⟩⟩
    · exact ⟨_, up c1, Or.inr ⟨hk _ _ h1, g4⟩⟩
    · exact ⟨_, up c2, Or.inr ⟨g4, hk _ _ h2⟩⟩

theorem neighbours_loop {x y : P} (hN : Neighbours x y) (h1 : L < len x y) (h2 : L < len y x) (n : Nat) {s : Filt}
    {l : List Edge} (hL : LengthInv .linear (l.map some) inp)
    (hs : ∀ e, e ∈ l ↔ e ∈ inp.edges ∧ inp.TooLong len L e)
    (hd : ∃ e ∈ dartsOf inp.tris, inp.pos e.1 = some x ∧ inp.pos e.2 = some y ∨ inp.pos e.1 = some y ∧ inp.pos e.2 = some x) :
    condLoop (condEdgeUpd .linear lib cosn) (lengthCompute len L) n ⟨s, l.map some⟩ inp = none := by
  have hne : ∀ {m : Mesh P D} {l : List Edge}, m.Valid → (∀ e, e ∈ l ↔ e ∈ m.edges ∧ m.TooLong len L e) →
      (∃ e ∈ dartsOf m.tris, m.pos e.1 = some x ∧ m.pos e.2 = some y ∨ m.pos e.1 = some y ∧ m.pos e.2 = some x) →
      l ≠ [] := by
    rintro m l hm hs ⟨e, he, hxy⟩ rfl
    have t1 : m.TooLong len L e := by
      rcases hxy with ⟨k1, k2⟩ | ⟨k1, k2⟩
      · exact ⟨_, _, k1, k2, h1⟩
      · exact ⟨_, _, k1, k2, h2⟩
    have t2 : m.TooLong len L e.sym := by
      rcases hxy with ⟨k1, k2⟩ | ⟨k1, k2⟩
      · exact ⟨_, _, k2, k1, h2⟩
      · exact ⟨_, _, k2, k1, h1⟩
    rcases hm.isEdge_of_dart he with h | h
    · exact absurd ((hs _).2 ⟨h, t1⟩) List.not_mem_nil
    · exact absurd ((hs _).2 ⟨h, t2⟩) List.not_mem_nil
  induction n generalizing l inp s with
  | zero => exact condLoop_zero (by simpa using hne hL.needs.valid hs hd)
  | succ n ih =>
    have hne' := hne hL.needs.valid hs hd
    have h0 : l.map some ≠ [] := by simpa using hne'
    obtain ⟨out, s', sel', h3, h4, h5⟩ := condLength_step (lib := lib) (cosn := cosn) (by simp) len L s hL h0
    rw [condLoop_step h0 h3 h4]
    have hm := h5.needs.valid
    obtain ⟨l', k1, -, k2, -⟩ := C29_length_exact len L hm.has_edge_cells hm.endsExist (l.map some)
    rw [h4] at k1
    cases k1
    exact ih h5 k2 (neighbours_step hN hL.needs.valid hs h3 hd)

end mesh
end Verif
