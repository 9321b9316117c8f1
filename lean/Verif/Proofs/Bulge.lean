import Verif.Spec.Bulge
import Verif.Proofs.Hull
import Verif.Proofs.Coords
import Verif.Proofs.Sliver
import Verif.Proofs.CondInduct
import Verif.Proofs.ShrinkLevels
/-
ModifiedButterfly reaches out of the hull of the input points, by a bounded part of its extent.
-/
namespace Verif
set_option linter.unusedSectionVars false

section
variable {K P D : Type} [Field K] [AddCommGroup P] [Module K P] {inp out : Mesh P D} {lib : QELib} {cosn : Nat → K} {f f' : Filt}

/-- all eight points of the stencil are points of the mesh, also at the boundary -/
theorem butterflyPoint_form (hv : inp.Valid) (hr : inp.RingOK) {e : Edge} (he : inp.IsEdge e) :
    ∃ v2 v3 v4 v5 v6 v7 : PId, v2 < inp.points.length ∧ v3 < inp.points.length ∧ v4 < inp.points.length ∧ v5 < inp.points.length ∧
      v6 < inp.points.length ∧ v7 < inp.points.length ∧
      butterflyPoint K inp e = .ok (0 + (1 / 2 : K) • inp.coord e.1 + (1 / 2 : K) • inp.coord e.2 + (1 / 8 : K) • inp.coord v2
        + (1 / 8 : K) • inp.coord v3 + (-1 / 16 : K) • inp.coord v4 + (-1 / 16 : K) • inp.coord v5
        + (-1 / 16 : K) • inp.coord v6 + (-1 / 16 : K) • inp.coord v7) := by
  obtain ⟨e2, h2, g2⟩ := hr.lnext_some he
  obtain ⟨e4, h4, g4⟩ := hr.rprev_some g2
  obtain ⟨e3, h3, g3⟩ := hr.rprev_some he
  obtain ⟨e5, h5, g5⟩ := hr.lnext_some g3
  obtain ⟨e6, h6, g6⟩ := hr.lprev_some he
  obtain ⟨e6', h6', g6'⟩ := hr.rprev_some g6
  obtain ⟨e7, h7, g7⟩ := hr.rnext_some he
  obtain ⟨e7', h7', g7'⟩ := hr.lnext_some g7
  refine ⟨e2.2, e3.2, e4.2, e5.2, e6'.2, e7'.2, (hv.isEdge_lt g2).2, (hv.isEdge_lt g3).2, (hv.isEdge_lt g4).2, (hv.isEdge_lt g5).2,
    (hv.isEdge_lt g6').2, (hv.isEdge_lt g7').2, ?_⟩
  unfold butterflyPoint
  rw [h2, h3, h6, h7]
  simp only [Option.bind_some]
  rw [h4, h5, h6', h7', destOrZero_edge hv g2, destOrZero_edge hv g4, destOrZero_edge hv g3, destOrZero_edge hv g5,
    destOrZero_edge hv g6', destOrZero_edge hv g7', hv.getPoint_ok (hv.isEdge_lt he).1,
    hv.getPoint_ok (hv.isEdge_lt he).2]
  rfl

variable [LinearOrder K] [IsStrictOrderedRing K] (φ : P →ᵃ[K] K) {lo hi : K}

theorem Mesh.Between.coord (h : inp.Between φ lo hi) (hv : inp.Valid) {v : PId} (hlt : v < inp.points.length) :
    lo ≤ φ (inp.coord v) ∧ φ (inp.coord v) ≤ hi := h v _ (hv.pos_eq hlt)

theorem butterfly_bulge (hv : inp.Valid) (hr : inp.RingOK) {e : Edge} (he : inp.IsEdge e) (hb : inp.Between φ lo hi) :
    lo - (hi - lo) / 4 ≤ φ (valueOf (butterflyPoint K inp) e) ∧ φ (valueOf (butterflyPoint K inp) e) ≤ hi + (hi - lo) / 4 := by
  obtain ⟨v2, v3, v4, v5, v6, v7, l2, l3, l4, l5, l6, l7, hp⟩ := butterflyPoint_form (K := K) hv hr he
  rw [valueOf_eq hp, aff_butterfly]
  simp only [smul_eq_mul]
  have b0 := hb.coord φ hv (hv.isEdge_lt he).1
  have b1 := hb.coord φ hv (hv.isEdge_lt he).2
  have b2 := hb.coord φ hv l2
  have b3 := hb.coord φ hv l3
  have b4 := hb.coord φ hv l4
  have b5 := hb.coord φ hv l5
  have b6 := hb.coord φ hv l6
  have b7 := hb.coord φ hv l7
  constructor <;> linarith [b0.1, b0.2, b1.1, b1.2, b2.1, b2.2, b3.1, b3.2, b4.1, b4.2, b5.1, b5.2, b6.1, b6.2, b7.1, b7.2]

theorem cell_bulge (hn : Scheme.butterfly.Needs inp) (hsel : inp.SelOK f.cells) (hw : lo ≤ hi)
    (h : cellUpdate .butterfly lib cosn f inp = (.ok out, f')) (hb : inp.Between φ lo hi) :
    out.Between φ (lo - (hi - lo) / 4) (hi + (hi - lo) / 4) := by
  have hv := hn.valid
  refine mem_of_dense (C := {p | lo - (hi - lo) / 4 ≤ φ p ∧ φ p ≤ hi + (hi - lo) / 4})
    (cellUpdate_result (by decide) hn hsel h).1.points fun p hp => ?_
  rcases List.mem_append.1 hp with hp | hp
  · obtain ⟨v, h1, rfl⟩ := List.mem_map.1 hp
    have := hb.coord φ hv (List.mem_range.1 h1)
    exact ⟨by show _ ≤ φ (inp.coord v); linarith [this.1], by show φ (inp.coord v) ≤ _; linarith [this.2]⟩
  · obtain ⟨e, h1, rfl⟩ := List.mem_map.1 hp
    exact butterfly_bulge φ hv (hn.ring (.inr rfl)) (selected_isEdge hv h1) hb

theorem edge_bulge (hn : Scheme.butterfly.Needs inp) (hsel : inp.EdgeSelOK f.edgeSel) (hw : lo ≤ hi)
    (h : edgeUpdate .butterfly lib cosn f inp = (.ok out, f')) (hb : inp.Between φ lo hi) :
    out.Between φ (lo - (hi - lo) / 4) (hi + (hi - lo) / 4) := by
  have hv := hn.valid
  refine mem_of_dense (C := {p | lo - (hi - lo) / 4 ≤ φ p ∧ φ p ≤ hi + (hi - lo) / 4})
    (edgeUpdate_result (sch := .butterfly) hn hsel h).points fun p hp => ?_
  rcases List.mem_append.1 hp with hp | hp
  · obtain ⟨v, h1, rfl⟩ := List.mem_map.1 hp
    have := hb.coord φ hv (List.mem_range.1 h1)
    exact ⟨by linarith [this.1], by linarith [this.2]⟩
  · obtain ⟨e, h1, rfl⟩ := List.mem_map.1 hp
    exact butterfly_bulge φ hv (hn.ring (.inr rfl)) (selectedEdges_isEdge hsel h1) hb

/-- the interval about the same middle, `k` times as long -/
theorem bulge_step (k : K) :
    lo - (k - 1) / 2 * (hi - lo) - ((hi + (k - 1) / 2 * (hi - lo)) - (lo - (k - 1) / 2 * (hi - lo))) / 4 =
      lo - (k * (3 / 2) - 1) / 2 * (hi - lo) ∧
    hi + (k - 1) / 2 * (hi - lo) + ((hi + (k - 1) / 2 * (hi - lo)) - (lo - (k - 1) / 2 * (hi - lo))) / 4 =
      hi + (k * (3 / 2) - 1) / 2 * (hi - lo) := by constructor <;> ring

theorem bulge_le {k : K} (hk : 1 ≤ k) (hw : lo ≤ hi) : lo - (k - 1) / 2 * (hi - lo) ≤ hi + (k - 1) / 2 * (hi - lo) := by
  have := mul_nonneg (show 0 ≤ (k - 1) / 2 by linarith) (sub_nonneg.2 hw)
  linarith

theorem bulge_mono {k k' : K} (hk : k ≤ k') (hw : lo ≤ hi) {m : Mesh P D}
    (h : m.Between φ (lo - (k - 1) / 2 * (hi - lo)) (hi + (k - 1) / 2 * (hi - lo))) :
    m.Between φ (lo - (k' - 1) / 2 * (hi - lo)) (hi + (k' - 1) / 2 * (hi - lo)) := by
  have := mul_le_mul_of_nonneg_right (show (k - 1) / 2 ≤ (k' - 1) / 2 by linarith) (sub_nonneg.2 hw)
  intro v p hp
  have := h v p hp
  exact ⟨by linarith [this.1], by linarith [this.2]⟩

theorem levels_bulge {f : Iter} (hl : lib.Lawful) (hn : Scheme.butterfly.Needs inp) (hsel : inp.SelOK f.cells) (hw : lo ≤ hi)
    (h : (iterUpdate .butterfly lib cosn f inp).1 = .ok out) (hb : inp.Between φ lo hi) :
    out.Between φ (lo - ((3 / 2) ^ max 1 f.levels - 1) / 2 * (hi - lo)) (hi + ((3 / 2) ^ max 1 f.levels - 1) / 2 * (hi - lo)) := by
  obtain ⟨m, s, h1, -, h2⟩ := manyLevels_count (lib := lib) (cosn := cosn) (sch := .butterfly) (fun _ => hl)
    (fun n m _ => m.Between φ (lo - ((3 / 2) ^ n - 1) / 2 * (hi - lo)) (hi + ((3 / 2) ^ n - 1) / 2 * (hi - lo)))
    (fun n m out sel f' hn hsel _ _ h hI => by
      have := cell_bulge φ (f := Filt.new.setCells sel) hn hsel (bulge_le (one_le_pow₀ (by norm_num)) hw) h hI
      rw [(bulge_step _).1, (bulge_step _).2, ← pow_succ] at this
      exact this) (max 1 f.levels) 0 hn hsel (fun h => by cases h) (by simpa using hb)
  rw [iterUpdate_eq, ← levelsOf_eq, h1] at h
  cases h
  rwa [Nat.zero_add] at h2

/-- a mesh in the interval, with `r` of `N` iterations left -/
def BulgeLeft (φ : P →ᵃ[K] K) (lo hi : K) (N r : Nat) (m : Mesh P D) : Prop :=
  ∃ k : K, 1 ≤ k ∧ k * (3 / 2) ^ r ≤ (3 / 2) ^ N ∧ m.Between φ (lo - (k - 1) / 2 * (hi - lo)) (hi + (k - 1) / 2 * (hi - lo))

theorem BulgeLeft.start (lib : QELib) (hv : inp.Valid) (hb : inp.Between φ lo hi) (N : Nat) :
    BulgeLeft φ lo hi N N (copyGeometry lib inp) := by
  refine ⟨1, le_rfl, by rw [one_mul], ?_⟩
  unfold Mesh.Between Mesh.pos at hb ⊢
  rw [copyGeometry_points lib hv]
  simpa using hb

variable {φ} in
theorem BulgeLeft.done (hw : lo ≤ hi) {N r : Nat} (h : BulgeLeft φ lo hi N r out) :
    out.Between φ (lo - ((3 / 2) ^ N - 1) / 2 * (hi - lo)) (hi + ((3 / 2) ^ N - 1) / 2 * (hi - lo)) := by
  obtain ⟨k, h1, h2, h3⟩ := h
  refine bulge_mono φ (le_trans ?_ h2) hw h3
  exact le_mul_of_one_le_right (by linarith) (one_le_pow₀ (by norm_num))

theorem condArea_bulge (hv : inp.Valid) (hl : lib.Lawful) (hw : lo ≤ hi) {n : Nat} {area : P → P → P → K} {A : K} {c c' : Cond Filt CId}
    (hb : inp.Between φ lo hi)
    (h : condGenerate lib (condCellUpd .butterfly lib cosn) (some (areaCompute area A)) n c inp = some (.ok out, c')) :
    out.Between φ (lo - ((3 / 2) ^ n - 1) / 2 * (hi - lo)) (hi + ((3 / 2) ^ n - 1) / 2 * (hi - lo)) := by
  obtain ⟨l, -, h2, hg⟩ := condArea_start (sch := .butterfly) hv (fun _ => hl) (fun h => by cases h) (n := n) (fun h => by cases h)
    (condCellUpd .butterfly lib cosn) area A c
  rw [hg] at h
  obtain ⟨_, _, h4, -⟩ := condLoop_induct (upd := condCellUpd .butterfly lib cosn) (crit := areaCompute area A)
    (fun r sel m => BulgeLeft φ lo hi n r m ∧ AreaInv .butterfly r sel m) (by
      rintro r s sel cur ⟨⟨k, g1, g2, g3⟩, H⟩ hne
      obtain ⟨m, s', sel', k1, k2, k3, k4⟩ := condArea_step (cosn := cosn) (lib := lib) (fun _ => hl) area A s H hne
      refine ⟨m, s', sel', k1, k2, ⟨k * (3 / 2), by linarith, by rw [mul_assoc, ← pow_succ']; exact g2, ?_⟩, k4⟩
      have := cell_bulge φ (f := s.setCells sel) H.needs H.selOK (bulge_le g1 hw) k1 g3
      rwa [(bulge_step _).1, (bulge_step _).2] at this) ⟨BulgeLeft.start φ lib hv hb n, h2⟩ h
  exact h4.done hw

theorem condLength_bulge (hv : inp.Valid) (hl : lib.Lawful) (hw : lo ≤ hi) {n : Nat} {len : P → P → K} {L : K}
    {c c' : Cond Filt (Option Edge)} (hb : inp.Between φ lo hi)
    (h : condGenerate lib (condEdgeUpd .butterfly lib cosn) (some (lengthCompute len L)) n c inp = some (.ok out, c')) :
    out.Between φ (lo - ((3 / 2) ^ n - 1) / 2 * (hi - lo)) (hi + ((3 / 2) ^ n - 1) / 2 * (hi - lo)) := by
  obtain ⟨l, -, h2, hg⟩ := condLength_start (sch := .butterfly) hv (fun _ => hl) (fun h => by cases h) (n := n)
    (condEdgeUpd .butterfly lib cosn) len L c
  rw [hg] at h
  obtain ⟨_, _, h4, -⟩ := condLoop_induct (upd := condEdgeUpd .butterfly lib cosn) (crit := lengthCompute len L)
    (fun r sel m => BulgeLeft φ lo hi n r m ∧ LengthInv .butterfly sel m) (by
      rintro r s sel cur ⟨⟨k, g1, g2, g3⟩, H⟩ hne
      obtain ⟨m, s', sel', k1, k2, k4⟩ := condLength_step (cosn := cosn) (lib := lib) (fun _ => hl) len L s H hne
      refine ⟨m, s', sel', k1, k2, ⟨k * (3 / 2), by linarith, by rw [mul_assoc, ← pow_succ']; exact g2, ?_⟩, k4⟩
      have := edge_bulge φ (f := s.setEdges sel) H.needs H.selOK (bulge_le g1 hw) k1 g3
      rwa [(bulge_step _).1, (bulge_step _).2] at this) ⟨BulgeLeft.start φ lib hv hb n, h2⟩ h
  exact h4.done hw

end

section closed
variable {V D : Type} [NormedAddCommGroup V] [NormedSpace ℝ V] {lib : QELib} {f' : Filt} {inp m out : Mesh V D} {δ r : ℝ}

theorem near_convex (C : Set V) (hC : Convex ℝ C) : Convex ℝ {p | ∃ q ∈ C, ‖p - q‖ ≤ r} := by
  rintro p ⟨p', hp, hpn⟩ q ⟨q', hq, hqn⟩ a b ha hb hab
  refine ⟨a • p' + b • q', hC hp hq ha hb hab, ?_⟩
  calc ‖a • p + b • q - (a • p' + b • q')‖ = ‖a • (p - p') + b • (q - q')‖ := by congr 1; module
    _ ≤ ‖a • (p - p')‖ + ‖b • (q - q')‖ := norm_add_le _ _
    _ = a * ‖p - p'‖ + b * ‖q - q'‖ := by rw [norm_smul, norm_smul, Real.norm_of_nonneg ha, Real.norm_of_nonneg hb]
    _ ≤ a * r + b * r := add_le_add (mul_le_mul_of_nonneg_left hpn ha) (mul_le_mul_of_nonneg_left hqn hb)
    _ = r := by rw [← add_mul, hab, one_mul]

/-- on a closed mesh a new point is not further than a quarter of the longest edge from the middle of its edge -/
theorem closed_bulge (hn : Scheme.butterfly.Needs m) (hc : m.Closed)
    (h : cellUpdate .butterfly lib realCos (Filt.new.setCells []) m = (.ok out, f')) (hδ : m.EdgesWithin δ) (h0 : 0 ≤ δ)
    (hr : inp.NearHull m r) : inp.NearHull out (r + 1 / 4 * δ) := by
  have hv := hn.valid
  have over : ∀ {a b c}, HasTri m.tris a b c → ∃ d, HasTri m.tris b a d := fun ht =>
    (hc.two hv (hv.isEdge_of_dart ht.dart)).2
  refine mem_of_dense (C := {p | ∃ q ∈ inp.hull ℝ, ‖p - q‖ ≤ r + 1 / 4 * δ})
    (cellUpdate_result (by decide) hn (selOK_nil _) h).1.points fun p hp => ?_
  rcases List.mem_append.1 hp with hp | hp
  · obtain ⟨v, h1, rfl⟩ := List.mem_map.1 hp
    obtain ⟨q, h2, h3⟩ := hr v _ (hv.pos_eq (List.mem_range.1 h1))
    exact ⟨q, h2, h3.trans (by linarith)⟩
  · obtain ⟨⟨a, b⟩, h1, rfl⟩ := List.mem_map.1 hp
    have he := selected_isEdge hv h1
    obtain ⟨⟨c, tc⟩, d, td⟩ := hc.two hv he
    obtain ⟨w₁, t1⟩ := over tc.rot
    obtain ⟨w₂, t2⟩ := over tc.rot.rot
    obtain ⟨w₃, t3⟩ := over td.rot
    obtain ⟨w₄, t4⟩ := over td.rot.rot
    rw [valueOf_eq (np := schemePoint .butterfly ℝ m) (butterflyPoint_inner hv (hn.ring (.inr rfl)) tc td t1 t4 t2 t3)]
    obtain ⟨q, h2, h3⟩ := near_convex _ (convex_convexHull ℝ _) (hr a _ (hv.pos_eq (hv.isEdge_lt he).1))
      (hr b _ (hv.pos_eq (hv.isEdge_lt he).2)) (show (0 : ℝ) ≤ 1 / 2 by norm_num) (show (0 : ℝ) ≤ 1 / 2 by norm_num) (by norm_num)
    refine ⟨q, h2, ?_⟩
    have off := norm_of_weighted (δ := δ) (c := 1 / 4) [(1 / 16, m.coord c - m.coord w₁), (1 / 16, m.coord c - m.coord w₂),
      (1 / 16, m.coord d - m.coord w₃), (1 / 16, m.coord d - m.coord w₄)] (by
        simp only [List.mem_cons, List.not_mem_nil, or_false]
        rintro x (rfl | rfl | rfl | rfl)
        · rw [norm_sub_rev]; exact (hδ.tri hv t1).2.2
        · exact (hδ.tri hv t2).2.1
        · rw [norm_sub_rev]; exact (hδ.tri hv t3).2.2
        · exact (hδ.tri hv t4).2.1) rfl (by norm_num [abs_of_pos]) h0
    simp only [List.map_cons, List.map_nil, List.sum_cons, List.sum_nil] at off
    refine le_trans (le_of_eq ?_) ((norm_add_le _ _).trans (add_le_add h3 off))
    congr 1
    module

/-- all levels of a uniform run on a closed mesh -/
theorem closed_levels (hl : lib.Lawful) (n : Nat) (hs : Scheme.butterfly.Shrinks m) (hδ : m.EdgesWithin δ) (h0 : 0 ≤ δ)
    (hr : inp.NearHull m r) :
    ∃ o, manyLevels .butterfly lib realCos n (m, []) = .ok (o, []) ∧ inp.NearHull o (r + 2 * δ * (1 - (7 / 8) ^ n)) := by
  induction n generalizing m δ r with
  | zero => exact ⟨m, rfl, by simpa using hr⟩
  | succ n ih =>
    obtain ⟨m1, f1, hc, h1, hs1, -, -, -⟩ := level_ok (L := n) (lib := lib) (fun _ => hl) hs (fun h => by cases h)
    obtain ⟨o, h2, h3⟩ := ih hs1 (butterfly_shrink hs.needs (hs.closed (.inl rfl)) hc hδ) (by linarith)
      (closed_bulge hs.needs (hs.closed (.inl rfl)) hc hδ h0 hr)
    refine ⟨o, ?_, ?_⟩
    · unfold manyLevels
      rw [h1]
      exact h2
    · have e : r + 1 / 4 * δ + 2 * (7 / 8 * δ) * (1 - (7 / 8) ^ n) = r + 2 * δ * (1 - (7 / 8) ^ (n + 1)) := by ring
      rwa [e] at h3

end closed
end Verif
