import Verif.Proofs.Alike
import Verif.Proofs.Coords
import Verif.Proofs.Check
import Verif.Proofs.Lawful
import Mathlib.LinearAlgebra.AffineSpace.AffineMap
import Mathlib.Algebra.BigOperators.Group.Finset.Basic
import Mathlib.Data.Finset.Card
import Mathlib.Tactic.Module
import Mathlib.Tactic.FieldSimp
/-
The stencils commute with affine maps.
-/
namespace Verif
set_option linter.unusedSectionVars false
variable {K P P' D : Type}

section mapped
variable {φ : P → P'} {inp : Mesh P D}

theorem mapPoints_length : (inp.mapPoints φ).points.length = inp.points.length := by simp [Mesh.mapPoints]

theorem Mesh.Valid.mapPoints (h : inp.Valid) : (inp.mapPoints φ).Valid where
  points_dense := by
    rw [mapPoints_length, ← h.points_dense]
    simp [Mesh.mapPoints, Function.comp_def]
  cells_sorted := h.cells_sorted
  cells_tri := by
    intro c hc
    rw [mapPoints_length]
    exact h.cells_tri c hc
  good := h.good
  left_iff := h.left_iff
  edges_iff := h.edges_iff
  edges_once := h.edges_once
  has_edge_cells := h.has_edge_cells

theorem Mesh.RingOK.mapPoints (h : inp.RingOK) : (inp.mapPoints φ).RingOK := h.congr rfl rfl rfl

theorem Mesh.NoIsolated.mapPoints (h : inp.NoIsolated) : (inp.mapPoints φ).NoIsolated := by
  intro v hv
  rw [mapPoints_length] at hv
  exact h v hv

theorem Scheme.Needs.mapPoints {sch : Scheme} (h : sch.Needs inp) : sch.Needs (inp.mapPoints φ) :=
  ⟨h.valid.mapPoints, fun hs => (h.ring hs).mapPoints, fun hs => (h.noIsolated hs).mapPoints⟩

theorem Mesh.Valid.coord_map [Zero P] [Zero P'] (h : inp.Valid) {v : PId} (hv : v < inp.points.length) :
    (inp.mapPoints φ).coord v = φ (inp.coord v) := by
  have := getPoint_map (φ := φ) inp v
  rw [h.getPoint_ok hv, h.mapPoints.getPoint_ok (by rw [mapPoints_length]; exact hv)] at this
  exact Except.ok.inj this

theorem ringFrom_map (start : Edge) (n : Nat) (cur : Edge) :
    ringFrom (inp.mapPoints φ) start n cur = ringFrom inp start n cur := by
  induction n generalizing cur with
  | zero => rfl
  | succ n ih =>
    unfold ringFrom
    have : (inp.mapPoints φ).ring = inp.ring := rfl
    rw [this]
    cases inp.ring.onext cur with
    | none => rfl
    | some nx => simp only; split <;> [rfl; rw [ih]]

theorem ringAt_map (start : Edge) : ringAt (inp.mapPoints φ) start = ringAt inp start := ringFrom_map _ _ _

theorem mapDense (l : List P) (φ : P → P') : (AMap.dense l).map (fun kp => (kp.1, φ kp.2)) = AMap.dense (l.map φ) := by
  unfold AMap.dense
  generalize 0 = i
  induction l generalizing i with
  | nil => rfl
  | cons x l ih => simp only [AMap.denseFrom, List.map_cons, ih]

end mapped

section affine
variable {K P P' D : Type} [Field K] [AddCommGroup P] [Module K P] [AddCommGroup P'] [Module K P']
variable [CharZero K] (φ : P →ᵃ[K] P')

theorem aff_eq (x : P) : φ x = φ.linear x + φ 0 := congrFun φ.decomp x

theorem aff_mid (a b : P) : φ (midPoint K a b) = midPoint K (φ a) (φ b) := by
  unfold midPoint
  rw [aff_eq φ ((1 / 2 : K) • (a + b)), aff_eq φ a, aff_eq φ b]
  simp only [map_add, map_smul]
  module

theorem aff_third (a b c : P) : φ ((1 / 3 : K) • (0 + a + b + c)) = (1 / 3 : K) • (0 + φ a + φ b + φ c) := by
  rw [zero_add, zero_add]
  rw [aff_eq φ ((1 / 3 : K) • (a + b + c)), aff_eq φ a, aff_eq φ b, aff_eq φ c]
  simp only [map_add, map_smul]
  module

theorem aff_loop (a b c d : P) : φ (0 + (3 / 8 : K) • a + (3 / 8 : K) • b + (1 / 8 : K) • c + (1 / 8 : K) • d) =
    0 + (3 / 8 : K) • φ a + (3 / 8 : K) • φ b + (1 / 8 : K) • φ c + (1 / 8 : K) • φ d := by
  rw [zero_add, zero_add]
  rw [aff_eq φ ((3 / 8 : K) • a + (3 / 8 : K) • b + (1 / 8 : K) • c + (1 / 8 : K) • d), aff_eq φ a, aff_eq φ b,
    aff_eq φ c, aff_eq φ d]
  simp only [map_add, map_smul]
  module

theorem aff_butterfly (p0 p1 p2 p3 p4 p5 p6 p7 : P) :
    φ (0 + (1 / 2 : K) • p0 + (1 / 2 : K) • p1 + (1 / 8 : K) • p2 + (1 / 8 : K) • p3
      + (-1 / 16 : K) • p4 + (-1 / 16 : K) • p5 + (-1 / 16 : K) • p6 + (-1 / 16 : K) • p7) =
    0 + (1 / 2 : K) • φ p0 + (1 / 2 : K) • φ p1 + (1 / 8 : K) • φ p2 + (1 / 8 : K) • φ p3
      + (-1 / 16 : K) • φ p4 + (-1 / 16 : K) • φ p5 + (-1 / 16 : K) • φ p6 + (-1 / 16 : K) • φ p7 := by
  rw [zero_add, zero_add]
  rw [aff_eq φ (_ + (-1 / 16 : K) • p7), aff_eq φ p0, aff_eq φ p1, aff_eq φ p2, aff_eq φ p3, aff_eq φ p4,
    aff_eq φ p5, aff_eq φ p6, aff_eq φ p7]
  simp only [map_add, map_smul]
  module

theorem aff_sum (l : List P) : (l.map φ).sum = φ.linear l.sum + (l.length : K) • φ 0 := by
  induction l with
  | nil => simp
  | cons x l ih =>
    rw [List.map_cons, List.sum_cons, ih, List.sum_cons, aff_eq φ x, map_add, List.length_cons]
    push_cast
    module

variable {inp : Mesh P D}

theorem loopPoint_map (hv : inp.Valid) (hr : inp.RingOK) {e : Edge} (he : inp.IsEdge e) :
    loopPoint K (inp.mapPoints φ) e = (loopPoint K inp e).map φ := by
  by_cases hb : e ∈ dartsOf inp.tris ∧ e.sym ∈ dartsOf inp.tris
  · obtain ⟨a, b⟩ := e
    obtain ⟨c, hc⟩ := dartsOf_iff_hasTri.1 hb.1
    obtain ⟨d, hd⟩ := dartsOf_iff_hasTri.1 hb.2
    rw [loopPoint_inner hv hr hc hd, loopPoint_inner (hv.mapPoints (φ := (φ : P → P'))) (hr.mapPoints (φ := (φ : P → P'))) hc hd]
    have h1 := (hv.isEdge_lt he).1
    have h2 := (hv.isEdge_lt he).2
    have h3 := (hv.isEdge_lt (hv.edge13 hc)).2
    have h4 := (hv.isEdge_lt (hv.edge13 hd)).2
    rw [hv.coord_map h1, hv.coord_map h2, hv.coord_map h3, hv.coord_map h4, ← aff_loop]
    rfl
  · rw [loopPoint_border hv he hb, loopPoint_border (hv.mapPoints (φ := (φ : P → P'))) he hb, hv.coord_map (hv.isEdge_lt he).1,
      hv.coord_map (hv.isEdge_lt he).2, ← aff_mid]
    rfl

theorem butterflyPoint_map (hv : inp.Valid) (hr : inp.RingOK) {e : Edge} (he : inp.IsEdge e) :
    butterflyPoint K (inp.mapPoints φ) e = (butterflyPoint K inp e).map φ := by
  obtain ⟨e2, h2, g2⟩ := hr.lnext_some he
  obtain ⟨e4, h4, g4⟩ := hr.rprev_some g2
  obtain ⟨e3, h3, g3⟩ := hr.rprev_some he
  obtain ⟨e5, h5, g5⟩ := hr.lnext_some g3
  obtain ⟨e6, h6, g6⟩ := hr.lprev_some he
  obtain ⟨e6', h6', g6'⟩ := hr.rprev_some g6
  obtain ⟨e7, h7, g7⟩ := hr.rnext_some he
  obtain ⟨e7', h7', g7'⟩ := hr.lnext_some g7
  have hd : ∀ e : Edge, inp.IsEdge e → destOrZero (inp.mapPoints φ) (some e) = .ok (φ (inp.coord e.2)) := by
    intro e he
    rw [destOrZero_edge (hv.mapPoints (φ := (φ : P → P'))) he, hv.coord_map (hv.isEdge_lt he).2]
  have hl : ∀ e : Edge, (inp.mapPoints φ).lnext e = inp.lnext e := fun _ => rfl
  have hrp : ∀ e : Edge, (inp.mapPoints φ).rprev e = inp.rprev e := fun _ => rfl
  unfold butterflyPoint
  rw [hl, hrp, show (inp.mapPoints φ).lprev e = inp.lprev e from rfl, show (inp.mapPoints φ).rnext e = inp.rnext e from rfl,
    h2, h3, h6, h7]
  simp only [Option.bind_some]
  rw [hl, hl, hrp, hrp, h4, h5, h6', h7', destOrZero_edge hv g2, destOrZero_edge hv g4, destOrZero_edge hv g3,
    destOrZero_edge hv g5, destOrZero_edge hv g6', destOrZero_edge hv g7', hd _ g2, hd _ g4, hd _ g3, hd _ g5, hd _ g6',
    hd _ g7', hv.getPoint_ok (hv.isEdge_lt he).1, hv.getPoint_ok (hv.isEdge_lt he).2,
    (hv.mapPoints (φ := (φ : P → P'))).getPoint_ok ((hv.mapPoints (φ := (φ : P → P'))).isEdge_lt he).1, (hv.mapPoints (φ := (φ : P → P'))).getPoint_ok ((hv.mapPoints (φ := (φ : P → P'))).isEdge_lt he).2,
    hv.coord_map (hv.isEdge_lt he).1, hv.coord_map (hv.isEdge_lt he).2]
  exact congrArg Except.ok (aff_butterfly φ _ _ _ _ _ _ _ _).symm

end affine

/-- a point of a mesh whose boundary does not touch itself has no boundary edge, or two -/
theorem border_edges [AddCommGroup P] {inp : Mesh P D} (hv : inp.Valid) (hsb : inp.SimpleBoundary) {v : PId} {r : List Edge}
    (hnd : r.Nodup) (hr : ∀ e, e ∈ r ↔ inp.IsEdge e ∧ e.1 = v) :
    (r.filter inp.isAtBorder).length = 0 ∨ (r.filter inp.isAtBorder).length = 2 := by
  have hmem : ∀ w, (v, w) ∈ r ↔ inp.IsEdge (v, w) := fun w => by rw [hr]; simp
  let N : Finset PId := (r.map Prod.snd).toFinset
  have hN : ∀ w, w ∈ N ↔ inp.IsEdge (v, w) := by
    intro w
    simp only [N, List.mem_toFinset, List.mem_map]
    constructor
    · rintro ⟨⟨x, y⟩, he, rfl⟩
      obtain ⟨h1, h2⟩ := (hr _).1 he
      cases h2; exact h1
    · intro hw; exact ⟨(v, w), (hmem w).2 hw, rfl⟩
  let O : Finset PId := N.filter fun w => (v, w) ∈ dartsOf inp.tris
  let I : Finset PId := N.filter fun w => (w, v) ∈ dartsOf inp.tris
  have hO : ∀ w, w ∈ O ↔ (v, w) ∈ dartsOf inp.tris := by
    intro w
    simp only [O, Finset.mem_filter, hN]
    exact ⟨fun h => h.2, fun h => ⟨hv.isEdge_of_dart h, h⟩⟩
  have hI : ∀ w, w ∈ I ↔ (w, v) ∈ dartsOf inp.tris := by
    intro w
    simp only [I, Finset.mem_filter, hN]
    exact ⟨fun h => h.2, fun h => ⟨(hv.isEdge_of_dart h).sym, h⟩⟩
  have hcard : O.card = I.card := by
    choose! nx hnx using fun w (hw : w ∈ O) => dartsOf_iff_hasTri.1 ((hO w).1 hw)
    choose! pv hpv using fun w (hw : w ∈ I) => dartsOf_iff_hasTri.1 ((hI w).1 hw)
    refine le_antisymm (Finset.card_le_card_of_injOn nx ?_ ?_) (Finset.card_le_card_of_injOn pv ?_ ?_)
    · intro w hw
      exact (hI _).2 (hnx w hw).rot.rot.dart
    · intro w hw w' hw' he
      have h1 := (hnx w hw).rot.rot
      have h2 := (hnx w' hw').rot.rot
      rw [← he] at h2
      exact hv.good.hasTri_unique h1 h2
    · intro w hw
      exact (hO _).2 (hpv w hw).rot.dart
    · intro w hw w' hw' he
      have h1 := (hpv w hw).rot
      have h2 := (hpv w' hw').rot
      rw [← he] at h2
      exact hv.good.hasTri_unique h1 h2
  have h1 : (O \ I).card ≤ 1 := by
    rw [Finset.card_le_one]
    intro a ha b hb
    rw [Finset.mem_sdiff, hO, hI] at ha hb
    exact (Prod.mk.inj ((hsb (v, a) (v, b) ha hb).1 rfl)).2
  have hdiff : (O \ I).card = (I \ O).card := Finset.card_sdiff_comm hcard
  have hlen : (r.filter inp.isAtBorder).length = (O \ I).card + (I \ O).card := by
    rw [← Finset.card_union_of_disjoint (by
      rw [Finset.disjoint_left]
      intro a ha hb
      exact (Finset.mem_sdiff.1 hb).2 (Finset.mem_sdiff.1 ha).1)]
    have hinj : ((r.filter inp.isAtBorder).map Prod.snd).Nodup := by
      refine (List.nodup_map_iff_inj_on (hnd.filter _)).2 ?_
      rintro ⟨a, b⟩ h1 ⟨a', b'⟩ h2 h3
      have e1 := ((hr _).1 (List.mem_filter.1 h1).1).2
      have e2 := ((hr _).1 (List.mem_filter.1 h2).1).2
      simp only at e1 e2 h3
      rw [e1, e2, h3]
    rw [← List.length_map (f := Prod.snd), ← List.toFinset_card_of_nodup hinj]
    congr 1
    ext w
    simp only [List.mem_toFinset, List.mem_map, List.mem_filter, Finset.mem_union, Finset.mem_sdiff, hO, hI]
    constructor
    · rintro ⟨⟨x, y⟩, ⟨h1, h2⟩, rfl⟩
      obtain ⟨h3, h4⟩ := (hr _).1 h1
      simp only at h4
      subst h4
      rw [hv.isAtBorder_iff h3] at h2
      have h5 : (x, y) ∈ dartsOf inp.tris ∨ (y, x) ∈ dartsOf inp.tris := (hv.edges_iff _).1 h3
      have h6 : ¬ ((x, y) ∈ dartsOf inp.tris ∧ (y, x) ∈ dartsOf inp.tris) := h2
      tauto
    · intro h
      have h3 : inp.IsEdge (v, w) := by
        rcases h with h | h
        · exact hv.isEdge_of_dart h.1
        · exact (hv.isEdge_of_dart h.1).sym
      refine ⟨(v, w), ⟨(hmem w).2 h3, (hv.isAtBorder_iff h3).2 ?_⟩, rfl⟩
      change ¬ ((v, w) ∈ dartsOf inp.tris ∧ (w, v) ∈ dartsOf inp.tris)
      tauto
  omega

section affine
variable {K P P' D : Type} [Field K] [AddCommGroup P] [Module K P] [AddCommGroup P'] [Module K P']
variable [CharZero K] (φ : P →ᵃ[K] P') {inp : Mesh P D}

theorem smoothed_map (cosn : Nat → K) (hv : inp.Valid) (r : List Edge) (hr : ∀ e ∈ r, inp.IsEdge e)
    (hb : (r.filter inp.isAtBorder).length = 0 ∨ (r.filter inp.isAtBorder).length = 2) (p : P) :
    smoothed cosn (inp.mapPoints φ) r (φ p) = φ (smoothed cosn inp r p) := by
  have hs : ∀ l : List Edge, (∀ e ∈ l, inp.IsEdge e) → (l.map fun e => (inp.mapPoints φ).coord e.2) =
      (l.map fun e => inp.coord e.2).map φ := by
    intro l hl
    rw [List.map_map]
    exact List.map_congr_left fun e he => hv.coord_map (hv.isEdge_lt (hl e he)).2
  have hsum : ∀ l : List Edge, (∀ e ∈ l, inp.IsEdge e) → (l.map fun e => (inp.mapPoints φ).coord e.2).sum =
      φ.linear (l.map fun e => inp.coord e.2).sum + (l.length : K) • φ 0 := by
    intro l hl
    rw [hs l hl, aff_sum, List.length_map]
  have hbm : (inp.mapPoints φ).isAtBorder = inp.isAtBorder := rfl
  simp only [smoothed, added_eq]
  rw [hbm, hsum r hr, hsum _ (fun e he => hr e (List.mem_of_mem_filter he))]
  rcases hb with hb | hb
  · rw [if_neg (by simpa using hb), if_neg (by simpa using hb), aff_eq φ p, aff_eq φ (_ + _)]
    simp only [map_add, map_smul]
    module
  · rw [if_pos (by simp [hb]), if_pos (by simp [hb]), hb, aff_eq φ p, aff_eq φ (_ + _)]
    simp only [map_add, map_smul]
    push_cast
    module

theorem smoothingPoint_map (cosn : Nat → K) (hv : inp.Valid) (hr : inp.RingOK) (hsb : inp.SimpleBoundary) {v w : PId}
    (hw : inp.IsEdge (v, w)) (p : P) :
    smoothingPoint cosn (inp.mapPoints φ) v (φ p) = (smoothingPoint cosn inp v p).map φ := by
  obtain ⟨e, he⟩ := Option.isSome_iff_exists.1 (hr.point_edge_some _ hw)
  obtain ⟨h1, h2⟩ := hr.point_edge _ _ he
  obtain ⟨r, h3, h4, h5⟩ := ringAt_ok hr h1
  simp only at h2 he
  rw [h2] at h5
  have hall : ∀ e' ∈ r, inp.IsEdge e' := fun e' he' => ((h5 e').1 he').1
  have key : ∀ {P : Type} [AddCommGroup P] [Module K P] {m : Mesh P D} (hv : m.Valid) (p : P),
      m.ring.pointEdge v = some e → ringAt m e = .ok r → (∀ e' ∈ r, m.IsEdge e') →
      smoothingPoint cosn m v p = .ok (smoothed cosn m r p) := by
    intro P _ _ m hv p he h3 hall
    unfold smoothingPoint
    rw [he]
    simp only
    rw [h3]
    show (sumDest m r).bind _ = _
    rw [sumDest_ok hv r hall]
    show (sumDest m (r.filter m.isAtBorder)).bind _ = _
    rw [sumDest_ok hv _ (fun e' he' => hall e' (List.mem_of_mem_filter he'))]
    unfold smoothed
    show (if _ then _ else _) = _
    split <;> rfl
  rw [key hv p he h3 hall, key (hv.mapPoints (φ := (φ : P → P'))) (φ p) he ((ringAt_map e).trans h3) hall,
    smoothed_map φ cosn hv r hall (border_edges hv hsb h4 h5)]
  rfl

theorem loopBase_map (cosn : Nat → K) (hv : inp.Valid) (hr : inp.RingOK) (hn : inp.NoIsolated) (hsb : inp.SimpleBoundary)
    (f : Filt) {v : PId} (hvn : v < inp.points.length) :
    loopBase cosn (inp.mapPoints φ) f v = φ (loopBase cosn inp f v) := by
  obtain ⟨w, hw⟩ := hn.edge hv hvn
  obtain ⟨r, _, _, h⟩ := smoothingPoint_ok cosn hv hr hw (inp.coord v)
  have hm := smoothingPoint_map φ cosn hv hr hsb hw (inp.coord v)
  rw [h] at hm
  unfold loopBase
  split
  · rw [valueOf_eq (np := fun v => smoothingPoint cosn inp v (inp.coord v)) h]
    refine valueOf_eq (np := fun v => smoothingPoint cosn (inp.mapPoints φ) v ((inp.mapPoints φ).coord v)) ?_
    rw [hv.coord_map hvn, hm]
    rfl
  · exact hv.coord_map hvn

theorem loopCopy_alike (cosn : Nat → K) (hv : inp.Valid) (hr : inp.RingOK) (hn : inp.NoIsolated)
    (hsb : inp.SimpleBoundary) {f : Filt} (hsel : inp.SelOK f.cells) :
    ResRel Eq (loopCopy cosn inp ⟨f, Mesh.empty⟩).1 (loopCopy cosn (inp.mapPoints φ) ⟨f, Mesh.empty⟩).1 ∧
    AlikeStart φ (loopCopy cosn inp ⟨f, Mesh.empty⟩).2 (loopCopy cosn (inp.mapPoints φ) ⟨f, Mesh.empty⟩).2 := by
  rw [loopCopy_ok cosn hv hr hn f hsel, loopCopy_ok cosn (hv.mapPoints (φ := (φ : P → P'))) (hr.mapPoints (φ := (φ : P → P'))) (hn.mapPoints (φ := (φ : P → P'))) f hsel]
  refine ⟨rfl, ⟨?_, rfl⟩⟩
  have key : (List.range (inp.mapPoints φ).points.length).map (loopBase cosn (inp.mapPoints φ) f) =
      ((List.range inp.points.length).map (loopBase cosn inp f)).map φ := by
    rw [mapPoints_length, List.map_map]
    exact List.map_congr_left fun v hv' => loopBase_map φ cosn hv hr hn hsb f (List.mem_range.1 hv')
  rw [key, ← mapDense]
  rfl

end affine
end Verif
