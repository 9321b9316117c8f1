import Verif.Proofs.ListingSqrt3
import Verif.Proofs.Levels
import Verif.Spec.Ternary
import Mathlib.Tactic.Module
/-
Two uniform levels of the √3 split, as one ternary split.
-/
namespace Verif
set_option linter.unusedSectionVars false

theorem hasTri_ninths {mid near : Edge → PId} {T S : List Tri} {p q r : PId} :
    HasTri (T.flatMap (Tri.ninths mid near S)) p q r ↔
      ∃ x y z, HasTri T x y z ∧ ∃ d ∈ thirdAt mid near S x y z, d.Is p q r := by
  rw [hasTri_iff]
  constructor
  · rintro ⟨d, hd, hi⟩
    obtain ⟨t, ht, hd⟩ := List.mem_flatMap.1 hd
    have h0 : HasTri T t.1 t.2.1 t.2.2 := Or.inl ht
    unfold Tri.ninths at hd
    rcases List.mem_append.1 hd with hd | hd
    · rcases List.mem_append.1 hd with hd | hd
      · exact ⟨_, _, _, h0, d, hd, hi⟩
      · exact ⟨_, _, _, h0.rot, d, hd, hi⟩
    · exact ⟨_, _, _, h0.rot.rot, d, hd, hi⟩
  · rintro ⟨x, y, z, hT, d, hd, hi⟩
    obtain ⟨t, ht, hxyz⟩ := hasTri_iff.1 hT
    refine ⟨d, List.mem_flatMap.2 ⟨t, ht, ?_⟩, hi⟩
    unfold Tri.ninths
    rcases hxyz with rfl | rfl | rfl
    · exact List.mem_append_left _ (List.mem_append_left _ hd)
    · exact List.mem_append_right _ hd
    · exact List.mem_append_left _ (List.mem_append_right _ hd)

section
variable {T : List Tri} {σ τ : Edge → Option PId}

/-- the new point of the first level -/
def midOf (σ : Edge → Option PId) (e : Edge) : PId := (σ e).getD 0

/-- the directed edge at which the triangle with the second new point was made -/
def nearBase (T : List Tri) (e : Edge) : Edge := if e.sym ∈ dartsOf T then e.sym else e

/-- the new point of the second level near `e.1` -/
def nearOf (T : List Tri) (σ τ : Edge → Option PId) (e : Edge) : PId :=
  (τ ((nearBase T e).2, midOf σ (nearBase T e))).getD 0

/-- two uniform levels -/
structure TwoLevels (T : List Tri) (σ τ : Edge → Option PId) : Prop where
  good : GoodTris T
  first : Centres T σ
  second : Centres (T.flatMap (Tri.sq3 σ)) τ
  all : ∀ e ∈ dartsOf T, (σ e).isSome
  all2 : ∀ e ∈ dartsOf (T.flatMap (Tri.sq3 σ)), (τ e).isSome

namespace TwoLevels
variable (L : TwoLevels T σ τ)
include L

theorem mid_some {e : Edge} (he : e ∈ dartsOf T) : σ e = some (midOf σ e) := by
  obtain ⟨v, hv⟩ := Option.isSome_iff_exists.1 (L.all e he)
  unfold midOf; rw [hv]; rfl

theorem some_iff {e : Edge} : (∃ v, σ e = some v) ↔ e ∈ dartsOf T :=
  ⟨fun ⟨_, h⟩ => L.first.only _ _ h, fun h => ⟨_, L.mid_some h⟩⟩

theorem none_iff {e : Edge} : σ e = none ↔ e ∉ dartsOf T := by
  rw [← L.some_iff]
  rcases σ e <;> simp

theorem piece {e : Edge} (he : e ∈ dartsOf T) : sq3Piece σ (midOf σ e) e ∈ T.flatMap (Tri.sq3 σ) :=
  (mem_sq3 L.first).2 (Or.inr ⟨e, _, L.mid_some he, rfl⟩)

/-- the second new point of the triangle made at `e`, at any of its edges -/
theorem near_sym {e d : Edge} (he : e ∈ dartsOf T) (hd : d ∈ (sq3Piece σ (midOf σ e) e).darts) :
    τ d = some (nearOf T σ τ e.sym) := by
  have h1 : nearBase T e.sym = e := by
    unfold nearBase
    have : e.sym.sym = e := rfl
    rw [this, if_pos he]
  have h2 := L.second.same _ (L.piece he) d hd (e.2, midOf σ e) sq3Piece_main
  unfold nearOf
  rw [h1, h2]
  obtain ⟨v, hv⟩ := Option.isSome_iff_exists.1 (L.all2 _ (mem_dartsOf.2 ⟨_, L.piece he, sq3Piece_main⟩))
  rw [hv]; rfl

theorem near_in {e : Edge} (he : e ∈ dartsOf T) : τ (e.2, midOf σ e) = some (nearOf T σ τ e.sym) :=
  L.near_sym he sq3Piece_main

theorem near_rim {e : Edge} (hs : e.sym ∉ dartsOf T) (he : e ∈ dartsOf T) : nearOf T σ τ e = nearOf T σ τ e.sym := by
  unfold nearOf nearBase
  have : e.sym.sym = e := rfl
  rw [this, if_pos he, if_neg hs]

theorem near_out {e : Edge} (he : e ∈ dartsOf T) : τ (midOf σ e, e.1) = some (nearOf T σ τ e) := by
  by_cases hs : e.sym ∈ dartsOf T
  · have h := L.near_sym (d := (midOf σ e, e.1)) hs (by
      unfold sq3Piece
      have : e.sym.sym = e := rfl
      rw [this, L.mid_some he]
      simp [Tri.darts, Edge.sym])
    exact h
  · have h := L.near_sym (d := (midOf σ e, e.1)) he (by
      unfold sq3Piece
      rw [L.none_iff.2 hs]
      simp [Tri.darts])
    rw [h, L.near_rim hs he]

theorem mid_same {x y z : PId} (h : HasTri T x y z) : midOf σ (x, y) = midOf σ (z, x) := by
  obtain ⟨t, ht, hi⟩ := hasTri_iff.1 h
  unfold midOf
  rw [L.first.same t ht _ hi.dart _ hi.rot.rot.dart]

theorem hasTri_of {e : Edge} (he : e ∈ dartsOf T) : ∃ z, HasTri T e.1 e.2 z := dartsOf_iff_hasTri.1 he

/-- the triangles of the second level are those of the ternary split -/
theorem newTri_iff {p q r : PId} :
    NewTri τ p q r ↔ HasTri (T.flatMap (Tri.ninths (midOf σ) (nearOf T σ τ) T)) p q r := by
  rw [hasTri_ninths]
  have hin : ∀ {x y z}, HasTri T x y z → (x, y) ∈ dartsOf T := fun h => dartsOf_iff_hasTri.2 ⟨_, h⟩
  -- the edges between a corner and the middle of the triangle
  have hC : ∀ {x y z}, HasTri T x y z → τ (midOf σ (x, y), x) = some (nearOf T σ τ (x, y)) ∧
      τ (x, midOf σ (x, y)) = some (nearOf T σ τ (x, z)) := fun {x y z} h =>
    ⟨L.near_out (hin h), by rw [L.mid_same h]; exact L.near_in (hin h.rot.rot)⟩
  -- the edges across
  have hX : ∀ {x y}, (x, y) ∈ dartsOf T → (y, x) ∈ dartsOf T →
      τ (midOf σ (x, y), midOf σ (y, x)) = some (nearOf T σ τ (y, x)) := fun {x y} h h' =>
    L.near_sym (d := (midOf σ (x, y), midOf σ (y, x))) h (by
      unfold sq3Piece
      rw [show Edge.sym (x, y) = (y, x) from rfl, L.mid_some h']
      simp [Tri.darts])
  -- the edges at the rim
  have hR : ∀ {x y}, (x, y) ∈ dartsOf T → (y, x) ∉ dartsOf T → τ (x, y) = some (nearOf T σ τ (x, y)) ∧ τ (y, x) = none := by
    intro x y h h'
    constructor
    · rw [L.near_rim (e := (x, y)) h' h]
      exact L.near_sym h (by
        unfold sq3Piece
        rw [show Edge.sym (x, y) = (y, x) from rfl, L.none_iff.2 h']
        simp [Tri.darts])
    · rcases hτ : τ (y, x) with _ | w
      · rfl
      · have hb := (boundary_sq3 L.first (e := (x, y))).2 (mem_boundaryOf.2 ⟨h, h'⟩)
        exact absurd (L.second.only _ _ hτ) (mem_boundaryOf.1 hb).2
  constructor
  · rintro ⟨⟨d1, d2⟩, w, hw, hi⟩
    unfold sq3Piece at hi
    rw [show Edge.sym (d1, d2) = (d2, d1) from rfl] at hi
    rcases dart_cases L.first (L.second.only _ _ hw) with ⟨h1, h2⟩ | ⟨e, v, h1, rfl, rfl⟩ | ⟨e, v, h1, rfl, rfl⟩ |
        ⟨e, v, v', h1, h2, rfl, rfl⟩
    · have h3 : (d2, d1) ∉ dartsOf T := by
        rcases h2 with h2 | h2
        · exact absurd h1 (L.none_iff.1 h2)
        · exact L.none_iff.1 h2
      obtain ⟨z, hz⟩ := dartsOf_iff_hasTri.1 h1
      obtain ⟨r1, r2⟩ := hR h1 h3
      rw [r1] at hw
      cases hw
      rw [r2] at hi
      refine ⟨d1, d2, z, hz, _, ?_, hi⟩
      unfold thirdAt
      rw [if_neg h3]
      simp
    · have he := L.first.only _ _ h1
      obtain ⟨x, y⟩ := e
      obtain ⟨z, hz⟩ := dartsOf_iff_hasTri.1 he
      have hm : midOf σ (x, y) = d2 := by unfold midOf; rw [h1]; rfl
      have hm' : midOf σ (y, z) = d2 := by rw [L.mid_same hz.rot, hm]
      obtain ⟨c1, c2⟩ := hC hz.rot
      rw [hm'] at c1 c2
      change τ (y, d2) = _ at hw
      rw [c2] at hw
      cases hw
      change Tri.Is (match τ (d2, y) with | none => _ | some v' => _) p q r at hi
      rw [c1] at hi
      refine ⟨y, z, x, hz.rot, (d2, nearOf T σ τ (y, x), nearOf T σ τ (y, z)), ?_, ?_⟩
      · unfold thirdAt
        rw [hm']
        simp
      · rcases hi with hi | hi | hi <;> cases hi <;> simp [Tri.Is]
    · have he := L.first.only _ _ h1
      obtain ⟨x, y⟩ := e
      obtain ⟨z, hz⟩ := dartsOf_iff_hasTri.1 he
      have hm : midOf σ (x, y) = d1 := by unfold midOf; rw [h1]; rfl
      obtain ⟨c1, c2⟩ := hC hz
      rw [hm] at c1 c2
      change τ (d1, x) = _ at hw
      rw [c1] at hw
      cases hw
      change Tri.Is (match τ (x, d1) with | none => _ | some v' => _) p q r at hi
      rw [c2] at hi
      refine ⟨x, y, z, hz, (x, nearOf T σ τ (x, y), nearOf T σ τ (x, z)), ?_, ?_⟩
      · unfold thirdAt
        simp
      · rcases hi with hi | hi | hi <;> cases hi <;> simp [Tri.Is]
    · have he := L.first.only _ _ h1
      have he' := L.first.only _ _ h2
      obtain ⟨x, y⟩ := e
      change (y, x) ∈ _ at he'
      change σ (y, x) = _ at h2
      obtain ⟨z, hz⟩ := dartsOf_iff_hasTri.1 he'
      have hm : midOf σ (x, y) = d1 := by unfold midOf; rw [h1]; rfl
      have hm' : midOf σ (y, x) = d2 := by unfold midOf; rw [h2]; rfl
      have c1 := hX he he'
      have c2 := hX he' he
      rw [hm, hm'] at c1 c2
      rw [c1] at hw
      cases hw
      rw [c2] at hi
      refine ⟨y, x, z, hz, (d2, nearOf T σ τ (y, x), nearOf T σ τ (x, y)), ?_, ?_⟩
      · unfold thirdAt
        rw [hm', if_pos he]
        simp
      · rcases hi with hi | hi | hi <;> cases hi <;> simp [Tri.Is]
  · rintro ⟨x, y, z, hz, d, hd, hi⟩
    have he := hin hz
    obtain ⟨c1, c2⟩ := hC hz
    unfold thirdAt at hd
    simp only [List.mem_cons, List.not_mem_nil, or_false] at hd
    rcases hd with rfl | rfl | rfl
    · refine ⟨(midOf σ (x, y), x), _, c1, ?_⟩
      unfold sq3Piece
      rw [show Edge.sym (midOf σ (x, y), x) = (x, midOf σ (x, y)) from rfl, c2]
      rcases hi with hi | hi | hi <;> cases hi <;> simp [Tri.Is]
    · refine ⟨(x, midOf σ (x, y)), _, c2, ?_⟩
      unfold sq3Piece
      rw [show Edge.sym (x, midOf σ (x, y)) = (midOf σ (x, y), x) from rfl, c1]
      rcases hi with hi | hi | hi <;> cases hi <;> simp [Tri.Is]
    · by_cases hs : (y, x) ∈ dartsOf T
      · rw [if_pos hs] at hi
        refine ⟨(midOf σ (y, x), midOf σ (x, y)), _, hX hs he, ?_⟩
        unfold sq3Piece
        rw [show Edge.sym (midOf σ (y, x), midOf σ (x, y)) = (midOf σ (x, y), midOf σ (y, x)) from rfl, hX he hs]
        rcases hi with hi | hi | hi <;> cases hi <;> simp [Tri.Is]
      · rw [if_neg hs] at hi
        obtain ⟨r1, r2⟩ := hR he hs
        refine ⟨(x, y), _, r1, ?_⟩
        unfold sq3Piece
        rw [show Edge.sym (x, y) = (y, x) from rfl, r2]
        exact hi

theorem near_own {e e' : Edge} (he : e ∈ dartsOf T ∨ e.sym ∈ dartsOf T) (he' : e' ∈ dartsOf T ∨ e'.sym ∈ dartsOf T)
    (h : nearOf T σ τ e = nearOf T σ τ e') : e = e' ∨ (e' = e.sym ∧ (RimEdge T e ∨ RimEdge T e.sym)) := by
  have hb : ∀ {e : Edge}, (e ∈ dartsOf T ∨ e.sym ∈ dartsOf T) → nearBase T e ∈ dartsOf T ∧
      τ ((nearBase T e).2, midOf σ (nearBase T e)) = some (nearOf T σ τ e) := by
    intro e he
    have h1 : nearBase T e ∈ dartsOf T := by
      unfold nearBase
      by_cases h : e.sym ∈ dartsOf T
      · rwa [if_pos h]
      · rw [if_neg h]; exact he.resolve_right h
    refine ⟨h1, ?_⟩
    obtain ⟨v, hv⟩ := Option.isSome_iff_exists.1 (L.all2 _ (mem_dartsOf.2 ⟨_, L.piece h1, sq3Piece_main⟩))
    unfold nearOf
    rw [hv]; rfl
  obtain ⟨b1, b2⟩ := hb he
  obtain ⟨b1', b2'⟩ := hb he'
  rw [← h] at b2'
  have hin := L.second.inj _ _ _ b2 b2' _ (L.piece b1) sq3Piece_main
  have hbase : nearBase T e = nearBase T e' := sq3_unique L.good L.first (L.mid_some b1) (L.mid_some b1') hin sq3Piece_main
  have hs : ∀ {a b : Edge}, a.sym = b.sym → a = b := fun {a b} h => by
    rw [← show a.sym.sym = a from rfl, h]; rfl
  unfold nearBase at hbase
  by_cases c1 : e.sym ∈ dartsOf T <;> by_cases c2 : e'.sym ∈ dartsOf T
  · rw [if_pos c1, if_pos c2] at hbase
    exact Or.inl (hs hbase)
  · rw [if_pos c1, if_neg c2] at hbase
    refine Or.inr ⟨hbase.symm, Or.inr ⟨c1, ?_⟩⟩
    rw [hbase]; exact c2
  · rw [if_neg c1, if_pos c2] at hbase
    refine Or.inr ⟨?_, Or.inl ⟨he.resolve_right c1, c1⟩⟩
    rw [hbase]; rfl
  · rw [if_neg c1, if_neg c2] at hbase
    exact Or.inl hbase

end TwoLevels
end

section
variable {K P D : Type} [Field K] [AddCommGroup P] [Module K P]
variable {lib : QELib} {cosn : Nat → K} {f f' g g' : Filt} {inp m out : Mesh P D}

theorem sq3_count (hv : inp.Valid) (hf : f.cells = []) (hmax : inp.points.length + inp.tris.length ≤ idMax)
    (h : cellUpdate .sqrt3 lib cosn f inp = (.ok out, f')) :
    out.tris.length = 3 * inp.tris.length ∧ out.points.length = inp.points.length + inp.tris.length := by
  have hsel : inp.SelOK f.cells := by rw [hf]; exact fun k hk => by cases hk
  have hs : inp.selected f.cells = inp.tris := by rw [hf]; rfl
  obtain ⟨o, g, h1, -, h3, h4, -⟩ := C11_sqrt3_completes (f := f) lib cosn hv hsel (by rw [hs]; exact hmax)
  rw [h] at h1
  cases h1
  obtain ⟨h5, h6⟩ := h4 hf
  rw [← hv.tris_length] at h5 h6
  exact ⟨by omega, h6⟩

/-- two uniform runs of the SquareThree filter, one on the output of the other -/
theorem ternary_of_two [CharZero K] (hv : inp.Valid) (hf : f.cells = []) (hg : g.cells = [])
    (hmax : inp.points.length + inp.tris.length ≤ idMax) (hmax' : m.points.length + m.tris.length ≤ idMax)
    (h : cellUpdate .sqrt3 lib cosn f inp = (.ok m, f')) (h' : cellUpdate .sqrt3 lib cosn g m = (.ok out, g')) :
    TernarySplit K inp out (midOf (inp.centreOf f.cells))
      (nearOf inp.tris (inp.centreOf f.cells) (m.centreOf g.cells)) := by
  have hsel : inp.SelOK f.cells := by rw [hf]; exact fun k hk => by cases hk
  have hsel' : m.SelOK g.cells := by rw [hg]; exact fun k hk => by cases hk
  have hs : inp.selected f.cells = inp.tris := by rw [hf]; rfl
  have hs' : m.selected g.cells = m.tris := by rw [hg]; rfl
  have hm : inp.points.length + (inp.selected f.cells).length ≤ idMax := by rw [hs]; exact hmax
  have hm' : m.points.length + (m.selected g.cells).length ≤ idMax := by rw [hs']; exact hmax'
  have A := sqrt3Update_result hv hsel hm h
  have hmv := (C13_sqrt3_valid hv hsel hm h).1
  have B := sqrt3Update_result hmv hsel' hm' h'
  have k1 := C06_original_points_kept (by decide) hv.points_dense h
  have k2 := C06_original_points_kept (by decide) hmv.points_dense h'
  obtain ⟨n1, n2⟩ := sq3_count hv hf hmax h
  obtain ⟨n3, n4⟩ := sq3_count hmv hg hmax' h'
  have hP := A.tris hv
  have hdm : ∀ {e : Edge}, e ∈ dartsOf m.tris ↔ e ∈ dartsOf (inp.tris.flatMap (Tri.sq3 (inp.centreOf f.cells))) := by
    intro e
    rw [mem_dartsOf, mem_dartsOf]
    exact exists_congr fun t => and_congr_left fun _ => hP.mem_iff
  have L : TwoLevels inp.tris (inp.centreOf f.cells) (m.centreOf g.cells) := by
    refine ⟨hv.good, A.centres, ?_, ?_, ?_⟩
    · exact ⟨fun e v h => hdm.1 (B.centres.only e v h), fun t ht => B.centres.same t (hP.mem_iff.2 ht),
        fun e v h t ht => B.centres.fresh e v h t (hP.mem_iff.2 ht),
        fun e e' v h h' t ht => B.centres.inj e e' v h h' t (hP.mem_iff.2 ht)⟩
    · intro e he
      obtain ⟨t, ht, hd⟩ := mem_dartsOf.1 he
      exact (centreOf_isSome hv ht hd).2 (by rw [hs]; exact ht)
    · intro e he
      obtain ⟨t, ht, hd⟩ := mem_dartsOf.1 (hdm.2 he)
      exact (centreOf_isSome hmv ht hd).2 (by rw [hs']; exact ht)
  have hlen : ∀ {e : Edge} {w : PId}, m.centreOf g.cells e = some w →
      inp.points.length + inp.tris.length ≤ w ∧ w < out.points.length := by
    intro e w hw
    obtain ⟨b1, b2⟩ := B.fresh e w hw
    rw [← B.points_length] at b2
    rw [n2] at b1
    exact ⟨b1, b2⟩
  have hpos : ∀ {e : Edge} {c : PId} {w : PId}, m.centreOf g.cells e = some w → HasTri m.tris e.1 e.2 c →
      out.pos w = some (m.centroid K (e.1, e.2, c)) := fun h1 h2 => centre_pos hmv hsel' hm' h' h2 h1
  have hcoord : ∀ {x : Mesh P D} {v : PId} {p : P}, x.pos v = some p → x.coord v = p := by
    intro x v p h
    show (x.pos v).getD 0 = p
    rw [h]; rfl
  have hin : ∀ {x y z}, HasTri inp.tris x y z → (x, y) ∈ dartsOf inp.tris := fun h => dartsOf_iff_hasTri.2 ⟨_, h⟩
  have hmid : ∀ {a b c pa pb pc}, HasTri inp.tris a b c → inp.pos a = some pa → inp.pos b = some pb →
      inp.pos c = some pc → m.pos (midOf (inp.centreOf f.cells) (a, b)) = some ((1 / 3 : K) • (pa + pb + pc)) := by
    intro a b c pa pb pc hT ha hb hc
    rw [centre_pos hv hsel hm h hT (L.mid_some (hin hT))]
    unfold Mesh.centroid
    simp only [hcoord ha, hcoord hb, hcoord hc, zero_add]
  have hpiece : ∀ {e : Edge}, e ∈ dartsOf inp.tris →
      sq3Piece (inp.centreOf f.cells) (midOf (inp.centreOf f.cells) e) e ∈ m.tris := fun he => hP.mem_iff.2 (L.piece he)
  refine ⟨?_, by omega, by omega, ?_, ?_, ?_, ?_, ?_, ?_, fun v p hp => k2 v p (k1 v p hp), ?_, ?_, ?_⟩
  · intro p q r
    rw [sqrt3_hasTri B hmv, L.newTri_iff]
    refine ⟨?_, Or.inr⟩
    rintro (⟨c1, c2⟩ | c1)
    · obtain ⟨t, ht, hi⟩ := hasTri_iff.1 c1
      have := (centreOf_isSome hmv (sel := g.cells) ht hi.dart).2 (by rw [hs']; exact ht)
      rw [c2] at this
      cases this
    · exact c1
  · intro e he
    obtain ⟨b1, b2⟩ := A.fresh e _ (L.mid_some he)
    rw [← A.points_length, n2] at b2
    exact ⟨b1, b2⟩
  · intro t ht e he e' he'
    unfold midOf
    rw [A.centres.same t ht e he e' he']
  · intro t ht t' ht' e he e' he' hmm
    have c1 := L.mid_some (mem_dartsOf.2 ⟨t, ht, he⟩)
    have c2 := L.mid_some (mem_dartsOf.2 ⟨t', ht', he'⟩)
    rw [← hmm] at c2
    exact hv.good.eq_of_dart ht ht' (A.centres.inj _ _ _ c1 c2 t ht he) he'
  · intro e he
    exact ⟨(hlen (L.near_out he)).1, (hlen (L.near_out he)).2, (hlen (L.near_in he)).1, (hlen (L.near_in he)).2⟩
  · rintro e ⟨h1, h2⟩
    exact L.near_rim h2 h1
  · exact fun e e' h1 h2 h3 => L.near_own h1 h2 h3
  · intro a b c pa pb pc hT ha hb hc
    exact k2 _ _ (hmid hT ha hb hc)
  · intro a b c d pa pb pc pd hT hT' ha hb hc hd
    have e1 := hin hT
    have e2 := hin hT'
    have hp := hpiece e2
    unfold sq3Piece at hp
    rw [show Edge.sym (b, a) = (a, b) from rfl, L.mid_some e1] at hp
    have hw := L.near_sym (d := (midOf (inp.centreOf f.cells) (b, a), midOf (inp.centreOf f.cells) (a, b))) e2 (by
      unfold sq3Piece
      rw [show Edge.sym (b, a) = (a, b) from rfl, L.mid_some e1]
      simp [Tri.darts])
    refine (hpos hw (Or.inl hp)).trans ?_
    unfold Mesh.centroid
    simp only [hcoord (hmid hT ha hb hc), hcoord (hmid hT' hb ha hd), hcoord (k1 _ _ ha), zero_add]
    congr 1
    module
  · intro a b c pa pb pc hT hn ha hb hc
    have e1 := hin hT
    have hp := hpiece e1
    unfold sq3Piece at hp
    rw [show Edge.sym (a, b) = (b, a) from rfl, L.none_iff.2 hn] at hp
    have hw := L.near_sym (d := (a, b)) e1 (by
      unfold sq3Piece
      rw [show Edge.sym (a, b) = (b, a) from rfl, L.none_iff.2 hn]
      simp [Tri.darts])
    rw [L.near_rim (e := (a, b)) hn e1]
    refine (hpos hw (Or.inl hp)).trans ?_
    unfold Mesh.centroid
    simp only [hcoord (hmid hT ha hb hc), hcoord (k1 _ _ ha), hcoord (k1 _ _ hb), zero_add]
    congr 1
    module

theorem oneLevel_cell {sch : Scheme} {m m' : Mesh P D} {sel sel' : List CId}
    (h : oneLevel sch lib cosn (m, sel) = .ok (m', sel')) :
    ∃ f', cellUpdate sch lib cosn (Filt.new.setCells sel) m = (.ok m', f') ∧ f'.cells = sel' := by
  unfold oneLevel at h
  rcases hc : cellUpdate sch lib cosn (Filt.new.setCells sel) m with ⟨r, f'⟩
  simp only [hc] at h
  cases r with
  | error e => cases h
  | ok out =>
    obtain ⟨rfl, rfl⟩ := Prod.mk.inj (Except.ok.inj h)
    exact ⟨f', rfl, rfl⟩

/-- an even number of levels -/
theorem ternary_levels [CharZero K] (k : Nat) {m : Mesh P D} (hn : Scheme.sqrt3.Needs m)
    (hid : Scheme.sqrt3.IdsLeft (2 * k) m []) :
    ∃ m', manyLevels .sqrt3 lib cosn (2 * k) (m, []) = .ok (m', []) ∧ TernaryLevels K k m m' := by
  induction k generalizing m with
  | zero => exact ⟨m, rfl, rfl⟩
  | succ k ih =>
    have hno : (Scheme.sqrt3 = .loop ∨ Scheme.sqrt3 = .butterfly → lib.Lawful) := by rintro (h | h) <;> cases h
    obtain ⟨m1, s1, h1, hn1, -, hid1, hu1, -⟩ := oneLevel_ok cosn hno hn (sel := []) (L := 2 * k + 1)
      (fun k hk => by cases hk) hid
    obtain rfl := (hu1 rfl).1
    obtain ⟨m2, s2, h2, hn2, -, hid2, hu2, -⟩ := oneLevel_ok cosn hno hn1 (sel := []) (L := 2 * k)
      (fun k hk => by cases hk) hid1
    obtain rfl := (hu2 rfl).1
    obtain ⟨f1, r1, -⟩ := oneLevel_cell h1
    obtain ⟨f2, r2, -⟩ := oneLevel_cell h2
    obtain ⟨m', h3, hm'⟩ := ih hn2 hid2
    refine ⟨m', ?_, m2, _, _, ternary_of_two hn.valid rfl rfl (IdsLeft.now (L := 2 * k + 1) hid rfl)
      (IdsLeft.now (L := 2 * k) hid1 rfl) r1 r2, hm'⟩
    show manyLevels .sqrt3 lib cosn (2 * k + 1 + 1) (m, []) = _
    unfold manyLevels
    rw [h1]
    show manyLevels .sqrt3 lib cosn (2 * k + 1) (m1, []) = _
    unfold manyLevels
    rw [h2]
    exact h3

end
end Verif
