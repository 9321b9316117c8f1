import Verif.Proofs.Coords
import Verif.Proofs.Sqrt3Result
import Verif.Proofs.Affine
import Verif.Proofs.Hull
import Verif.Proofs.Local
import Verif.Proofs.EdgeAlike
import Verif.Spec.Valence
/-
Sets of positions that the stencils of a scheme do not leave.
-/
namespace Verif
set_option linter.unusedSectionVars false
variable {K P D : Type} [Field K] [Zero P] [Add P] [SMul K P]

/-- the stencils of the scheme take positions in `C` to positions in `C'`; `d` bounds the number of triangles around a point -/
structure Stable (sch : Scheme) (cosn : Nat → K) (d : Nat) (C C' : Set P) : Prop where
  keep : ∀ p ∈ C, p ∈ C'
  mid : sch = .linear ∨ sch = .loop → ∀ a ∈ C, ∀ b ∈ C, midPoint K a b ∈ C'
  third : sch = .sqrt3 → ∀ a ∈ C, ∀ b ∈ C, ∀ c ∈ C, (1 / 3 : K) • (0 + a + b + c) ∈ C'
  inner : sch = .loop → ∀ a ∈ C, ∀ b ∈ C, ∀ c ∈ C, ∀ d ∈ C,
    0 + (3 / 8 : K) • a + (3 / 8 : K) • b + (1 / 8 : K) • c + (1 / 8 : K) • d ∈ C'
  eight : sch = .butterfly → ∀ p0 ∈ C, ∀ p1 ∈ C, ∀ p2 ∈ C, ∀ p3 ∈ C, ∀ p4 ∈ C, ∀ p5 ∈ C, ∀ p6 ∈ C, ∀ p7 ∈ C,
    0 + (1 / 2 : K) • p0 + (1 / 2 : K) • p1 + (1 / 8 : K) • p2 + (1 / 8 : K) • p3
      + (-1 / 16 : K) • p4 + (-1 / 16 : K) • p5 + (-1 / 16 : K) • p6 + (-1 / 16 : K) • p7 ∈ C'
  around : sch = .loop → ∀ p ∈ C, ∀ l : List P, (∀ q ∈ l, q ∈ C) → l ≠ [] → l.length ≤ d →
    (1 - (l.length : K) * loopBeta cosn l.length) • p + loopBeta cosn l.length • added l ∈ C'
  along : sch = .loop → ∀ p ∈ C, ∀ q ∈ C, ∀ r ∈ C, (3 / 4 : K) • p + (1 / 8 : K) • (0 + q + r) ∈ C'

variable {inp out : Mesh P D} {lib : QELib} {cosn : Nat → K} {f f' : Filt} {C C' : Set P} {d : Nat}

/-- a triangle has one edge out of each corner -/
theorem Tri.dart_unique {t : Tri} (h : t.1 ≠ t.2.1 ∧ t.2.1 ≠ t.2.2 ∧ t.2.2 ≠ t.1) {e e' : Edge} (he : e ∈ t.darts)
    (he' : e' ∈ t.darts) (hv : e.1 = e'.1) : e = e' := by
  obtain ⟨a, b, c⟩ := t
  obtain ⟨h1, h2, h3⟩ := h
  simp only [Tri.darts, List.mem_cons, List.not_mem_nil, or_false] at he he'
  rcases he with rfl | rfl | rfl <;> rcases he' with rfl | rfl | rfl <;> first | rfl | (exfalso; simp_all)

/-- the ring of an inner point is no longer than the list of its triangles -/
theorem ring_le_valence (hv : inp.Valid) {v : PId} {r : List Edge} (hnd : r.Nodup)
    (hr : ∀ e', e' ∈ r ↔ inp.IsEdge e' ∧ e'.1 = v) (hb : r.filter inp.isAtBorder = []) : r.length ≤ inp.valence v := by
  have hd : ∀ e ∈ r, ∃ t ∈ inp.tris, e ∈ t.darts := by
    intro e he
    obtain ⟨h1, -⟩ := (hr e).1 he
    by_contra hc
    have : e ∈ r.filter inp.isAtBorder :=
      List.mem_filter.2 ⟨he, (hv.isAtBorder_iff h1).2 fun h => hc (mem_dartsOf.1 h.1)⟩
    rw [hb] at this
    cases this
  choose! g hg1 hg2 using hd
  have hnd' : (r.map g).Nodup := by
    refine hnd.map_on fun e he e' he' hee => ?_
    have h1 := hg2 e he
    rw [hee] at h1
    exact Tri.dart_unique (hv.good.nondeg _ (hg1 e' he')) h1 (hg2 e' he')
      (((hr e).1 he).2.trans ((hr e').1 he').2.symm)
  have hsub : r.map g ⊆ inp.tris.filter fun t => decide (v ∈ t.verts) := by
    intro t ht
    obtain ⟨e, he, rfl⟩ := List.mem_map.1 ht
    refine List.mem_filter.2 ⟨hg1 e he, decide_eq_true ?_⟩
    rw [← ((hr e).1 he).2]
    exact (Tri.dart_mem_verts (hg2 e he)).1
  have := (List.subperm_of_subset hnd' hsub).length_le
  rw [List.length_map, ← List.countP_eq_length_filter] at this
  exact this

theorem in_of_dense {pts : List P} (hp : out.points = AMap.dense pts) (h : ∀ p ∈ pts, p ∈ C) :
    ∀ v p, out.pos v = some p → p ∈ C := by
  intro v p hpos
  unfold Mesh.pos at hpos
  rw [hp, AMap.find?_dense] at hpos
  exact h p (List.mem_of_getElem? hpos)

theorem coord_in (hv : inp.Valid) (hC : ∀ v p, inp.pos v = some p → p ∈ C) {v : PId} (h : v < inp.points.length) :
    inp.coord v ∈ C := hC v _ (hv.pos_eq h)

theorem Stable.point {sch : Scheme} (hs : sch ≠ .sqrt3) (hS : Stable sch cosn d C C') (hn : sch.Needs inp)
    (hC : ∀ v p, inp.pos v = some p → p ∈ C) {e : Edge} (he : inp.IsEdge e) : valueOf (schemePoint sch K inp) e ∈ C' := by
  have hv := hn.valid
  have c1 := coord_in hv hC (hv.isEdge_lt he).1
  have c2 := coord_in hv hC (hv.isEdge_lt he).2
  cases sch with
  | sqrt3 => exact absurd rfl hs
  | linear =>
    rw [valueOf_eq (np := schemePoint .linear K inp) (linearPoint_ok hv he)]
    exact hS.mid (.inl rfl) _ c1 _ c2
  | loop =>
    have hr := hn.ring (Or.inl rfl)
    by_cases hb : e ∈ dartsOf inp.tris ∧ e.sym ∈ dartsOf inp.tris
    · obtain ⟨a, b⟩ := e
      obtain ⟨c, hc⟩ := dartsOf_iff_hasTri.1 hb.1
      obtain ⟨d, hd⟩ := dartsOf_iff_hasTri.1 hb.2
      rw [valueOf_eq (np := schemePoint .loop K inp) (loopPoint_inner hv hr hc hd)]
      exact hS.inner rfl _ c1 _ c2 _ (coord_in hv hC (hv.isEdge_lt (hv.edge13 hc)).2) _
        (coord_in hv hC (hv.isEdge_lt (hv.edge13 hd)).2)
    · rw [valueOf_eq (np := schemePoint .loop K inp) (loopPoint_border hv he hb)]
      exact hS.mid (.inr rfl) _ c1 _ c2
  | butterfly =>
    have hr := hn.ring (Or.inr rfl)
    obtain ⟨e2, h2, g2⟩ := hr.lnext_some he
    obtain ⟨e4, h4, g4⟩ := hr.rprev_some g2
    obtain ⟨e3, h3, g3⟩ := hr.rprev_some he
    obtain ⟨e5, h5, g5⟩ := hr.lnext_some g3
    obtain ⟨e6, h6, g6⟩ := hr.lprev_some he
    obtain ⟨e6', h6', g6'⟩ := hr.rprev_some g6
    obtain ⟨e7, h7, g7⟩ := hr.rnext_some he
    obtain ⟨e7', h7', g7'⟩ := hr.lnext_some g7
    have hc : ∀ {e}, inp.IsEdge e → inp.coord e.2 ∈ C := fun g => coord_in hv hC (hv.isEdge_lt g).2
    have := hS.eight rfl _ c1 _ c2 _ (hc g2) _ (hc g3) _ (hc g4) _ (hc g5) _ (hc g6') _ (hc g7')
    unfold valueOf
    change (match butterflyPoint K inp e with | .ok p => p | .error _ => 0) ∈ C'
    unfold butterflyPoint
    rw [h2, h3, h6, h7]
    simp only [Option.bind_some]
    rw [h4, h5, h6', h7', destOrZero_edge hv g2, destOrZero_edge hv g4, destOrZero_edge hv g3, destOrZero_edge hv g5,
      destOrZero_edge hv g6', destOrZero_edge hv g7', hv.getPoint_ok (hv.isEdge_lt he).1,
      hv.getPoint_ok (hv.isEdge_lt he).2]
    exact this

theorem Stable.base {sch : Scheme} (hS : Stable sch cosn d C C') (hn : sch.Needs inp)
    (hsb : sch = .loop → inp.SimpleBoundary) (hd : sch = .loop → ∀ v, v < inp.points.length → inp.valence v ≤ d)
    (hC : ∀ v p, inp.pos v = some p → p ∈ C) (f : Filt) {v : PId} (h : v < inp.points.length) :
    schemeBase sch cosn inp f v ∈ C' := by
  have hv := hn.valid
  have hp := coord_in hv hC h
  cases sch with
  | linear => exact hS.keep _ hp
  | butterfly => exact hS.keep _ hp
  | sqrt3 => exact hS.keep _ hp
  | loop =>
    unfold schemeBase loopBase
    dsimp only
    split
    · obtain ⟨w, hw⟩ := (hn.noIsolated rfl).edge hv h
      obtain ⟨r, h1, h2, h3⟩ := smoothingPoint_ok cosn hv (hn.ring (Or.inl rfl)) hw (inp.coord v)
      rw [valueOf_eq (np := fun v => smoothingPoint cosn inp v (inp.coord v)) h3]
      have hq : ∀ e ∈ r, inp.coord e.2 ∈ C := fun e he => coord_in hv hC (hv.isEdge_lt ((h2 e).1 he).1).2
      unfold smoothed
      rcases border_edges (P := Unit) (inp := inp.mapPoints fun _ => ()) hv.mapPoints (hsb rfl) h1 h2 with hb | hb
      · have hb' : (r.filter inp.isAtBorder).length = 0 := hb
        rw [if_neg (by simpa using hb')]
        have hne : r ≠ [] := List.ne_nil_of_mem ((h2 _).2 ⟨hw, rfl⟩)
        have := hS.around rfl _ hp (r.map fun e => inp.coord e.2) (by
          intro q hq'
          obtain ⟨e, he, rfl⟩ := List.mem_map.1 hq'
          exact hq e he) (by simpa using hne) (by
          rw [List.length_map]
          exact le_trans (ring_le_valence hv h1 h2 (List.length_eq_zero_iff.1 hb')) (hd rfl v h))
        rwa [List.length_map] at this
      · have hb' : (r.filter inp.isAtBorder).length = 2 := hb
        rw [if_pos (by rw [hb']; decide)]
        have hm : ∀ e ∈ r.filter inp.isAtBorder, inp.coord e.2 ∈ C := fun e he => hq e (List.mem_of_mem_filter he)
        generalize r.filter inp.isAtBorder = l at hb' hm
        match l, hb', hm with
        | [x, y], _, hm => exact hS.along rfl _ hp _ (hm x (by simp)) _ (hm y (by simp))
    · exact hS.keep _ hp

/-- the cell filters -/
theorem Stable.cell {sch : Scheme} (hS : Stable sch cosn d C C') (hn : sch.Needs inp) (hsel : inp.SelOK f.cells)
    (hmax : sch = .sqrt3 → inp.points.length + (inp.selected f.cells).length ≤ idMax)
    (hsb : sch = .loop → inp.SimpleBoundary) (hd : sch = .loop → ∀ v, v < inp.points.length → inp.valence v ≤ d)
    (h : cellUpdate sch lib cosn f inp = (.ok out, f')) (hC : ∀ v p, inp.pos v = some p → p ∈ C) :
    ∀ v p, out.pos v = some p → p ∈ C' := by
  have hv := hn.valid
  by_cases hs : sch = .sqrt3
  · subst hs
    refine in_of_dense (sqrt3Update_result hv hsel (hmax rfl) h).points fun p hp => ?_
    rcases List.mem_append.1 hp with hp | hp
    · obtain ⟨v, h1, rfl⟩ := List.mem_map.1 hp
      exact hS.keep _ (coord_in hv hC (List.mem_range.1 h1))
    · obtain ⟨t, h1, rfl⟩ := List.mem_map.1 hp
      have ht := hv.selected_subset f.cells t h1
      exact hS.third rfl _ (coord_in hv hC (hv.verts_lt ht (by simp [Tri.verts]))) _
        (coord_in hv hC (hv.verts_lt ht (by simp [Tri.verts]))) _ (coord_in hv hC (hv.verts_lt ht (by simp [Tri.verts])))
  · refine in_of_dense (cellUpdate_result hs hn hsel h).1.points fun p hp => ?_
    rcases List.mem_append.1 hp with hp | hp
    · obtain ⟨v, h1, rfl⟩ := List.mem_map.1 hp
      exact hS.base hn hsb hd hC f (List.mem_range.1 h1)
    · obtain ⟨e, h1, rfl⟩ := List.mem_map.1 hp
      exact hS.point hs hn hC (selected_isEdge hv h1)

/-- the edge filters, which do not move points -/
theorem Stable.edge {sch : EdgeScheme} (hS : Stable sch.toScheme cosn d C C') (hn : sch.toScheme.Needs inp)
    (hsel : inp.EdgeSelOK f.edgeSel) (h : edgeUpdate sch lib cosn f inp = (.ok out, f'))
    (hC : ∀ v p, inp.pos v = some p → p ∈ C) : ∀ v p, out.pos v = some p → p ∈ C' := by
  have hv := hn.valid
  refine in_of_dense (edgeUpdate_result hn hsel h).points fun p hp => ?_
  rcases List.mem_append.1 hp with hp | hp
  · obtain ⟨v, h1, rfl⟩ := List.mem_map.1 hp
    exact hS.keep _ (coord_in hv hC (List.mem_range.1 h1))
  · obtain ⟨e, h1, rfl⟩ := List.mem_map.1 hp
    exact hS.point (by cases sch <;> decide) hn hC (selectedEdges_isEdge hsel h1)

end Verif
