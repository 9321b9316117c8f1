import Verif.Spec.RimIn
import Verif.Proofs.Rim
import Verif.Proofs.Hull
import Verif.Proofs.CondInduct
/-
The boundary curves of the output lie in the convex sets that contain the boundary curves of the input.
-/
namespace Verif
set_option linter.unusedSectionVars false
variable {P D : Type}

theorem Mesh.RimLink.symm {m : Mesh P D} {v w : PId} (h : m.RimLink v w) : m.RimLink w v := Or.symm h

theorem Mesh.SameRim.bound {m : Mesh P D} {v w : PId} (h : m.SameRim v w) (hv : ∃ u, m.RimLink v u) :
    ∃ u, m.RimLink w u := by
  cases h with
  | refl => exact hv
  | tail _ h => exact ⟨_, h.symm⟩

/-- one step, given what it does to the boundary edges and to the places on the boundary -/
theorem rimIn_step {inp out : Mesh P D} {μ : Edge → Option PId} {n : Nat} {C : Set P}
    (hb : ∀ e', out.IsBoundary e' ↔ ∃ e, inp.IsBoundary e ∧ IsPiece μ e e')
    (hlt : ∀ e, inp.IsBoundary e → e.1 < n ∧ e.2 < n) (hge : ∀ e m, μ e = some m → n ≤ m)
    (hinj : ∀ e e' m, μ e = some m → μ e' = some m → e' = e ∨ e' = e.sym)
    (hpos : ∀ v, v < n → ∃ p, inp.pos v = some p)
    (hold : ∀ w p, (∃ u, inp.RimLink w u) → out.pos w = some p →
      (∀ u q, (u = w ∨ inp.RimLink w u) → inp.pos u = some q → q ∈ C) → p ∈ C)
    (hnew : ∀ e m p q q', inp.IsBoundary e → μ e = some m → out.pos m = some p → inp.pos e.1 = some q →
      inp.pos e.2 = some q' → q ∈ C → q' ∈ C → p ∈ C)
    {v : PId} (h : inp.RimIn C v) : out.RimIn C v := by
  obtain ⟨hv, hC⟩ := h
  have hlink : ∀ e, inp.IsBoundary e → inp.RimLink e.1 e.2 := fun e he => .inl he
  have ltv : ∀ {w u}, inp.RimLink w u → w < n := by
    rintro w u (h | h)
    · exact (hlt _ h).1
    · exact (hlt _ h).2
  -- the points one comes to
  have key : ∀ w, out.SameRim v w → inp.SameRim v w ∨ ∃ e, inp.IsBoundary e ∧ inp.SameRim v e.1 ∧ μ e = some w := by
    intro w hw
    induction hw with
    | refl => exact .inl Relation.ReflTransGen.refl
    | @tail w w' _ hl ih =>
      have step : ∀ e e', inp.IsBoundary e → IsPiece μ e e' → (e' = (w, w') ∨ e' = (w', w)) →
          inp.SameRim v w' ∨ ∃ e, inp.IsBoundary e ∧ inp.SameRim v e.1 ∧ μ e = some w' := by
        intro e e' he hp hww
        -- both ends of `e` are on the curve
        have both : inp.SameRim v e.1 → inp.SameRim v e.1 ∧ inp.SameRim v e.2 := fun h =>
          ⟨h, h.tail (hlink e he)⟩
        have both' : inp.SameRim v e.2 → inp.SameRim v e.1 ∧ inp.SameRim v e.2 := fun h =>
          ⟨h.tail (hlink e he).symm, h⟩
        have hends : inp.SameRim v e.1 ∧ inp.SameRim v e.2 := by
          rcases ih with ih | ⟨e0, he0, hs0, hm0⟩
          · have hwn : w < n := ltv (ih.bound hv).choose_spec
            rcases hp with ⟨-, rfl⟩ | ⟨m, hm, rfl | rfl⟩
            · rcases hww with hww | hww <;> obtain ⟨h1, h2⟩ := Prod.mk.inj hww
              · exact both (h1 ▸ ih)
              · exact both' (h2 ▸ ih)
            · rcases hww with hww | hww <;> obtain ⟨h1, h2⟩ := Prod.mk.inj hww
              · exact both (h1 ▸ ih)
              · exact absurd hwn (Nat.not_lt.2 (h2 ▸ hge _ _ hm))
            · rcases hww with hww | hww <;> obtain ⟨h1, h2⟩ := Prod.mk.inj hww
              · exact absurd hwn (Nat.not_lt.2 (h1 ▸ hge _ _ hm))
              · exact both' (h2 ▸ ih)
          · have hwn := hge _ _ hm0
            have hsame : ∀ m, μ e = some m → m = w → inp.SameRim v e.1 ∧ inp.SameRim v e.2 := by
              rintro m hm rfl
              rcases hinj _ _ _ hm0 hm with rfl | rfl
              · exact both hs0
              · exact both' hs0
            rcases hp with ⟨-, rfl⟩ | ⟨m, hm, rfl | rfl⟩
            · rcases hww with hww | hww <;> obtain ⟨h1, h2⟩ := Prod.mk.inj hww
              · exact absurd (hlt _ he).1 (Nat.not_lt.2 (h1 ▸ hwn))
              · exact absurd (hlt _ he).2 (Nat.not_lt.2 (h2 ▸ hwn))
            · rcases hww with hww | hww <;> obtain ⟨h1, h2⟩ := Prod.mk.inj hww
              · exact absurd (hlt _ he).1 (Nat.not_lt.2 (h1 ▸ hwn))
              · exact hsame m hm h2
            · rcases hww with hww | hww <;> obtain ⟨h1, h2⟩ := Prod.mk.inj hww
              · exact hsame m hm h1
              · exact absurd (hlt _ he).2 (Nat.not_lt.2 (h2 ▸ hwn))
        rcases hp with ⟨-, rfl⟩ | ⟨m, hm, rfl | rfl⟩
        · rcases hww with hww | hww <;> obtain ⟨h1, h2⟩ := Prod.mk.inj hww
          · exact .inl (h2 ▸ hends.2)
          · exact .inl (h1 ▸ hends.1)
        · rcases hww with hww | hww <;> obtain ⟨h1, h2⟩ := Prod.mk.inj hww
          · exact .inr ⟨e, he, hends.1, h2 ▸ hm⟩
          · exact .inl (h1 ▸ hends.1)
        · rcases hww with hww | hww <;> obtain ⟨h1, h2⟩ := Prod.mk.inj hww
          · exact .inl (h2 ▸ hends.2)
          · exact .inr ⟨e, he, hends.1, h1 ▸ hm⟩
      rcases hl with hl | hl
      · obtain ⟨e, he, hp⟩ := (hb _).1 hl
        exact step e _ he hp (.inl rfl)
      · obtain ⟨e, he, hp⟩ := (hb _).1 hl
        exact step e _ he hp (.inr rfl)
  refine ⟨?_, fun w p hw hp => ?_⟩
  · obtain ⟨w, hw⟩ := hv
    rcases hw with hw | hw
    · rcases hm : μ (v, w) with _ | m
      · exact ⟨w, .inl ((hb _).2 ⟨_, hw, .inl ⟨hm, rfl⟩⟩)⟩
      · exact ⟨m, .inl ((hb _).2 ⟨_, hw, .inr ⟨m, hm, .inl rfl⟩⟩)⟩
    · rcases hm : μ (w, v) with _ | m
      · exact ⟨w, .inr ((hb _).2 ⟨_, hw, .inl ⟨hm, rfl⟩⟩)⟩
      · exact ⟨m, .inr ((hb _).2 ⟨_, hw, .inr ⟨m, hm, .inr rfl⟩⟩)⟩
  · rcases key w hw with h1 | ⟨e, he, h1, hm⟩
    · refine hold w p (h1.bound hv) hp fun u q hu hq => hC u q ?_ hq
      rcases hu with rfl | hu
      · exact h1
      · exact h1.tail hu
    · obtain ⟨q, hq⟩ := hpos _ (hlt e he).1
      obtain ⟨q', hq'⟩ := hpos _ (hlt e he).2
      exact hnew e w p q q' he hm hp hq hq' (hC _ _ h1 hq) (hC _ _ (h1.tail (hlink e he)) hq')

section
variable {K : Type} [Field K] [LinearOrder K] [IsStrictOrderedRing K] [AddCommGroup P] [Module K P] {lib : QELib}
  {cosn : Nat → K} {f f' : Filt} {inp out : Mesh P D} {C : Set P}

theorem boundary_lt (hv : inp.Valid) {e : Edge} (he : inp.IsBoundary e) :
    e.1 < inp.points.length ∧ e.2 < inp.points.length :=
  hv.isEdge_lt ((hv.edges_iff _).2 (.inl he.1))

/-- the new point of a boundary edge is its midpoint -/
theorem border_value {sch : Scheme} (hb : sch ≠ .butterfly) (hs : sch ≠ .sqrt3) (hv : inp.Valid) {e e' : Edge}
    (he : inp.IsBoundary e) (h1 : e' = e ∨ e' = e.sym) {p : P} (h3 : schemePoint sch K inp e' = .ok p) :
    p = midPoint K (inp.coord e.1) (inp.coord e.2) := by
  have h : p = midPoint K (inp.coord e'.1) (inp.coord e'.2) := by
    have hE : inp.IsEdge e := (hv.edges_iff _).2 (.inl he.1)
    have hE' : inp.IsEdge e' := by rcases h1 with rfl | rfl; exacts [hE, hE.sym]
    cases sch with
    | butterfly => exact absurd rfl hb
    | sqrt3 => exact absurd rfl hs
    | linear => exact Except.ok.inj (h3.symm.trans (linearPoint_ok hv hE'))
    | loop =>
      refine Except.ok.inj (h3.symm.trans (loopPoint_border hv hE' ?_))
      rintro ⟨g1, g2⟩
      rcases h1 with rfl | rfl
      · exact he.2 g2
      · exact he.2 g1
  rcases h1 with rfl | rfl
  · exact h
  · rw [h, midPoint, midPoint, add_comm]; rfl

/-- a point of the boundary, smoothed -/
theorem loopBase_mem_rim (hC : Convex K C) (hn : Scheme.loop.Needs inp) (hsb : inp.SimpleBoundary) (f : Filt) {v : PId}
    (hb : ∃ u, inp.RimLink v u) (hin : ∀ u q, (u = v ∨ inp.RimLink v u) → inp.pos u = some q → q ∈ C) :
    loopBase cosn inp f v ∈ C := by
  have hv := hn.valid
  have hr := hn.ring (Or.inl rfl)
  obtain ⟨u, hu⟩ := hb
  have hw : inp.IsEdge (v, u) := by
    rcases hu with hu | hu
    · exact (hv.edges_iff _).2 (.inl hu.1)
    · exact (hv.edges_iff _).2 (.inr hu.1)
  have hvC : inp.coord v ∈ C := hin v _ (.inl rfl) (hv.pos_eq (hv.isEdge_lt hw).1)
  unfold loopBase
  split
  · obtain ⟨r, h1, h2, h3⟩ := smoothingPoint_ok cosn hv hr hw (inp.coord v)
    rw [valueOf_eq (np := fun v => smoothingPoint cosn inp v (inp.coord v)) h3]
    have hat : ∀ e, inp.IsEdge e → (inp.isAtBorder e = true ↔ inp.RimLink e.1 e.2) := by
      intro e he
      rw [hv.isAtBorder_iff he]
      rcases (hv.edges_iff e).1 he with hd | hd
      · constructor
        · intro hh; exact .inl ⟨hd, fun hs => hh ⟨hd, hs⟩⟩
        · rintro (hh | hh)
          · exact fun hs => hh.2 hs.2
          · exact fun hs => hh.2 hs.1
      · constructor
        · intro hh; exact .inr ⟨hd, fun hs => hh ⟨hs, hd⟩⟩
        · rintro (hh | hh)
          · exact fun hs => hh.2 hs.2
          · exact fun hs => hh.2 hs.1
    have hq : ∀ q ∈ (r.filter inp.isAtBorder).map (fun e => inp.coord e.2), q ∈ C := by
      intro q hq
      obtain ⟨e, he, rfl⟩ := List.mem_map.1 hq
      obtain ⟨he, hbe⟩ := List.mem_filter.1 he
      obtain ⟨g1, g2⟩ := (h2 e).1 he
      subst g2
      exact hin e.2 _ (.inr ((hat e g1).1 hbe)) (hv.pos_eq (hv.isEdge_lt g1).2)
    simp only [smoothed, added_eq]
    have hmem : (v, u) ∈ r.filter inp.isAtBorder :=
      List.mem_filter.2 ⟨(h2 _).2 ⟨hw, rfl⟩, (hat _ hw).2 hu⟩
    rcases border_edges hv hsb h1 h2 with hb | hb
    · rw [List.length_eq_zero_iff.1 hb] at hmem
      cases hmem
    · rw [if_pos (by simp [hb])]
      have := towards_mem hC hvC (l := (r.filter inp.isAtBorder).map fun e => inp.coord e.2) hq (by
          intro h0
          rw [List.map_eq_nil_iff] at h0
          rw [h0] at hb; simp at hb) (β := (1 / 8 : K)) (by positivity) (by
          rw [List.length_map, hb]; norm_num)
      rw [List.length_map, hb] at this
      have e : (1 - ((2 : Nat) : K) * (1 / 8)) = 3 / 4 := by norm_num
      rwa [e] at this
  · exact hvC

/-- a run of a cell filter -/
theorem cellUpdate_rimIn {sch : Scheme} (hC : Convex K C) (hs : sch ≠ .butterfly) (hn : sch.Needs inp)
    (hsb : sch = .loop → inp.SimpleBoundary) (hsel : inp.SelOK f.cells)
    (hmax : sch = .sqrt3 → inp.points.length + (inp.selected f.cells).length ≤ idMax)
    (h : cellUpdate sch lib cosn f inp = (.ok out, f')) {v : PId} (hr : inp.RimIn C v) : out.RimIn C v := by
  have hv := hn.valid
  have hpos : ∀ v, v < inp.points.length → ∃ p, inp.pos v = some p := fun v hlt => ⟨_, hv.pos_eq hlt⟩
  have hlt := fun e (he : inp.IsBoundary e) => boundary_lt hv he
  have hltr : ∀ {w}, (∃ u, inp.RimLink w u) → w < inp.points.length := by
    rintro w ⟨u, hu | hu⟩
    · exact (hlt _ hu).1
    · exact (hlt _ hu).2
  have hold : ∀ w p, (∃ u, inp.RimLink w u) → out.pos w = some p →
      (∀ u q, (u = w ∨ inp.RimLink w u) → inp.pos u = some q → q ∈ C) → p ∈ C := by
    intro w p hw hp hin
    by_cases hl : sch = .loop
    · subst hl
      rw [cellUpdate_base (by decide) hn hsel h (hltr hw)] at hp
      rw [← Option.some.inj hp]
      exact loopBase_mem_rim hC hn (hsb rfl) f hw hin
    · obtain ⟨q, hq⟩ := hpos w (hltr hw)
      rw [C06_original_points_kept hl hv.points_dense h w q hq] at hp
      rw [← Option.some.inj hp]
      exact hin w q (.inl rfl) hq
  by_cases h3 : sch = .sqrt3
  · subst h3
    refine rimIn_step (μ := fun _ => none) (n := inp.points.length) (fun e' => ?_) hlt (by simp) (by simp) hpos hold
      (by simp) hr
    rw [(C18_boundary_preserved_sqrt3 hv hsel (hmax rfl) h).1 e']
    constructor
    · intro he; exact ⟨e', he, .inl ⟨rfl, rfl⟩⟩
    · rintro ⟨e, he, ⟨-, rfl⟩ | ⟨m, hm, -⟩⟩
      · exact he
      · cases hm
  · refine rimIn_step (C18_boundary_preserved h3 hn hsel h).1 hlt (fun e m hm => (labelOf_range hm).1)
      (fun e e' m h1 h2 => labelOf_inj h1 h2) hpos hold ?_ hr
    intro e m p q q' he hm hp hq hq' hqC hqC'
    obtain ⟨e', p', g1, -, g3, g4⟩ := cellUpdate_edgeValue h3 hn hsel h hm
    rw [hp] at g4
    cases g4
    rw [border_value hs h3 hv he g1 g3, Mesh.coord_of_pos hq, Mesh.coord_of_pos hq']
    exact mid_mem hC hqC hqC'

/-- a run of an edge filter -/
theorem edgeUpdate_rimIn {sch : EdgeScheme} (hC : Convex K C) (hs : sch ≠ .butterfly) (hn : sch.toScheme.Needs inp)
    (hsel : inp.EdgeSelOK f.edgeSel) (h : edgeUpdate sch lib cosn f inp = (.ok out, f')) {v : PId} (hr : inp.RimIn C v) :
    out.RimIn C v := by
  have hv := hn.valid
  have hpos : ∀ v, v < inp.points.length → ∃ p, inp.pos v = some p := fun v hlt => ⟨_, hv.pos_eq hlt⟩
  have hlt := fun e (he : inp.IsBoundary e) => boundary_lt hv he
  refine rimIn_step (C18_boundary_preserved_edge hn hsel h).1 hlt (fun e m hm => (lastLabel_range hm).1)
    (fun e e' m h1 h2 => lastLabelRev_inj h1 h2) hpos ?_ ?_ hr
  · rintro w p ⟨u, hu⟩ hp hin
    have hw : w < inp.points.length := by
      rcases hu with hu | hu
      · exact (hlt _ hu).1
      · exact (hlt _ hu).2
    obtain ⟨q, hq⟩ := hpos w hw
    rw [C06_original_points_kept_edge hv.points_dense h w q hq] at hp
    rw [← Option.some.inj hp]
    exact hin w q (.inl rfl) hq
  · intro e m p q q' he hm hp hq hq' hqC hqC'
    obtain ⟨e', p', g1, -, g3, g4⟩ := edgeUpdate_edgeValue hn hsel h hm
    rw [hp] at g4
    cases g4
    rw [border_value (sch := sch.toScheme) (by cases sch <;> simp_all [EdgeScheme.toScheme])
      (by cases sch <;> simp [EdgeScheme.toScheme]) hv he g1 g3, Mesh.coord_of_pos hq, Mesh.coord_of_pos hq']
    exact mid_mem hC hqC hqC'

end
end Verif
