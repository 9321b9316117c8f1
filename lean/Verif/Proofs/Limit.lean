import Verif.Spec.Limit
import Verif.Proofs.Levels
import Verif.Properties.Points
import Verif.Proofs.ShrinkLevels
/-
The neighbours of a point over the levels of Loop.
-/
namespace Verif
set_option linter.unusedSectionVars false

section darts
variable {K P D : Type} [Field K] [Zero P] [Add P] [SMul K P] {lib : QELib} {cosn : Nat → K} {inp out : Mesh P D} {f' : Filt}
  {sch : Scheme}

theorem edgePoint_all {e : Edge} (he : e ∈ dartsOf inp.tris ∨ e.sym ∈ dartsOf inp.tris) :
    ∃ x, inp.edgePoint ([] : List CId) e = some x := by
  rw [← Option.isSome_iff_exists, edgePoint_isSome]
  simpa [Mesh.selected] using he

theorem edgePoint_ends (hs : sch ≠ .sqrt3) (hn : sch.Needs inp) (h : cellUpdate sch lib cosn (Filt.new.setCells []) inp = (.ok out, f'))
    {v w w' x : PId} (h1 : inp.edgePoint ([] : List CId) (v, w) = some x) (h2 : inp.edgePoint ([] : List CId) (v, w') = some x)
     : w = w' := by
  have R := (cellUpdate_result hs hn (selOK_nil _) h).1
  rcases R.label.inj _ _ _ h1 h2 with h3 | h3
  · exact (Prod.mk.inj h3).2.symm
  · obtain ⟨h4, h5⟩ := Prod.mk.inj h3
    exact (h5.trans h4).symm

/-- the edges of an old point after a uniform level -/
theorem darts_at (hs : sch ≠ .sqrt3) (hn : sch.Needs inp) (h : cellUpdate sch lib cosn (Filt.new.setCells []) inp = (.ok out, f'))
    {v : PId} (hlt : v < inp.points.length) (y : PId) :
    ((v, y) ∈ dartsOf out.tris ↔ ∃ w, (v, w) ∈ dartsOf inp.tris ∧ inp.edgePoint ([] : List CId) (v, w) = some y) ∧
    ((y, v) ∈ dartsOf out.tris ↔ ∃ w, (w, v) ∈ dartsOf inp.tris ∧ inp.edgePoint ([] : List CId) (v, w) = some y) := by
  have hv := hn.valid
  have R := (cellUpdate_result hs hn (selOK_nil _) h).1
  change FaceSplitResult lib inp out _ f' _ (inp.edgePoint ([] : List CId)) _ at R
  have hno : ∀ e, inp.edgePoint ([] : List CId) e ≠ some v := fun e he => absurd hlt (Nat.not_lt.2 (R.fresh _ _ he).1)
  have hall : ∀ t ∈ inp.tris, ∀ e ∈ t.darts, inp.edgePoint ([] : List CId) e ≠ none := fun t ht e he hc => by
    obtain ⟨x, hx⟩ := edgePoint_all (inp := inp) (Or.inl (mem_dartsOf.2 ⟨t, ht, he⟩))
    rw [hc] at hx; cases hx
  have key : ∀ t ∈ inp.tris, ∀ d ∈ t.children (inp.edgePoint []), ∀ x y, (x, y) ∈ d.darts →
      (x = v → ∃ w, (v, w) ∈ t.darts ∧ inp.edgePoint ([] : List CId) (v, w) = some y) ∧
      (y = v → ∃ w, (w, v) ∈ t.darts ∧ inp.edgePoint ([] : List CId) (w, v) = some x) := by
    intro t ht d hd x y hxy
    obtain ⟨a, b, c⟩ := t
    obtain ⟨m0, h0⟩ := Option.ne_none_iff_exists'.1 (hall _ ht (a, b) (by simp [Tri.darts]))
    obtain ⟨m1, h1⟩ := Option.ne_none_iff_exists'.1 (hall _ ht (b, c) (by simp [Tri.darts]))
    obtain ⟨m2, h2⟩ := Option.ne_none_iff_exists'.1 (hall _ ht (c, a) (by simp [Tri.darts]))
    have n0 : m0 ≠ v := fun hc => hno _ (hc ▸ h0)
    have n1 : m1 ≠ v := fun hc => hno _ (hc ▸ h1)
    have n2 : m2 ≠ v := fun hc => hno _ (hc ▸ h2)
    simp only [Tri.children, h0, h1, h2, List.mem_cons, List.not_mem_nil, or_false] at hd
    rcases hd with rfl | rfl | rfl | rfl <;>
      simp only [Tri.darts, List.mem_cons, List.not_mem_nil, or_false, Prod.mk.injEq] at hxy <;>
      rcases hxy with ⟨rfl, rfl⟩ | ⟨rfl, rfl⟩ | ⟨rfl, rfl⟩ <;> constructor <;> intro hx
    all_goals
      first
      | exact absurd hx n0
      | exact absurd hx n1
      | exact absurd hx n2
      | (subst hx; exact ⟨_, by simp [Tri.darts], h0⟩)
      | (subst hx; exact ⟨_, by simp [Tri.darts], h1⟩)
      | (subst hx; exact ⟨_, by simp [Tri.darts], h2⟩)
  have hsym : ∀ e, inp.edgePoint ([] : List CId) e.sym = inp.edgePoint [] e := fun e => labelOf_sym _ _ e
  have kids : ∀ {t d : Tri}, t ∈ inp.tris → d ∈ t.children (inp.edgePoint []) → d ∈ out.tris := fun ht hd => by
    rw [R.tris]; exact List.mem_flatMap.2 ⟨_, ht, hd⟩
  constructor
  · constructor
    · intro hy
      obtain ⟨d, hd, hy⟩ := mem_dartsOf.1 hy
      rw [R.tris] at hd
      obtain ⟨t, ht, hd⟩ := List.mem_flatMap.1 hd
      obtain ⟨w, h1, h2⟩ := (key t ht d hd _ _ hy).1 rfl
      exact ⟨w, mem_dartsOf.2 ⟨t, ht, h1⟩, h2⟩
    · rintro ⟨w, h1, h2⟩
      obtain ⟨t, ht, h1⟩ := mem_dartsOf.1 h1
      obtain ⟨d, hd, h3⟩ := mem_dartsOf.1 (children_halves _ t h1 h2).1
      exact mem_dartsOf.2 ⟨d, kids ht hd, h3⟩
  · constructor
    · intro hy
      obtain ⟨d, hd, hy⟩ := mem_dartsOf.1 hy
      rw [R.tris] at hd
      obtain ⟨t, ht, hd⟩ := List.mem_flatMap.1 hd
      obtain ⟨w, h1, h2⟩ := (key t ht d hd _ _ hy).2 rfl
      exact ⟨w, mem_dartsOf.2 ⟨t, ht, h1⟩, (hsym (w, v)).trans h2⟩
    · rintro ⟨w, h1, h2⟩
      obtain ⟨t, ht, h1⟩ := mem_dartsOf.1 h1
      obtain ⟨d, hd, h3⟩ := mem_dartsOf.1 (children_halves _ t h1 ((hsym (v, w)).trans h2)).2
      exact mem_dartsOf.2 ⟨d, kids ht hd, h3⟩

/-- one level round an inner point -/
theorem InnerAt_level (hs : sch ≠ .sqrt3) (hn : sch.Needs inp) (hout : out.Valid)
    (h : cellUpdate sch lib cosn (Filt.new.setCells []) inp = (.ok out, f')) {v : PId} (hlt : v < inp.points.length)
    {N : List PId} (hN : inp.InnerAt v N) :
    ∃ x : PId → PId, (∀ w ∈ N, inp.edgePoint ([] : List CId) (v, w) = some (x w)) ∧ out.InnerAt v (N.map x) := by
  have hd := darts_at hs hn h hlt
  have hex : ∀ w, ∃ y, w ∈ N → inp.edgePoint ([] : List CId) (v, w) = some y := by
    intro w
    by_cases hw : w ∈ N
    · obtain ⟨y, hy⟩ := edgePoint_all (inp := inp) (Or.inl (dartsOf_iff_hasTri.2 (hN.inner w hw).1))
      exact ⟨y, fun _ => hy⟩
    · exact ⟨0, fun hc => absurd hc hw⟩
  choose x hx using hex
  have hboth : ∀ w ∈ N, (v, w) ∈ dartsOf inp.tris ∧ (w, v) ∈ dartsOf inp.tris := fun w hw =>
    ⟨dartsOf_iff_hasTri.2 (hN.inner w hw).1, dartsOf_iff_hasTri.2 (hN.inner w hw).2⟩
  refine ⟨x, hx, ?_, fun y => ?_, ?_⟩
  · refine (List.nodup_map_iff_inj_on hN.nodup).2 fun w hw w' hw' e => ?_
    exact edgePoint_ends hs hn h (hx w hw) (by rw [e]; exact hx w' hw')
  · constructor
    · intro hy
      obtain ⟨w, hw, rfl⟩ := List.mem_map.1 hy
      exact (hout.edges_iff _).2 (Or.inl ((hd _).1.2 ⟨w, (hboth w hw).1, hx w hw⟩))
    · intro hy
      rcases (hout.edges_iff _).1 hy with h1 | h1
      · obtain ⟨w, h2, h3⟩ := (hd _).1.1 h1
        have hw : w ∈ N := (hN.all w).2 ((hn.valid.edges_iff _).2 (Or.inl h2))
        refine List.mem_map.2 ⟨w, hw, ?_⟩
        have := hx w hw
        rw [h3] at this
        exact (Option.some.inj this).symm
      · obtain ⟨w, h2, h3⟩ := (hd _).2.1 h1
        have hw : w ∈ N := (hN.all w).2 ((hn.valid.edges_iff _).2 (Or.inr h2))
        refine List.mem_map.2 ⟨w, hw, ?_⟩
        have := hx w hw
        rw [h3] at this
        exact (Option.some.inj this).symm
  · intro y hy
    obtain ⟨w, hw, rfl⟩ := List.mem_map.1 hy
    exact ⟨dartsOf_iff_hasTri.1 ((hd _).1.2 ⟨w, (hboth w hw).1, hx w hw⟩),
      dartsOf_iff_hasTri.1 ((hd _).2.2 ⟨w, (hboth w hw).2, hx w hw⟩)⟩

/-- one level round a point of the boundary -/
theorem RimAt_level (hs : sch ≠ .sqrt3) (hn : sch.Needs inp) (hout : out.Valid)
    (h : cellUpdate sch lib cosn (Filt.new.setCells []) inp = (.ok out, f')) {v : PId} (hlt : v < inp.points.length)
    {a b : PId} (hab : inp.RimAt v a b) :
    ∃ x y, inp.edgePoint ([] : List CId) (v, a) = some x ∧ inp.edgePoint ([] : List CId) (v, b) = some y ∧ out.RimAt v x y := by
  have hd := darts_at hs hn h hlt
  have ha := (hab.only a).1 (Or.inl rfl)
  have hb := (hab.only b).1 (Or.inr rfl)
  obtain ⟨x, hx⟩ := edgePoint_all (inp := inp) ((hn.valid.edges_iff _).1 ha.1)
  obtain ⟨y, hy⟩ := edgePoint_all (inp := inp) ((hn.valid.edges_iff _).1 hb.1)
  have tri : ∀ {T : List Tri} {p q : PId}, (∀ c, ¬ HasTri T p q c) ↔ (p, q) ∉ dartsOf T := by
    intro T p q
    rw [dartsOf_iff_hasTri, not_exists]
  have far : ∀ {w z : PId}, inp.edgePoint ([] : List CId) (v, w) = some z →
      ((v, z) ∈ dartsOf out.tris ↔ (v, w) ∈ dartsOf inp.tris) ∧ ((z, v) ∈ dartsOf out.tris ↔ (w, v) ∈ dartsOf inp.tris) := by
    intro w z hz
    rw [(hd z).1, (hd z).2]
    constructor
    · constructor
      · rintro ⟨w', h1, h2⟩
        rwa [edgePoint_ends hs hn h hz h2]
      · exact fun h1 => ⟨w, h1, hz⟩
    · constructor
      · rintro ⟨w', h1, h2⟩
        rwa [edgePoint_ends hs hn h hz h2]
      · exact fun h1 => ⟨w, h1, hz⟩
  have edge : ∀ z, out.IsEdge (v, z) → ∃ w, inp.IsEdge (v, w) ∧ inp.edgePoint ([] : List CId) (v, w) = some z := by
    intro z hz
    rcases (hout.edges_iff _).1 hz with h1 | h1
    · obtain ⟨w, h2, h3⟩ := (hd _).1.1 h1
      exact ⟨w, (hn.valid.edges_iff _).2 (Or.inl h2), h3⟩
    · obtain ⟨w, h2, h3⟩ := (hd _).2.1 h1
      exact ⟨w, (hn.valid.edges_iff _).2 (Or.inr h2), h3⟩
  have edge' : ∀ w z, inp.IsEdge (v, w) → inp.edgePoint ([] : List CId) (v, w) = some z → out.IsEdge (v, z) := by
    intro w z hw hz
    rcases (hn.valid.edges_iff _).1 hw with h1 | h1
    · exact (hout.edges_iff _).2 (Or.inl ((far hz).1.2 h1))
    · exact (hout.edges_iff _).2 (Or.inr ((far hz).2.2 h1))
  refine ⟨x, y, hx, hy, fun e => hab.ne (edgePoint_ends hs hn h hx (by rw [e]; exact hy)), fun z => ?_⟩
  rw [tri, tri]
  constructor
  · rintro (rfl | rfl)
    · refine ⟨edge' _ _ ha.1 hx, ?_⟩
      rw [(far hx).1, (far hx).2, ← tri, ← tri]; exact ha.2
    · refine ⟨edge' _ _ hb.1 hy, ?_⟩
      rw [(far hy).1, (far hy).2, ← tri, ← tri]; exact hb.2
  · rintro ⟨h1, h2⟩
    obtain ⟨w, hw, hz⟩ := edge z h1
    rw [(far hz).1, (far hz).2, ← tri, ← tri] at h2
    rcases (hab.only w).2 ⟨hw, h2⟩ with rfl | rfl
    · left; rw [hz] at hx; exact Option.some.inj hx
    · right; rw [hz] at hy; exact Option.some.inj hy

end darts

section coords
variable {V D : Type} [AddCommGroup V] [Module ℝ V] {lib : QELib} {inp out : Mesh V D} {f' : Filt}

theorem Mesh.Valid.tri_lt {m : Mesh V D} (hv : m.Valid) {a b c : PId} (h : HasTri m.tris a b c) : c < m.points.length :=
  (hv.isEdge_lt ((hv.edges_iff _).2 (Or.inl (dartsOf_iff_hasTri.2 ⟨_, h.rot⟩)))).2

/-- going to the next neighbour is a permutation -/
theorem InnerAt.turn {m : Mesh V D} (hv : m.Valid) {v : PId} {N : List PId} (hN : m.InnerAt v N) {c d : PId → PId}
    (hc : ∀ w ∈ N, HasTri m.tris v w (c w)) (hd : ∀ w ∈ N, HasTri m.tris w v (d w)) :
    (N.map c).Perm N ∧ (N.map d).Perm N := by
  have inN : ∀ {w}, (∃ z, HasTri m.tris v w z) ∨ (∃ z, HasTri m.tris w v z) → w ∈ N := fun h =>
    (hN.all _).2 ((hv.edges_iff _).2 (h.imp dartsOf_iff_hasTri.2 dartsOf_iff_hasTri.2))
  have hcN : ∀ w ∈ N, c w ∈ N := fun w hw => inN (Or.inr ⟨w, (hc w hw).rot.rot⟩)
  have hdN : ∀ w ∈ N, d w ∈ N := fun w hw => inN (Or.inl ⟨w, (hd w hw).rot⟩)
  have hdc : ∀ w ∈ N, d (c w) = w := fun w hw => hv.good.hasTri_unique (hd _ (hcN w hw)) (hc w hw).rot.rot
  have hcd : ∀ w ∈ N, c (d w) = w := fun w hw => hv.good.hasTri_unique (hc _ (hdN w hw)) (hd w hw).rot
  have mk : ∀ g : PId → PId, (∀ w ∈ N, g w ∈ N) → (∀ w ∈ N, ∀ w' ∈ N, g w = g w' → w = w') → (N.map g).Perm N := by
    intro g h1 h2
    refine (List.subperm_of_subset ((List.nodup_map_iff_inj_on hN.nodup).2 fun w hw w' hw' => h2 w hw w' hw') ?_).perm_of_length_le (by simp)
    intro y hy
    obtain ⟨w, hw, rfl⟩ := List.mem_map.1 hy
    exact h1 w hw
  exact ⟨mk c hcN fun w hw w' hw' e => by rw [← hdc w hw, ← hdc w' hw', e], mk d hdN fun w hw w' hw' e => by rw [← hcd w hw, ← hcd w' hw', e]⟩

/-- one level: the point and the sum of its neighbours -/
theorem inner_level (hn : Scheme.loop.Needs inp) (h : cellUpdate .loop lib realCos (Filt.new.setCells []) inp = (.ok out, f'))
    {v : PId} {p : V} (hp : inp.pos v = some p) {N : List PId} (hN : inp.InnerAt v N) {β : ℝ}
    (hβ : β = (5 / 8 - loopRate N.length) / N.length) :
    ∃ N' : List PId, out.InnerAt v N' ∧ N'.length = N.length ∧
      out.pos v = some ((1 - (N.length : ℝ) * β) • p + β • (N.map inp.coord).sum) ∧
      (N'.map out.coord).sum = ((3 / 8 : ℝ) * N.length) • p + (5 / 8 : ℝ) • (N.map inp.coord).sum := by
  have hv := hn.valid
  have hlt := hv.pos_lt hp
  have hout := (C04_output_valid (sch := .loop) (by decide) hn (selOK_nil _) h).1
  obtain ⟨x, hx, hN'⟩ := InnerAt_level (by decide) hn hout h hlt hN
  have pos : ∀ {w}, w < inp.points.length → inp.pos w = some (inp.coord w) := fun hw => hv.pos_eq hw
  have hexc : ∀ w, ∃ c, w ∈ N → HasTri inp.tris v w c := fun w => by
    by_cases hw : w ∈ N
    · exact (hN.inner w hw).1.imp fun c hc _ => hc
    · exact ⟨0, fun hc => absurd hc hw⟩
  have hexd : ∀ w, ∃ c, w ∈ N → HasTri inp.tris w v c := fun w => by
    by_cases hw : w ∈ N
    · exact (hN.inner w hw).2.imp fun c hc _ => hc
    · exact ⟨0, fun hc => absurd hc hw⟩
  choose c hc using hexc
  choose d hd using hexd
  obtain ⟨p1, p2⟩ := InnerAt.turn hv hN hc hd
  refine ⟨N.map x, hN', by simp, ?_, ?_⟩
  · exact C09_loop_inner_point hn h hp hN.nodup hN.all hN.inner (q := inp.coord)
      (fun w hw => pos (hv.isEdge_lt ((hN.all w).1 hw)).2) hβ
  · have each : ∀ w ∈ N, out.coord (x w) = (3 / 8 : ℝ) • p + ((3 / 8 : ℝ) • inp.coord w + ((1 / 8 : ℝ) • inp.coord (c w) +
        (1 / 8 : ℝ) • inp.coord (d w))) := by
      intro w hw
      rw [Mesh.coord_of_pos (C08_loop_inner_edge hn (selOK_nil _) h (hx w hw) (hc w hw) (hd w hw) hp
        (pos (hv.isEdge_lt ((hN.all w).1 hw)).2) (pos (hv.tri_lt (hc w hw))) (pos (hv.tri_lt (hd w hw))))]
      module
    have s1 : (N.map fun w => inp.coord (c w)).sum = (N.map inp.coord).sum := by
      have := (p1.map inp.coord).sum_eq
      rwa [List.map_map] at this
    have s2 : (N.map fun w => inp.coord (d w)).sum = (N.map inp.coord).sum := by
      have := (p2.map inp.coord).sum_eq
      rwa [List.map_map] at this
    have smul : ∀ (r : ℝ) (g : PId → V), (N.map fun w => r • g w).sum = r • (N.map g).sum := fun r g => by
      rw [List.smul_sum, List.map_map]; rfl
    rw [List.map_map, List.map_congr_left (f := out.coord ∘ x) (g := fun w => (3 / 8 : ℝ) • p + ((3 / 8 : ℝ) • inp.coord w + ((1 / 8 : ℝ) • inp.coord (c w) +
        (1 / 8 : ℝ) • inp.coord (d w)))) each, List.sum_map_add, List.sum_map_add, List.sum_map_add, smul, smul, smul, smul, s1, s2]
    rw [List.map_const', List.sum_replicate, ← Nat.cast_smul_eq_nsmul ℝ]
    module

/-- one level on the boundary -/
theorem rim_level (hn : Scheme.loop.Needs inp) (h : cellUpdate .loop lib realCos (Filt.new.setCells []) inp = (.ok out, f'))
    {v : PId} {p : V} (hp : inp.pos v = some p) {a b : PId} (hab : inp.RimAt v a b) :
    ∃ x y, out.RimAt v x y ∧
      out.pos v = some ((3 / 4 : ℝ) • p + (1 / 8 : ℝ) • inp.coord a + (1 / 8 : ℝ) • inp.coord b) ∧
      out.coord x = (1 / 2 : ℝ) • p + (1 / 2 : ℝ) • inp.coord a ∧ out.coord y = (1 / 2 : ℝ) • p + (1 / 2 : ℝ) • inp.coord b := by
  have hv := hn.valid
  have hlt := hv.pos_lt hp
  have hout := (C04_output_valid (sch := .loop) (by decide) hn (selOK_nil _) h).1
  obtain ⟨x, y, hx, hy, hr⟩ := RimAt_level (by decide) hn hout h hlt hab
  have ha := (hab.only a).1 (Or.inl rfl)
  have hb := (hab.only b).1 (Or.inr rfl)
  have pa := hv.pos_eq (hv.isEdge_lt ha.1).2
  have pb := hv.pos_eq (hv.isEdge_lt hb.1).2
  exact ⟨x, y, hr, C09_loop_boundary_point hn h hp hab.ne hab.only pa pb,
    Mesh.coord_of_pos (C08_loop_boundary_edge hn (selOK_nil _) h hx ha.2 hp pa),
    Mesh.coord_of_pos (C08_loop_boundary_edge hn (selOK_nil _) h hy hb.2 hp pb)⟩

theorem loopRate_bounds (k : Nat) : 0 ≤ loopRate k ∧ loopRate k ≤ 25 / 64 := by
  unfold loopRate
  have h1 := Real.cos_le_one (2 * Real.pi / k)
  have h2 := Real.neg_one_le_cos (2 * Real.pi / k)
  constructor
  · positivity
  · nlinarith

/-- `L` levels round an inner point -/
theorem inner_levels (hl : lib.Lawful) (hn : Scheme.loop.Needs inp) {v : PId} {p : V} (hp : inp.pos v = some p) {N : List PId}
    (hN : inp.InnerAt v N) (L : Nat) :
    ∃ m', manyLevels .loop lib realCos L (inp, []) = .ok (m', []) ∧
      m'.pos v = some (loopLimit N.length p (N.map inp.coord).sum +
        loopRate N.length ^ L • (p - loopLimit N.length p (N.map inp.coord).sum)) := by
  set k := N.length with hk
  set lim := loopLimit k p (N.map inp.coord).sum with hlim
  set β : ℝ := (5 / 8 - loopRate k) / k with hβ
  have hk0 : (k : ℝ) ≠ 0 := by
    obtain ⟨w, hw⟩ := (hn.noIsolated rfl).edge hn.valid (hn.valid.pos_lt hp)
    have := List.length_pos_of_mem ((hN.all w).2 hw)
    rw [← hk] at this
    exact_mod_cast this.ne'
  have hkβ : (k : ℝ) * β = 5 / 8 - loopRate k := by rw [hβ]; field_simp
  have hone : (1 - loopRate k) ≠ 0 := by have := (loopRate_bounds k).2; linarith
  obtain ⟨m', h1, N', -, -, h4, -⟩ := uniform_levels (sch := .loop) (lib := lib) (cosn := realCos) (fun _ => hl)
    (fun i m => ∃ N' : List PId, m.InnerAt v N' ∧ N'.length = k ∧
      m.pos v = some (lim + loopRate k ^ i • (p - lim)) ∧
      β • (N'.map m.coord).sum + (3 / 8 : ℝ) • (lim + loopRate k ^ i • (p - lim)) = (1 - loopRate k) • lim) (by
    rintro i m out f' hn' - hc ⟨N', g1, g2, g3, g4⟩
    obtain ⟨N'', k1, k2, k3, k4⟩ := inner_level hn' hc g3 g1 (β := β) (by rw [g2])
    have hS : β • (N'.map m.coord).sum = (1 - loopRate k) • lim - (3 / 8 : ℝ) • (lim + loopRate k ^ i • (p - lim)) :=
      eq_sub_of_add_eq g4
    refine ⟨N'', k1, k2.trans g2, ?_, ?_⟩
    · rw [k3, hS, g2, hkβ, pow_succ]
      congr 1
      module
    · rw [k4, smul_add, smul_smul, smul_comm β (5 / 8 : ℝ), hS, g2, pow_succ]
      have : β * (3 / 8 * (k : ℝ)) = 3 / 8 * (5 / 8 - loopRate k) := by rw [← hkβ]; ring
      rw [this]
      module)
    L 0 hn (fun h => by cases h) (m := inp) ⟨N, hN, rfl, by rw [hp, pow_zero, one_smul]; congr 1; module, by
      rw [pow_zero, one_smul, add_sub_cancel, hlim]
      unfold loopLimit
      rw [smul_smul, mul_one_div_cancel hone, one_smul, hβ, add_comm]⟩
  rw [Nat.zero_add] at h4
  exact ⟨m', h1, h4⟩

/-- `L` levels on the boundary -/
theorem rim_levels (hl : lib.Lawful) (hn : Scheme.loop.Needs inp) {v : PId} {p : V} (hp : inp.pos v = some p) {a b : PId}
    (hab : inp.RimAt v a b) (L : Nat) :
    ∃ m', manyLevels .loop lib realCos L (inp, []) = .ok (m', []) ∧
      m'.pos v = some (loopRimLimit p (inp.coord a) (inp.coord b) +
        (1 / 4 : ℝ) ^ L • (p - loopRimLimit p (inp.coord a) (inp.coord b))) := by
  set lim := loopRimLimit p (inp.coord a) (inp.coord b) with hlim
  obtain ⟨m', h1, x, y, -, h4, -⟩ := uniform_levels (sch := .loop) (lib := lib) (cosn := realCos) (fun _ => hl)
    (fun i m => ∃ x y, m.RimAt v x y ∧ m.pos v = some (lim + (1 / 4 : ℝ) ^ i • (p - lim)) ∧
      m.coord x + m.coord y = (6 : ℝ) • lim - (4 : ℝ) • (lim + (1 / 4 : ℝ) ^ i • (p - lim))) (by
    rintro i m out f' hn' - hc ⟨x, y, g1, g3, g4⟩
    obtain ⟨x', y', k1, k3, k4, k5⟩ := rim_level hn' hc g3 g1
    have hx : m.coord x = (6 : ℝ) • lim - (4 : ℝ) • (lim + (1 / 4 : ℝ) ^ i • (p - lim)) - m.coord y := eq_sub_of_add_eq g4
    refine ⟨x', y', k1, ?_, ?_⟩
    · rw [k3, hx, pow_succ]
      congr 1
      module
    · rw [k4, k5, hx, pow_succ]
      module)
    L 0 hn (fun h => by cases h) (m := inp) ⟨a, b, hab, by rw [hp, pow_zero, one_smul]; congr 1; module, by
      rw [pow_zero, one_smul, add_sub_cancel, hlim]
      unfold loopRimLimit
      module⟩
  rw [Nat.zero_add] at h4
  exact ⟨m', h1, h4⟩

/-- turning an index by one does not change the sum over a round -/
theorem sum_turn {k : Nat} {g : Nat → V} (hg : ∀ i, g (i + k) = g i) :
    ∑ i ∈ Finset.range k, g (i + 1) = ∑ i ∈ Finset.range k, g i := by
  have h1 := Finset.sum_range_succ g k
  have h2 := Finset.sum_range_succ' g k
  have h3 : g k = g 0 := by have := hg 0; rwa [Nat.zero_add] at this
  rw [h1, h3] at h2
  exact (add_right_cancel h2).symm

theorem cos_turn {k : Nat} (hk : k ≠ 0) (i : Nat) (φ : ℝ) :
    Real.cos (2 * Real.pi * ((i + k : Nat) : ℝ) / k + φ) = Real.cos (2 * Real.pi * i / k + φ) := by
  have hk0 : (k : ℝ) ≠ 0 := by exact_mod_cast hk
  rw [show 2 * Real.pi * ((i + k : Nat) : ℝ) / k + φ = 2 * Real.pi * i / k + φ + 2 * Real.pi by push_cast; field_simp; ring]
  exact Real.cos_add_two_pi _

theorem cos_both (k i : Nat) (φ : ℝ) :
    Real.cos (2 * Real.pi * ((i + 2 : Nat) : ℝ) / k + φ) + Real.cos (2 * Real.pi * i / k + φ) =
      2 * Real.cos (2 * Real.pi / k) * Real.cos (2 * Real.pi * ((i + 1 : Nat) : ℝ) / k + φ) := by
  rw [show 2 * Real.pi * ((i + 2 : Nat) : ℝ) / k + φ = (2 * Real.pi * ((i + 1 : Nat) : ℝ) / k + φ) + 2 * Real.pi / k by push_cast; ring,
    show 2 * Real.pi * (i : ℝ) / k + φ = (2 * Real.pi * ((i + 1 : Nat) : ℝ) / k + φ) - 2 * Real.pi / k by push_cast; ring,
    Real.cos_add, Real.cos_sub]
  ring

/-- the waves sum to zero -/
theorem cos_sum {k : Nat} (hk : 2 ≤ k) (φ : ℝ) : ∑ i ∈ Finset.range k, Real.cos (2 * Real.pi * (i : ℝ) / k + φ) = 0 := by
  have hk0 : k ≠ 0 := by omega
  have t1 := sum_turn (g := fun i : Nat => Real.cos (2 * Real.pi * (i : ℝ) / k + φ)) fun i => cos_turn hk0 i φ
  have t2 := sum_turn (g := fun i : Nat => Real.cos (2 * Real.pi * ((i + 1 : Nat) : ℝ) / k + φ)) fun i => by
    rw [show i + k + 1 = i + 1 + k by omega]; exact cos_turn hk0 (i + 1) φ
  have t3 := Finset.sum_congr (rfl : Finset.range k = Finset.range k) fun i _ => cos_both k i φ
  rw [Finset.sum_add_distrib, ← Finset.mul_sum] at t3
  rw [show (∑ i ∈ Finset.range k, Real.cos (2 * Real.pi * ((i + 2 : Nat) : ℝ) / k + φ)) = _ from t2, t1] at t3
  have hc : Real.cos (2 * Real.pi / k) ≠ 1 := by
    have hkr : (2 : ℝ) ≤ k := by exact_mod_cast hk
    have hpi := Real.pi_pos
    have hpos : 0 < 2 * Real.pi / k := by positivity
    rw [Ne, Real.cos_eq_one_iff_of_lt_of_lt (by linarith) ((div_lt_iff₀ (by linarith)).2 (by nlinarith))]
    exact hpos.ne'
  have : (2 - 2 * Real.cos (2 * Real.pi / k)) * ∑ i ∈ Finset.range k, Real.cos (2 * Real.pi * (i : ℝ) / k + φ) = 0 := by linarith
  rcases mul_eq_zero.1 this with h | h
  · exact absurd (by linarith) hc
  · exact h

/-- one level round a point, with the neighbours in order -/
theorem round_level (hn : Scheme.loop.Needs inp) (h : cellUpdate .loop lib realCos (Filt.new.setCells []) inp = (.ok out, f'))
    {v : PId} {p : V} (hp : inp.pos v = some p) {k : Nat} {w : Nat → PId} (hw : inp.RoundAt v k w) :
    ∃ x : Nat → PId, out.RoundAt v k x ∧ ∀ φ : ℝ, ∑ i ∈ Finset.range k, Real.cos (2 * Real.pi * i / k + φ) • out.coord (x i) =
      (3 / 8 + Real.cos (2 * Real.pi / k) / 4) • ∑ i ∈ Finset.range k, Real.cos (2 * Real.pi * i / k + φ) • inp.coord (w i) := by
  have hv := hn.valid
  have hlt := hv.pos_lt hp
  have R := (cellUpdate_result (sch := .loop) (by decide) hn (selOK_nil _) h).1
  change FaceSplitResult lib inp out _ f' _ (inp.edgePoint ([] : List CId)) _ at R
  have hex : ∀ u, ∃ y, (∃ i, u = w i) → inp.edgePoint ([] : List CId) (v, u) = some y := by
    intro u
    by_cases hu : ∃ i, u = w i
    · obtain ⟨i, rfl⟩ := hu
      obtain ⟨y, hy⟩ := edgePoint_all (inp := inp) (Or.inl (dartsOf_iff_hasTri.2 ⟨_, hw.tri i⟩))
      exact ⟨y, fun _ => hy⟩
    · exact ⟨0, fun hc => absurd hc hu⟩
  choose y hy using hex
  have hx : ∀ i, inp.edgePoint ([] : List CId) (v, w i) = some (y (w i)) := fun i => hy _ ⟨i, rfl⟩
  have hper : ∀ i, y (w (i + k)) = y (w i) := fun i => by rw [hw.round]
  have pos : ∀ i, inp.pos (w i) = some (inp.coord (w i)) := fun i =>
    hv.pos_eq (hv.isEdge_lt ((hv.edges_iff (v, w i)).2 (Or.inl (dartsOf_iff_hasTri.2 ⟨_, hw.tri i⟩)))).2
  have hsym : ∀ e, inp.edgePoint ([] : List CId) e.sym = inp.edgePoint [] e := fun e => labelOf_sym _ _ e
  refine ⟨fun i => y (w i), ⟨fun i => ?_, hper⟩, fun φ => ?_⟩
  · have h2 : inp.edgePoint ([] : List CId) (w (i + 1), v) = some (y (w (i + 1))) := (hsym (v, w (i + 1))).trans (hx _)
    obtain ⟨m1, h1⟩ := edgePoint_all (inp := inp) (e := (w i, w (i + 1))) (Or.inl (dartsOf_iff_hasTri.2 ⟨_, (hw.tri i).rot⟩))
    have kid : ∀ t ∈ inp.tris, ∀ d ∈ t.children (inp.edgePoint []), d ∈ out.tris := fun t ht d hd => by
      rw [R.tris]; exact List.mem_flatMap.2 ⟨_, ht, hd⟩
    rcases hw.tri i with ht | ht | ht <;>
    · have := kid _ ht
      simp only [Tri.children, hx i, h1, h2, List.mem_cons, List.not_mem_nil, or_false, forall_eq_or_imp, forall_eq] at this
      unfold HasTri
      tauto
  · rcases Nat.lt_or_ge k 2 with hk | hk
    · obtain rfl | rfl : k = 0 ∨ k = 1 := by omega
      · simp
      · exact absurd (hw.round 0) ((hw.tri 0).ne hv.good.nd).2.1.symm
    have hk0 : k ≠ 0 := by omega
    have each : ∀ i, out.coord (y (w (i + 1))) = (3 / 8 : ℝ) • p + ((3 / 8 : ℝ) • inp.coord (w (i + 1)) +
        ((1 / 8 : ℝ) • inp.coord (w (i + 2)) + (1 / 8 : ℝ) • inp.coord (w i))) := by
      intro i
      rw [Mesh.coord_of_pos (C08_loop_inner_edge hn (selOK_nil _) h (hx (i + 1)) (hw.tri (i + 1)) (hw.tri i).rot.rot hp
        (pos _) (pos _) (pos _))]
      module
    set c : Nat → ℝ := fun i => Real.cos (2 * Real.pi * i / k + φ) with hc
    have hcp : ∀ i, c (i + k) = c i := fun i => cos_turn hk0 i φ
    have t0 : ∑ i ∈ Finset.range k, c (i + 1) • out.coord (y (w (i + 1))) = ∑ i ∈ Finset.range k, c i • out.coord (y (w i)) :=
      sum_turn (g := fun i => c i • out.coord (y (w i))) fun i => by simp only [hcp, hper]
    have t1 : ∑ i ∈ Finset.range k, c (i + 1) • inp.coord (w (i + 1)) = ∑ i ∈ Finset.range k, c i • inp.coord (w i) :=
      sum_turn (g := fun i => c i • inp.coord (w i)) fun i => by simp only [hcp, hw.round]
    have z : ∑ i ∈ Finset.range k, c (i + 1) = 0 := by
      rw [sum_turn (g := c) hcp]; exact cos_sum hk φ
    have t2 : ∑ i ∈ Finset.range k, (c (i + 2) • inp.coord (w (i + 2)) - (c (i + 2) - c (i + 1)) • inp.coord (w (i + 2))) =
        ∑ i ∈ Finset.range k, (c (i + 1) • inp.coord (w (i + 1)) - (c (i + 1) - c i) • inp.coord (w (i + 1))) :=
      sum_turn (g := fun i => c (i + 1) • inp.coord (w (i + 1)) - (c (i + 1) - c i) • inp.coord (w (i + 1))) fun i => by
        simp only [show i + k + 1 = i + 1 + k by omega, hcp, hw.round]
    have t3 : ∑ i ∈ Finset.range k, c (i + 2) • inp.coord (w (i + 1)) = ∑ i ∈ Finset.range k, c (i + 1) • inp.coord (w i) :=
      sum_turn (g := fun i => c (i + 1) • inp.coord (w i)) fun i => by
        simp only [show i + k + 1 = i + 1 + k by omega, hcp, hw.round]
    have t2' : ∑ i ∈ Finset.range k, c (i + 1) • inp.coord (w (i + 2)) = ∑ i ∈ Finset.range k, c i • inp.coord (w (i + 1)) := by
      refine (Finset.sum_congr rfl fun i _ => ?_).trans (t2.trans (Finset.sum_congr rfl fun i _ => ?_)) <;> module
    have both : ∀ i, c (i + 2) + c i = 2 * Real.cos (2 * Real.pi / k) * c (i + 1) := fun i => cos_both k i φ
    show ∑ i ∈ Finset.range k, c i • out.coord (y (w i)) = _ • ∑ i ∈ Finset.range k, c i • inp.coord (w i)
    rw [← t0, ← t1]
    calc ∑ i ∈ Finset.range k, c (i + 1) • out.coord (y (w (i + 1)))
        = ∑ i ∈ Finset.range k, (c (i + 1) • ((3 / 8 : ℝ) • p) + ((3 / 8 : ℝ) • (c (i + 1) • inp.coord (w (i + 1))) +
            ((1 / 8 : ℝ) • (c (i + 1) • inp.coord (w (i + 2))) + (1 / 8 : ℝ) • (c (i + 1) • inp.coord (w i))))) := by
          refine Finset.sum_congr rfl fun i _ => ?_
          rw [each]; module
      _ = (∑ i ∈ Finset.range k, c (i + 1)) • ((3 / 8 : ℝ) • p) + ((3 / 8 : ℝ) • ∑ i ∈ Finset.range k, c (i + 1) • inp.coord (w (i + 1)) +
            ((1 / 8 : ℝ) • ∑ i ∈ Finset.range k, c i • inp.coord (w (i + 1)) +
              (1 / 8 : ℝ) • ∑ i ∈ Finset.range k, c (i + 2) • inp.coord (w (i + 1)))) := by
          rw [Finset.sum_add_distrib, Finset.sum_add_distrib, Finset.sum_add_distrib, ← Finset.smul_sum, ← Finset.smul_sum,
            ← Finset.smul_sum, ← Finset.sum_smul, t2', t3]
      _ = (3 / 8 : ℝ) • ∑ i ∈ Finset.range k, c (i + 1) • inp.coord (w (i + 1)) +
            (1 / 8 : ℝ) • ∑ i ∈ Finset.range k, (c (i + 2) + c i) • inp.coord (w (i + 1)) := by
          rw [z, zero_smul, zero_add, ← smul_add, ← Finset.sum_add_distrib]
          congr 2
          refine Finset.sum_congr rfl fun i _ => ?_
          module
      _ = _ := by
          have : ∑ i ∈ Finset.range k, (c (i + 2) + c i) • inp.coord (w (i + 1)) =
              (2 * Real.cos (2 * Real.pi / k)) • ∑ i ∈ Finset.range k, c (i + 1) • inp.coord (w (i + 1)) := by
            rw [Finset.smul_sum]
            refine Finset.sum_congr rfl fun i _ => ?_
            rw [both, smul_smul]
          rw [this]
          module

/-- `L` levels round a point, with the neighbours in order -/
theorem round_levels (hl : lib.Lawful) (hn : Scheme.loop.Needs inp) {v : PId} {p : V} (hp : inp.pos v = some p) {k : Nat}
    {w : Nat → PId} (hw : inp.RoundAt v k w) (L : Nat) :
    ∃ m', manyLevels .loop lib realCos L (inp, []) = .ok (m', []) ∧ ∃ x : Nat → PId, m'.RoundAt v k x ∧
      ∀ φ : ℝ, ∑ i ∈ Finset.range k, Real.cos (2 * Real.pi * i / k + φ) • m'.coord (x i) =
        (3 / 8 + Real.cos (2 * Real.pi / k) / 4) ^ L • ∑ i ∈ Finset.range k, Real.cos (2 * Real.pi * i / k + φ) • inp.coord (w i) := by
  obtain ⟨m', h1, -, x, h3, h4⟩ := uniform_levels (sch := .loop) (lib := lib) (cosn := realCos) (fun _ => hl)
    (fun j m => (∃ q, m.pos v = some q) ∧ ∃ x : Nat → PId, m.RoundAt v k x ∧
      ∀ φ : ℝ, ∑ i ∈ Finset.range k, Real.cos (2 * Real.pi * i / k + φ) • m.coord (x i) =
        (3 / 8 + Real.cos (2 * Real.pi / k) / 4) ^ j • ∑ i ∈ Finset.range k, Real.cos (2 * Real.pi * i / k + φ) • inp.coord (w i)) (by
    rintro j m out f' hn' - hc ⟨⟨q, hq⟩, x, g1, g2⟩
    obtain ⟨x', k1, k2⟩ := round_level hn' hc hq g1
    have hout := (C04_output_valid (sch := .loop) (by decide) hn' (selOK_nil _) hc).1
    have R := (cellUpdate_result (sch := .loop) (by decide) hn' (selOK_nil _) hc).1
    refine ⟨⟨_, hout.pos_eq (Nat.lt_of_lt_of_le (hn'.valid.pos_lt hq) ?_)⟩, x', k1, fun φ => ?_⟩
    · rw [R.points, AMap.length_dense]; exact R.longer
    · rw [k2, g2, smul_smul, pow_succ, mul_comm])
    L 0 hn (fun h => by cases h) (m := inp) ⟨⟨p, hp⟩, w, hw, fun φ => by rw [pow_zero, one_smul]⟩
  rw [Nat.zero_add] at h4
  exact ⟨m', h1, x, h3, h4⟩

end coords

end Verif
