import Verif.Spec.Rim
import Verif.Proofs.Levels
import Verif.Properties.Points
import Verif.Properties.Topology
import Verif.Properties.Sqrt3
import Mathlib.Tactic.Module
/-
What a uniform run makes of the boundary.
-/
namespace Verif
set_option linter.unusedSectionVars false
variable {P D : Type}

theorem inTurn_even (e o : Int → P) (i : Int) : inTurn e o (2 * i) = e i := by
  unfold inTurn
  rw [if_pos (by omega), show 2 * i / 2 = i by omega]

theorem inTurn_odd (e o : Int → P) (i : Int) : inTurn e o (2 * i + 1) = o i := by
  unfold inTurn
  rw [if_neg (by omega), show (2 * i + 1) / 2 = i by omega]

theorem even_or_odd (j : Int) : (∃ i, j = 2 * i) ∨ ∃ i, j = 2 * i + 1 := by
  rcases Int.emod_two_eq_zero_or_one j with h | h
  · exact .inl ⟨j / 2, by omega⟩
  · exact .inr ⟨j / 2, by omega⟩

section
variable {K : Type} [Field K] [Zero P] [Add P] [SMul K P] {lib : QELib} {cosn : Nat → K} {f f' : Filt} {inp out : Mesh P D}
  {sch : Scheme}

/-- the pieces of a boundary that does not touch itself do not touch either -/
theorem simple_split (hs : sch ≠ .sqrt3) (hn : sch.Needs inp) (hsel : inp.SelOK f.cells)
    (h : cellUpdate sch lib cosn f inp = (.ok out, f')) (hsb : inp.SimpleBoundary) : out.SimpleBoundary := by
  have hb := (C18_boundary_preserved hs hn hsel h).1
  have hlt : ∀ e, inp.IsBoundary e → e.1 < inp.points.length ∧ e.2 < inp.points.length := fun e he =>
    hn.valid.isEdge_lt ((hn.valid.edges_iff _).2 (.inl he.1))
  have hge : ∀ e m, inp.edgePoint f.cells e = some m → inp.points.length ≤ m := fun e m hm => (labelOf_range hm).1
  have hinj : ∀ e e' m, inp.IsBoundary e → inp.IsBoundary e' → inp.edgePoint f.cells e = some m →
      inp.edgePoint f.cells e' = some m → e = e' := by
    intro e e' m he he' h1 h2
    rcases labelOf_inj h1 h2 with h3 | h3
    · exact h3.symm
    · exact absurd he'.1 (h3 ▸ he.2)
  intro x y hx hy
  obtain ⟨e, he, hp⟩ := (hb x).1 hx
  obtain ⟨e', he', hp'⟩ := (hb y).1 hy
  have ne : ∀ {e' : Edge} {m : PId} {z : Edge}, inp.IsBoundary e' → inp.edgePoint f.cells z = some m → (e'.1 = m ∨ e'.2 = m) → False := by
    intro e' m z he' hm hc
    have h1 := hge _ _ hm
    rcases hc with hc | hc
    · exact absurd (hlt _ he').1 (Nat.not_lt.2 (hc ▸ h1))
    · exact absurd (hlt _ he').2 (Nat.not_lt.2 (hc ▸ h1))
  rcases hp with ⟨h0, rfl⟩ | ⟨m, hm, rfl | rfl⟩ <;> rcases hp' with ⟨h0', rfl⟩ | ⟨m', hm', rfl | rfl⟩ <;>
    refine ⟨fun hc => ?_, fun hc => ?_⟩ <;> try simp only at hc
  · exact (hsb _ _ he he').1 hc
  · exact (hsb _ _ he he').2 hc
  · obtain rfl := (hsb _ _ he he').1 hc
    rw [h0] at hm'; cases hm'
  · exact (ne he hm' (.inr hc)).elim
  · exact (ne he hm' (.inl hc)).elim
  · obtain rfl := (hsb _ _ he he').2 hc
    rw [h0] at hm'; cases hm'
  · obtain rfl := (hsb _ _ he he').1 hc
    rw [h0'] at hm; cases hm
  · exact (ne he' hm (.inr hc.symm)).elim
  · obtain rfl := (hsb _ _ he he').1 hc
    obtain rfl := Option.some.inj (hm.symm.trans hm')
    rfl
  · subst hc
    obtain rfl := hinj _ _ _ he he' hm hm'
    rfl
  · exact (ne he hm' (.inl hc)).elim
  · exact (ne he' hm (.inr hc.symm)).elim
  · exact (ne he' hm (.inl hc.symm)).elim
  · obtain rfl := (hsb _ _ he he').2 hc
    rw [h0'] at hm; cases hm
  · exact (ne he' hm (.inl hc.symm)).elim
  · exact (ne he hm' (.inr hc)).elim
  · subst hc
    obtain rfl := hinj _ _ _ he he' hm hm'
    rfl
  · obtain rfl := (hsb _ _ he he').2 hc
    obtain rfl := Option.some.inj (hm.symm.trans hm')
    rfl

end

variable {K : Type} [Field K] [AddCommGroup P] [Module K P] {lib : QELib} {cosn : Nat → K} {f f' : Filt} {inp out : Mesh P D}
  {sch : Scheme}

theorem loop_border_point (hn : Scheme.loop.Needs inp) (hsb : inp.SimpleBoundary)
    (h : cellUpdate .loop lib cosn (Filt.new.setCells []) inp = (.ok out, f'))
    {a v b : PId} (hav : inp.IsBoundary (a, v)) (hvb : inp.IsBoundary (v, b)) :
    out.pos v = some ((3 / 4 : K) • inp.coord v + (1 / 8 : K) • inp.coord a + (1 / 8 : K) • inp.coord b) := by
  have hv := hn.valid
  have hr := hn.ring (Or.inl rfl)
  have hw : inp.IsEdge (v, b) := (hv.edges_iff _).2 (.inl hvb.1)
  have hlt : v < inp.points.length := (hv.isEdge_lt hw).1
  obtain ⟨r, g1, g2, g3⟩ := smoothingPoint_ok cosn hv hr hw (inp.coord v)
  have hN : ∀ w, w ∈ r.map Prod.snd ↔ inp.IsEdge (v, w) := by
    intro w
    rw [List.mem_map]
    constructor
    · rintro ⟨⟨x, y⟩, he, rfl⟩
      obtain ⟨h1, h2⟩ := (g2 _).1 he
      cases h2; exact h1
    · intro hw; exact ⟨(v, w), (g2 _).2 ⟨hw, rfl⟩, rfl⟩
  have hr1 : r = (r.map Prod.snd).map fun w => (v, w) := by
    rw [List.map_map]
    conv_lhs => rw [← List.map_id r]
    apply List.map_congr_left
    rintro ⟨x, y⟩ he
    have := ((g2 _).1 he).2
    simp only at this
    simp [this]
  have hnd : (r.map Prod.snd).Nodup := by
    rw [hr1] at g1
    exact List.Nodup.of_map _ g1
  have hab : a ≠ b := by
    rintro rfl
    exact hvb.2 hav.1
  have hsm := smoothed_border cosn hv (List.Perm.of_eq hr1) hnd hN (B := [a, b]) (by simp) (by simpa using hab) (by
    intro w
    rw [List.mem_cons, List.mem_singleton, show inp.IsEdge (v, w) ↔ _ from hv.edges_iff (v, w)]
    constructor
    · rintro (rfl | rfl)
      · exact ⟨.inr hav.1, fun hh => hav.2 hh.1⟩
      · exact ⟨.inl hvb.1, fun hh => hvb.2 hh.2⟩
    · rintro ⟨h1 | h1, h2⟩
      · have : inp.IsBoundary (v, w) := ⟨h1, fun hh => h2 ⟨h1, hh⟩⟩
        exact .inr (Prod.mk.inj ((hsb _ _ this hvb).1 rfl)).2
      · have : inp.IsBoundary (w, v) := ⟨h1, fun hh => h2 ⟨hh, h1⟩⟩
        exact .inl (Prod.mk.inj ((hsb _ _ this hav).2 rfl)).1) (inp.coord v)
  rw [hsm] at g3
  rw [cellUpdate_base (by decide) hn (selOK_nil _) h hlt]
  simp only [schemeBase, loopBase, Filt.new, Filt.setCells, Bool.true_or, if_true]
  rw [valueOf_eq (np := fun v => smoothingPoint cosn inp v (inp.coord v)) g3]
  simp only [List.map_cons, List.map_nil, List.sum_cons, List.sum_nil, add_zero, smul_add]
  rw [add_assoc]

/-- the new point of a boundary edge -/
theorem boundary_split {e : Edge} (he : inp.IsBoundary e) : ∃ m, inp.edgePoint ([] : List CId) e = some m := by
  refine Option.isSome_iff_exists.1 ?_
  rw [edgePoint_isSome]
  exact .inl (by simpa [Mesh.selected] using he.1)

theorem rim_linear (hv : inp.Valid) (h : cellUpdate .linear lib cosn (Filt.new.setCells []) inp = (.ok out, f'))
    {q : Int → P} (hq : inp.Rim q) : out.Rim (withMidpoints K q) := by
  obtain ⟨v, hq⟩ := hq
  have hn : Scheme.linear.Needs inp := ⟨hv, by simp, by simp⟩
  have hb := (C18_boundary_preserved (by decide) hn (selOK_nil _) h).1
  choose m hm using fun i => boundary_split (hq i).1
  refine ⟨inTurn v m, fun j => ?_⟩
  obtain ⟨i, rfl⟩ | ⟨i, rfl⟩ := even_or_odd j
  · rw [inTurn_odd, inTurn_even, withMidpoints, inTurn_even]
    exact ⟨(hb _).2 ⟨_, (hq i).1, .inr ⟨_, hm i, .inl rfl⟩⟩, C06_original_points_kept (by decide) hv.points_dense h _ _ (hq i).2⟩
  · rw [show 2 * i + 1 + 1 = 2 * (i + 1) by ring, inTurn_odd, inTurn_even, withMidpoints, inTurn_odd]
    exact ⟨(hb _).2 ⟨_, (hq i).1, .inr ⟨_, hm i, .inr rfl⟩⟩,
      C07_linear_midpoints hv (selOK_nil _) h (hm i) (hq i).2 (hq (i + 1)).2⟩

theorem rim_loop (hn : Scheme.loop.Needs inp) (hsb : inp.SimpleBoundary)
    (h : cellUpdate .loop lib cosn (Filt.new.setCells []) inp = (.ok out, f'))
    {q : Int → P} (hq : inp.Rim q) : out.Rim (splineStep K q) := by
  obtain ⟨v, hq⟩ := hq
  have hb := (C18_boundary_preserved (by decide) hn (selOK_nil _) h).1
  choose m hm using fun i => boundary_split (hq i).1
  refine ⟨inTurn v m, fun j => ?_⟩
  obtain ⟨i, rfl⟩ | ⟨i, rfl⟩ := even_or_odd j
  · rw [inTurn_odd, inTurn_even, splineStep, inTurn_even]
    refine ⟨(hb _).2 ⟨_, (hq i).1, .inr ⟨_, hm i, .inl rfl⟩⟩, ?_⟩
    have h1 := (hq (i - 1)).1
    rw [show i - 1 + 1 = i by ring] at h1
    rw [loop_border_point hn hsb h h1 (hq i).1, Mesh.coord_of_pos (hq i).2, Mesh.coord_of_pos (hq (i - 1)).2,
      Mesh.coord_of_pos (hq (i + 1)).2]
  · rw [show 2 * i + 1 + 1 = 2 * (i + 1) by ring, inTurn_odd, inTurn_even, splineStep, inTurn_odd]
    refine ⟨(hb _).2 ⟨_, (hq i).1, .inr ⟨_, hm i, .inr rfl⟩⟩,
      C08_loop_boundary_edge hn (selOK_nil _) h (hm i) (.inr fun c hc => ?_) (hq i).2 (hq (i + 1)).2⟩
    exact (hq i).1.2 hc.dart

theorem rim_sqrt3 (hv : inp.Valid) (hmax : inp.points.length + (inp.selected []).length ≤ idMax)
    (h : cellUpdate .sqrt3 lib cosn (Filt.new.setCells []) inp = (.ok out, f'))
    {q : Int → P} (hq : inp.Rim q) : out.Rim q := by
  obtain ⟨v, hq⟩ := hq
  exact ⟨v, fun i => ⟨((C18_boundary_preserved_sqrt3 hv (selOK_nil _) hmax h).1 _).2 (hq i).1,
    C06_original_points_kept (by decide) hv.points_dense h _ _ (hq i).2⟩⟩

theorem simple_of_tris {m : Mesh P D} {T : List Tri} (h : m.tris = T)
    (hT : ∀ e ∈ dartsOf T, ∀ e' ∈ dartsOf T, e.sym ∉ dartsOf T → e'.sym ∉ dartsOf T →
      (e.1 = e'.1 → e = e') ∧ (e.2 = e'.2 → e = e')) : m.SimpleBoundary := by
  rintro e e' ⟨h1, h2⟩ ⟨h3, h4⟩
  rw [h] at h1 h2 h3 h4
  exact hT e h1 e' h3 h2 h4

/-- a cycle of boundary edges is a curve -/
theorem rim_cycle (hv : inp.Valid) (l : List PId) (h0 : 0 < l.length)
    (h : ∀ k < l.length, inp.IsBoundary (l[k]!, l[(k + 1) % l.length]!)) :
    inp.Rim fun i => inp.coord l[(i % l.length).toNat]! := by
  refine ⟨fun i => l[(i % l.length).toNat]!, fun i => ?_⟩
  have h1 : 0 ≤ i % (l.length : Int) := Int.emod_nonneg _ (by omega)
  have h2 : i % (l.length : Int) < l.length := Int.emod_lt_of_pos _ (by omega)
  have h3 : ((i + 1) % (l.length : Int)).toNat = ((i % (l.length : Int)).toNat + 1) % l.length := by
    have : (i + 1) % (l.length : Int) = ((((i % (l.length : Int)).toNat + 1) % l.length : Nat) : Int) := by
      push_cast
      rw [Int.toNat_of_nonneg h1, Int.emod_add_emod]
    rw [this, Int.toNat_natCast]
  have h4 := h (i % (l.length : Int)).toNat (by omega)
  rw [← h3] at h4
  exact ⟨h4, hv.pos_eq (hv.isEdge_lt ((hv.edges_iff _).2 (.inl h4.1))).1⟩

/-- walking the other way, one meets the same new points -/
theorem withMidpoints_neg (q : Int → P) : withMidpoints K (fun i => q (-i)) = fun i => withMidpoints K q (-i) := by
  funext j
  obtain ⟨i, rfl⟩ | ⟨i, rfl⟩ := even_or_odd j
  · simp only [withMidpoints]
    rw [inTurn_even, show -(2 * i) = 2 * (-i) by ring, inTurn_even]
  · simp only [withMidpoints]
    rw [inTurn_odd, show -(2 * i + 1) = 2 * (-i - 1) + 1 by ring, inTurn_odd, show -i - 1 + 1 = -i by ring,
      show -(i + 1) = -i - 1 by ring, add_comm]

theorem splineStep_neg (q : Int → P) : splineStep K (fun i => q (-i)) = fun i => splineStep K q (-i) := by
  funext j
  obtain ⟨i, rfl⟩ | ⟨i, rfl⟩ := even_or_odd j
  · simp only [splineStep]
    rw [inTurn_even, show -(2 * i) = 2 * (-i) by ring, inTurn_even, show -(i - 1) = -i + 1 by ring,
      show -(i + 1) = -i - 1 by ring, add_right_comm]
  · simp only [splineStep]
    rw [inTurn_odd, show -(2 * i + 1) = 2 * (-i - 1) + 1 by ring, inTurn_odd, show -i - 1 + 1 = -i by ring,
      show -(i + 1) = -i - 1 by ring, add_comm]

theorem iterate_neg {g : (Int → P) → Int → P} (hg : ∀ q, g (fun i => q (-i)) = fun i => g q (-i)) (n : Nat) (q : Int → P) :
    g^[n] (fun i => q (-i)) = fun i => g^[n] q (-i) := by
  induction n generalizing q with
  | zero => rfl
  | succ n ih => rw [Function.iterate_succ_apply, hg, ih, Function.iterate_succ_apply]

end Verif
