import Verif.Proofs.Sqrt3Area
import Verif.Spec.Sliver
import Verif.Proofs.Levels
/-
SquareThree at the rim of the part that is refined, over many levels.
-/
namespace Verif
set_option linter.unusedSectionVars false

section
variable {K P D : Type} [Field K] [Zero P] [Add P] [SMul K P] {lib : QELib} {cosn : Nat → K} {f f' : Filt} {inp out : Mesh P D}

/-- the triangles that the next level refines -/
theorem sqrt3_selected_next (hv : inp.Valid) (hsel : inp.SelOK f.cells)
    (hmax : inp.points.length + (inp.selected f.cells).length ≤ idMax)
    (h : cellUpdate .sqrt3 lib cosn f inp = (.ok out, f')) {d : Tri} :
    d ∈ out.selected f'.cells ↔ ∃ e v, inp.centreOf f.cells e = some v ∧ d = sq3Piece (inp.centreOf f.cells) v e := by
  have R := sqrt3Update_result hv hsel hmax h
  obtain ⟨c1, c2⟩ := C16_selection_after_run_sqrt3 hv hsel hmax h
  have hin : (∃ e v, inp.centreOf f.cells e = some v ∧ d = sq3Piece (inp.centreOf f.cells) v e) → d ∈ out.tris :=
    fun hd => (R.mem_tris hv).2 ((mem_sq3 R.centres).2 (Or.inr hd))
  by_cases hne : f.cells = []
  · rw [c1 hne]
    have : out.selected [] = out.tris := by simp [Mesh.selected]
    rw [this]
    refine ⟨fun hd => ?_, hin⟩
    rcases (mem_sq3 R.centres).1 ((R.mem_tris hv).1 hd) with ⟨ht, h0⟩ | hd
    · have := (centreOf_isSome hv (sel := f.cells) ht (e := (d.1, d.2.1)) (by simp [Tri.darts])).2 (by
        rw [hne]; simpa [Mesh.selected] using ht)
      rw [h0] at this
      cases this
    · exact hd
  · obtain ⟨n1, -, -, hiff⟩ := c2 hne
    rw [(R.valid hv).mem_selected n1]
    constructor
    · rintro ⟨k, hk, hkd⟩
      obtain ⟨j, hj, t, ht, hm⟩ := (hiff k d hkd).1 hk
      rcases hm with ⟨-, h0⟩ | ⟨e, -, v, h1, rfl | ⟨v', h2, rfl⟩⟩
      · have := (centreOf_isSome hv (sel := f.cells) (hv.mem_tris.2 ⟨_, ht⟩) (e := (t.1, t.2.1)) (by simp [Tri.darts])).2
          ((hv.mem_selected hne).2 ⟨j, hj, ht⟩)
        rw [h0 _ (by simp [Tri.darts])] at this
        cases this
      · exact ⟨e, v, h1, rfl⟩
      · exact ⟨e.sym, v', h2, rfl⟩
    · intro hd
      obtain ⟨k, hk⟩ := (R.valid hv).mem_tris.1 (hin hd)
      refine ⟨k, (hiff k d hk).2 ?_, hk⟩
      obtain ⟨e, v, h1, rfl⟩ := hd
      obtain ⟨i, t, h2, h3, -⟩ := centreIn_some (n := inp.points.length) (L := inp.selected f.cells) h1
      obtain ⟨j, hj, hjt⟩ := (hv.mem_selected hne).1 (List.mem_of_getElem? h2)
      exact ⟨j, hj, t, hjt, Or.inr ⟨e, h3, v, h1, Or.inl rfl⟩⟩

/-- `manyLevels_induct` with the number of the level -/
theorem manyLevels_count {sch : Scheme} (hl : sch = .loop ∨ sch = .butterfly → lib.Lawful) (I : Nat → Mesh P D → List CId → Prop)
    (hstep : ∀ (n : Nat) (m out : Mesh P D) (sel : List CId) (f' : Filt), sch.Needs m → m.SelOK sel → sch.Needs out →
      (sch = .sqrt3 → m.points.length + (m.selected sel).length ≤ idMax) →
      cellUpdate sch lib cosn (Filt.new.setCells sel) m = (.ok out, f') → I n m sel → I (n + 1) out f'.cells) (L n : Nat)
    {m : Mesh P D} {sel : List CId} (hn : sch.Needs m) (hsel : m.SelOK sel) (hid : sch.IdsLeft L m sel) (hm : I n m sel) :
    ∃ m' sel', manyLevels sch lib cosn L (m, sel) = .ok (m', sel') ∧ sch.Needs m' ∧ I (n + L) m' sel' := by
  induction L generalizing m sel n with
  | zero => exact ⟨m, sel, rfl, hn, hm⟩
  | succ L ih =>
    obtain ⟨m1, s1, h1, hn1, hs1, hid1, -, -⟩ := oneLevel_ok cosn hl hn hsel hid
    have hI : I (n + 1) m1 s1 := by
      have h1' := h1
      unfold oneLevel at h1'
      rcases hc : cellUpdate sch lib cosn (Filt.new.setCells sel) m with ⟨r, f'⟩
      simp only [hc] at h1'
      cases r with
      | error e => cases h1'
      | ok o =>
        cases h1'
        exact hstep n m m1 sel f' hn hsel hn1 (IdsLeft.now hid) hc hm
    obtain ⟨m', sel', h2, h3, h4⟩ := ih (n + 1) hn1 hs1 hid1 hI
    refine ⟨m', sel', ?_, h3, by rw [Nat.add_right_comm] at h4; exact h4⟩
    unfold manyLevels
    rw [h1]
    exact h2

end

variable {E D : Type} [NormedAddCommGroup E] [InnerProductSpace ℝ E] {lib : QELib} {cosn : Nat → ℝ} {f f' : Filt} {inp out : Mesh E D}

/-- A triangle of the refined part at an edge of its rim: one level puts its centre in place of the third corner. -/
theorem sqrt3_rim_step (hv : inp.Valid) (hsel : inp.SelOK f.cells)
    (hmax : inp.points.length + (inp.selected f.cells).length ≤ idMax)
    (h : cellUpdate .sqrt3 lib cosn f inp = (.ok out, f')) {a b c : PId} (hT : HasTri (inp.selected f.cells) a b c)
    (hb : (b, a) ∉ dartsOf (inp.selected f.cells)) :
    ∃ v, HasTri (out.selected f'.cells) a b v ∧ (b, a) ∉ dartsOf (out.selected f'.cells) ∧
      out.place a = inp.place a ∧ out.place b = inp.place b ∧
      out.place v = mean3 (inp.place a) (inp.place b) (inp.place c) := by
  have R := sqrt3Update_result hv hsel hmax h
  have hT' := hT.mono (hv.selected_subset _)
  obtain ⟨t, ht, hti⟩ := hasTri_iff.1 hT
  have hab : (a, b) ∈ dartsOf (inp.selected f.cells) := hT.dart
  obtain ⟨t0, ht0, hd0⟩ := mem_dartsOf.1 hab
  obtain ⟨v, hc⟩ := Option.isSome_iff_exists.1 ((centreOf_isSome hv (hv.selected_subset _ _ ht0) hd0).2 ht0)
  obtain ⟨c', hTc, hp⟩ := selected_centre hv hsel hmax h hc
  have hcc : c' = c := hv.good.hasTri_unique (hTc.mono (hv.selected_subset _)) hT'
  subst hcc
  have hnone : ∀ {x y}, (x, y) ∉ dartsOf (inp.selected f.cells) → inp.centreOf f.cells (x, y) = none := by
    intro x y hxy
    rcases hs : inp.centreOf f.cells (x, y) with _ | w
    · rfl
    · obtain ⟨z, hz, -⟩ := selected_centre hv hsel hmax h hs
      exact absurd hz.dart hxy
  have hpiece : sq3Piece (inp.centreOf f.cells) v (a, b) = (a, b, v) := by
    unfold sq3Piece
    have : inp.centreOf f.cells (Edge.sym (a, b)) = none := hnone hb
    rw [this]
  have hlt : a < inp.points.length ∧ b < inp.points.length := by
    have : ∀ {w}, w ∈ t0.verts → w < inp.points.length := fun hw => hv.verts_lt (hv.selected_subset _ _ ht0) hw
    have hd := hd0
    simp only [Tri.darts, List.mem_cons, Prod.mk.injEq, List.not_mem_nil, or_false] at hd
    rcases hd with ⟨rfl, rfl⟩ | ⟨rfl, rfl⟩ | ⟨rfl, rfl⟩ <;> exact ⟨this (by simp [Tri.verts]), this (by simp [Tri.verts])⟩
  refine ⟨v, Or.inl ((sqrt3_selected_next hv hsel hmax h).2 ⟨_, v, hc, hpiece.symm⟩), ?_, ?_, ?_, hp⟩
  · intro hd
    obtain ⟨d, hd, he⟩ := mem_dartsOf.1 hd
    obtain ⟨⟨x, y⟩, w, h1, rfl⟩ := (sqrt3_selected_next hv hsel hmax h).1 hd
    have hw := (R.fresh _ _ h1).1
    unfold sq3Piece at he
    rcases hs : inp.centreOf f.cells (Edge.sym (x, y)) with _ | w' <;> rw [hs] at he <;>
      simp only [Tri.darts, List.mem_cons, Prod.mk.injEq, List.not_mem_nil, or_false] at he
    · rcases he with ⟨rfl, rfl⟩ | ⟨-, rfl⟩ | ⟨rfl, -⟩
      · rw [hnone hb] at h1; cases h1
      · exact absurd hlt.1 (Nat.not_lt.2 hw)
      · exact absurd hlt.2 (Nat.not_lt.2 hw)
    · have hw' := (R.fresh _ _ hs).1
      rcases he with ⟨rfl, -⟩ | ⟨rfl, -⟩ | ⟨-, rfl⟩
      · exact absurd hlt.2 (Nat.not_lt.2 hw)
      · exact absurd hlt.2 (Nat.not_lt.2 hw')
      · exact absurd hlt.1 (Nat.not_lt.2 hw)
  · exact place_of_pos (C06_original_points_kept (by decide) hv.points_dense h _ _ (hv.pos_place hlt.1))
  · exact place_of_pos (C06_original_points_kept (by decide) hv.points_dense h _ _ (hv.pos_place hlt.2))

theorem lowered_zero (p q r : E) : lowered p q r 0 = r := by unfold lowered; module

theorem mean3_lowered (p q r : E) (n : Nat) : mean3 p q (lowered p q r n) = lowered p q r (n + 1) := by
  unfold mean3 lowered
  rw [pow_succ]
  module

theorem area_lowered (p q r : E) (n : Nat) : triArea p q (lowered p q r n) * 3 ^ n = triArea p q r := by
  induction n with
  | zero => rw [lowered_zero, pow_zero, mul_one]
  | succ n ih =>
    rw [← mean3_lowered, area_mean3, pow_succ, ← ih]
    ring

theorem dist_lowered (p q r : E) (n : Nat) :
    dist (lowered p q r n) ((1 / 2 : ℝ) • (p + q)) * 3 ^ n = dist r ((1 / 2 : ℝ) • (p + q)) := by
  unfold lowered
  rw [dist_eq_norm, add_sub_cancel_left, norm_smul, dist_eq_norm, Real.norm_of_nonneg (by positivity), mul_right_comm,
    ← mul_pow]
  norm_num

/-- a triangle that is not selected stays -/
theorem sqrt3_kept (hv : inp.Valid) (hsel : inp.SelOK f.cells)
    (hmax : inp.points.length + (inp.selected f.cells).length ≤ idMax)
    (h : cellUpdate .sqrt3 lib cosn f inp = (.ok out, f')) {t : Tri} (ht : t ∈ inp.tris) (hn : t ∉ inp.selected f.cells) :
    t ∈ out.tris := by
  have R := sqrt3Update_result hv hsel hmax h
  refine (R.mem_tris hv).2 ((mem_sq3 R.centres).2 (Or.inl ⟨ht, ?_⟩))
  rw [← Option.not_isSome_iff_eq_none]
  exact fun hh => hn ((centreOf_isSome hv ht (by simp [Tri.darts])).1 hh)

end Verif
