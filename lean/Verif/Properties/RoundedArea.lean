import Verif.Proofs.RoundedArea
import Verif.Properties.RoundedLength
/-
C94  in machine arithmetic the conditional filter with the Linear cell filter and the area criterion ends.
-/
namespace Verif

section
variable {P V D : Type} [Zero P] [Add P] [SMul ℝ P] [NormedAddCommGroup V] [InnerProductSpace ℝ V] {val : P → V}
  {lib : QELib} {inp : Mesh P D} {area : P → P → P → ℝ} {A R κ α : ℝ}

/-- C94. Midpoints are computed with errors up to `κ`, areas with errors up to `α`, all points stay at most `R` away from the
origin, and `MaximumArea` `A` is at least `3 α + 6 κ R`.  If no triangle of the input is larger than `2 ^ n * (A - α)`, `Update()`
returns within `n` iterations (in a ball that leaves room for `n` errors).  The output is valid, keeps the points of the input,
and none of its triangles is larger than `A` as computed, or than `A + α` in fact. -/
theorem C94_rounded_area_terminates (H : MeasuredArea val area R κ α) (hv : inp.Valid) (hR0 : 0 ≤ R) (hκ : 0 ≤ κ) (hα : 0 ≤ α)
    (hA : 3 * α + 6 * (κ * R) ≤ A) {n : Nat} (hR : ∀ v p, inp.pos v = some p → ‖val p‖ ≤ R - n * κ)
    (hn : ∀ t ∈ inp.tris, ∀ p q r, inp.pos t.1 = some p → inp.pos t.2.1 = some q → inp.pos t.2.2 = some r →
      triArea (val p) (val q) (val r) ≤ 2 ^ n * (A - α))
    (cosn : Nat → ℝ) (c : Cond Filt CId) :
    ∃ out c', (∀ fuel, n ≤ fuel →
        condGenerate lib (condCellUpd .linear lib cosn) (some (areaCompute area A)) fuel c inp = some (.ok out, c')) ∧
      out.Valid ∧ (∀ v p, inp.pos v = some p → out.pos v = some p) ∧ (∀ v p, out.pos v = some p → ‖val p‖ ≤ R) ∧
      ∀ t ∈ out.tris, ∀ p q r, out.pos t.1 = some p → out.pos t.2.1 = some q → out.pos t.2.2 = some r →
        area p q r ≤ A ∧ triArea (val p) (val q) (val r) ≤ A + α := by
  have hκR : 0 ≤ κ * R := mul_nonneg hκ hR0
  have hcrit : ∀ (m : Mesh P D) (old : List CId), m.Valid → ∃ l, areaCompute area A m old = (.ok (), l) ∧
      ∀ k, k ∈ l ↔ m.TooLarge area A k := by
    intro m old hm
    obtain ⟨l, h1, -, h2⟩ := C28_area_exact area A hm.cells_sorted hm.allTriangles hm.cornersExist old
    exact ⟨l, h1, h2⟩
  have hv' := copyGeometry_valid lib hv
  obtain ⟨l, h1, h2⟩ := hcrit _ c.sel hv'
  let I : Nat → Cond Filt CId → Mesh P D → Prop := fun k c cur =>
    cur.Valid ∧ (∀ v p, inp.pos v = some p → cur.pos v = some p) ∧ (∀ v p, cur.pos v = some p → ‖val p‖ ≤ R - k * κ) ∧
      (∀ t ∈ cur.tris, cur.exactArea val t ≤ 2 ^ k * (A - α) ∨ cur.areaBy area t ≤ A) ∧
      ∀ k, k ∈ c.sel ↔ cur.TooLarge area A k
  have shrink : ∀ k : Nat, R - k * κ ≤ R := fun k => by
    have : 0 ≤ (k : ℝ) * κ := by positivity
    linarith
  have corners : ∀ {m : Mesh P D}, m.Valid → ∀ {t}, t ∈ m.tris → m.pos t.1 = some (m.coord t.1) ∧
      m.pos t.2.1 = some (m.coord t.2.1) ∧ m.pos t.2.2 = some (m.coord t.2.2) := fun {m} hm {t} ht =>
    ⟨hm.pos_eq (hm.verts_lt ht (by simp [Tri.verts])), hm.pos_eq (hm.verts_lt ht (by simp [Tri.verts])),
      hm.pos_eq (hm.verts_lt ht (by simp [Tri.verts]))⟩
  have hzero : ∀ c cur, I 0 c cur → c.sel = [] := by
    rintro c cur ⟨k1, -, k0, k2, k3⟩
    rw [List.eq_nil_iff_forall_not_mem]
    intro k hk
    have hT := (k3 k).1 hk
    obtain ⟨t, _, _, _, hk', -⟩ := id hT
    have h3 := (tooLarge_by k1 hk').1 hT
    have ht := k1.mem_tris.2 ⟨k, hk'⟩
    rcases k2 t ht with h4 | h4
    · obtain ⟨c1, c2, c3⟩ := corners k1 ht
      have := abs_le.1 (H.near _ _ _ ((k0 _ _ c1).trans (shrink 0)) ((k0 _ _ c2).trans (shrink 0)) ((k0 _ _ c3).trans (shrink 0)))
      have h5 : cur.areaBy area t - cur.exactArea val t ≤ α := this.2
      rw [pow_zero, one_mul] at h4
      linarith
    · linarith
  have hstep : ∀ k c cur, I (k + 1) c cur → c.sel ≠ [] → ∃ m s' sel', condCellUpd .linear lib cosn c.inner c.sel cur =
      (.ok m, s') ∧ areaCompute area A m c.sel = (.ok (), sel') ∧ I k ⟨s', sel'⟩ m := by
    rintro k c cur ⟨k1, k4, k0, k5, k6⟩ hs
    have hsel : cur.SelOK (c.inner.setCells c.sel).cells := fun k hk => TooLarge.mem ((k6 k).1 hk)
    obtain ⟨m, f', h4, h5, h6, h7⟩ := condCellUpd_ok (sch := .linear) (lib := lib) cosn (by decide) (by simp)
      ⟨k1, by simp, by simp⟩ (sel := c.sel) hsel c.inner
    obtain ⟨l, h8, h9⟩ := hcrit m c.sel h6.valid
    have hroom : R - ((k + 1 : Nat) : ℝ) * κ + κ ≤ R - k * κ := by push_cast; linarith
    refine ⟨m, f', l, h4, h8, h6.valid, fun v p h => ?_, fun v p h => ?_, fun t ht => ?_, h9⟩
    · exact C06_original_points_kept (by decide) k1.points_dense h5 v p (k4 v p h)
    · exact (rounded_ball_cell H k1 hsel hκ (shrink _) k0 h5 v p h).trans hroom
    · have hbig : 2 * (A - α) ≤ 2 ^ (k + 1) * (A - α) := by
        have : (1 : ℝ) ≤ 2 ^ k := one_le_pow₀ (by norm_num)
        rw [pow_succ]
        nlinarith
      have := rounded_area_iteration H k1 hs hκ hα hA hbig k6 (hroom.trans (shrink _)) k0 k5 h5 t ht
      rw [pow_succ] at this
      exact this.imp_left fun h => h.trans (le_of_eq (by ring))
  have hpos : ∀ v, (copyGeometry lib inp).pos v = inp.pos v := fun v => by
    simp only [Mesh.pos, copyGeometry_points lib hv]
  have hinit : I n ⟨c.inner, l⟩ (copyGeometry lib inp) := by
    refine ⟨hv', fun v p h => by rw [hpos]; exact h, fun v p h => hR v p (by rw [← hpos]; exact h), fun t ht => Or.inl ?_, h2⟩
    rw [copyGeometry_tris lib hv] at ht
    obtain ⟨c1, c2, c3⟩ := corners hv ht
    unfold Mesh.exactArea
    rw [spot_of_pos ((hpos _).trans c1), spot_of_pos ((hpos _).trans c2), spot_of_pos ((hpos _).trans c3)]
    exact hn t ht _ _ _ c1 c2 c3
  obtain ⟨out, c', k, h3, -, h4, h5, h6, h7, h8⟩ := condLoop_ends I hzero hstep n hinit
  have h10 : condGenerate lib (condCellUpd .linear lib cosn) (some (areaCompute area A)) n c inp =
      some (.ok out, c') := by
    unfold condGenerate
    simp only [h1]
    exact h3
  have hball : ∀ v p, out.pos v = some p → ‖val p‖ ≤ R := fun v p h => (h6 v p h).trans (shrink _)
  refine ⟨out, c', fun fuel hf => condGenerate_mono h10 hf, h4, h5, hball, fun t ht p q r hp hq hr => ?_⟩
  obtain ⟨k, hk⟩ := h4.mem_tris.1 ht
  have h11 := (C30_area_postcondition h10).2.2.1 k
  have h12 : area p q r ≤ A := not_lt.1 fun hlt => h11 ⟨t, p, q, r, hk, hp, hq, hr, hlt⟩
  refine ⟨h12, ?_⟩
  have := abs_le.1 (H.near p q r (hball _ _ hp) (hball _ _ hq) (hball _ _ hr))
  linarith [this.1]

/-- C94, the other side: a triangle whose corners are pairwise neighbours (no machine position between them), larger than
`MaximumArea`.  Wherever the computed midpoints fall, one of its four pieces has the same three corners, and `Update()` never
returns. -/
theorem C94_neighbours_never_return {x y z : P} (hxy : Neighbours x y) (hyz : Neighbours y z) (hzx : Neighbours z x)
    (h1 : A < area x y z) (h2 : A < area y z x) (h3 : A < area z x y) (hv : inp.Valid) {t : Tri} (ht : t ∈ inp.tris)
    (hx : inp.pos t.1 = some x) (hy : inp.pos t.2.1 = some y) (hz : inp.pos t.2.2 = some z) (cosn : Nat → ℝ) (n : Nat)
    (c : Cond Filt CId) :
    condGenerate lib (condCellUpd .linear lib cosn) (some (areaCompute area A)) n c inp = none := by
  obtain ⟨sel, k1, k2, k3⟩ := condArea_start (sch := .linear) (lib := lib) hv (by simp) (by simp) (n := n) (by simp)
    (condCellUpd .linear lib cosn) area A c
  rw [k3]
  have hm := copyGeometry_valid lib hv
  obtain ⟨l, k4, -, k5⟩ := C28_area_exact area A hm.cells_sorted hm.allTriangles hm.cornersExist c.sel
  rw [k1] at k4
  cases k4
  have hpos : ∀ v, (copyGeometry lib inp).pos v = inp.pos v := fun v => by
    simp only [Mesh.pos, copyGeometry_points lib hv]
  exact neighbours_area_loop hxy hyz hzx h1 h2 h3 k2 k5 ⟨t, by rw [copyGeometry_tris lib hv]; exact ht, Or.inl ⟨by rw [hpos]; exact hx,
    by rw [hpos]; exact hy, by rw [hpos]; exact hz⟩⟩

end

section examples

/-- the area, rounded to 53 digits -/
noncomputable def m3area (p q r : M3) : ℝ := toDigits 53 (triArea (m3place p) (m3place q) (m3place r))

theorem area_in_ball {V : Type} [NormedAddCommGroup V] [InnerProductSpace ℝ V] {p q r : V} {R : ℝ} (hp : ‖p‖ ≤ R) (hq : ‖q‖ ≤ R)
    (hr : ‖r‖ ≤ R) : triArea p q r ≤ 2 * R ^ 2 := by
  have h := area_move p q r p
  have h0 : triArea p q p = 0 := by simp [triArea]
  have h1 : dist p q ≤ 2 * R := (dist_le_norm_add_norm _ _).trans (by linarith)
  have h2 : dist r p ≤ 2 * R := (dist_le_norm_add_norm _ _).trans (by linarith)
  have hR : 0 ≤ R := (norm_nonneg _).trans hp
  nlinarith [mul_le_mul h1 h2 dist_nonneg (by linarith)]

/-- In `double`, with areas up to a millionth: at most 27 iterations. -/
example (c : Cond Filt CId) : ∃ out c', (∀ fuel, 27 ≤ fuel →
      condGenerate someLib (condCellUpd .linear someLib realCos) (some (areaCompute m3area (1 / 10 ^ 6))) fuel c patchM =
        some (.ok out, c')) ∧ out.Valid ∧ (∀ v p, patchM.pos v = some p → out.pos v = some p) ∧
      (∀ v p, out.pos v = some p → ‖m3place p‖ ≤ 7) ∧
      ∀ t ∈ out.tris, ∀ p q r, out.pos t.1 = some p → out.pos t.2.1 = some q → out.pos t.2.2 = some r →
        m3area p q r ≤ 1 / 10 ^ 6 ∧ triArea (m3place p) (m3place q) (m3place r) ≤ 1 / 10 ^ 6 + 1 / 10 ^ 10 := by
  refine C94_rounded_area_terminates (R := 7) (κ := 1 / 10 ^ 10) (n := 27) ⟨fun p q hp hq => ?_, fun p q r hp hq hr => ?_⟩ patchM_ok.1
    (by norm_num) (by norm_num) (by norm_num) (by norm_num) (fun v p h => (patchM_place v p h).trans (by norm_num))
    (fun t _ p q r hp hq hr => ?_) _ c
  · refine (m3place_rounded.mid hp hq (by norm_num)).trans (by norm_num)
  · refine (toDigits_near 53 _).trans ?_
    rw [abs_of_nonneg (triArea_nonneg _ _ _)]
    have := area_in_ball hp hq hr
    norm_num at *
    linarith
  · refine (area_in_ball (patchM_place _ _ hp) (patchM_place _ _ hq) (patchM_place _ _ hr)).trans (by norm_num)

theorem half_digits : toDigits 53 (1 / 2) = 1 / 2 := by
  rw [toDigits_exact (z := -1) (k := 2 ^ 52)]
  · norm_num
  · rw [abs_of_pos (by positivity)]; norm_num
  · rw [abs_of_pos (by positivity)]; norm_num
  · rw [round_eq, Int.floor_eq_iff]; norm_num

/-- the midpoint of a number and itself -/
theorem same_mid {x : ℝ} {z k : ℤ} (h0 : (2 : ℝ) ^ z ≤ x) (h1 : x < (2 : ℝ) ^ (z + 1)) (hk : x = k * (2 : ℝ) ^ (z + 1 - (53 : ℕ))) :
    (1 / 2 : ℝ) • ((⟨x⟩ : Double) + ⟨x⟩) = ⟨x⟩ := by
  have hx : 0 < x := lt_of_lt_of_le (by positivity) h0
  have r1 : toDigits 53 x = x := by
    refine (toDigits_exact (z := z) (k := k) (by rwa [abs_of_pos hx]) (by rwa [abs_of_pos hx]) ?_).trans hk.symm
    have : x / (2 : ℝ) ^ (z + 1 - (53 : ℕ)) = (k : ℝ) := by
      rw [div_eq_iff (by positivity)]; exact hk
    rw [this, round_intCast]
  have e2 : (2 : ℝ) ^ (z + 1 + 1 - (53 : ℕ)) = 2 * (2 : ℝ) ^ (z + 1 - (53 : ℕ)) := by
    rw [show z + 1 + 1 - ((53 : ℕ) : ℤ) = (z + 1 - (53 : ℕ)) + 1 by ring, zpow_add₀ (by norm_num), zpow_one, mul_comm]
  have r2 : toDigits 53 (x + x) = x + x := by
    have hx2 : 0 < x + x := by linarith
    have e3 : (2 : ℝ) ^ (z + 1) = 2 * 2 ^ z := by rw [zpow_add₀ (by norm_num), zpow_one, mul_comm]
    have e4 : (2 : ℝ) ^ (z + 1 + 1) = 2 * 2 ^ (z + 1) := by rw [zpow_add₀ (by norm_num) (z + 1), zpow_one, mul_comm]
    have hk2 : x + x = k * (2 : ℝ) ^ (z + 1 + 1 - (53 : ℕ)) := by rw [e2]; linarith
    refine (toDigits_exact (z := z + 1) (k := k) (by rw [abs_of_pos hx2, e3]; linarith) (by rw [abs_of_pos hx2, e4]; linarith)
      ?_).trans hk2.symm
    have : (x + x) / (2 : ℝ) ^ (z + 1 + 1 - (53 : ℕ)) = (k : ℝ) := by
      rw [div_eq_iff (by positivity)]; exact hk2
    rw [this, round_intCast]
  have h : toDigits 53 (toDigits 53 (1 / 2) * toDigits 53 (x + x)) = x := by
    rw [r2, half_digits, show 1 / 2 * (x + x) = x by ring, r1]
  exact congrArg Mach.mk h

theorem one_mid : (1 / 2 : ℝ) • ((⟨1⟩ : Double) + ⟨1⟩) = ⟨1⟩ :=
  same_mid (z := 0) (k := 2 ^ 52) (by norm_num) (by norm_num) (by norm_num)

theorem next1_mid : (1 / 2 : ℝ) • ((⟨next1⟩ : Double) + ⟨next1⟩) = ⟨next1⟩ := by
  refine same_mid (z := 0) (k := 2 ^ 52 + 1) ?_ ?_ ?_ <;> unfold next1 <;> norm_num

theorem next_triangle : Neighbours (m3 1 1 0) (m3 next1 1 0) ∧ Neighbours (m3 next1 1 0) (m3 next1 next1 0) ∧
    Neighbours (m3 next1 next1 0) (m3 1 1 0) := by
  have h0 := zero_mid
  refine ⟨⟨Or.inr ?_, Or.inr ?_⟩, ⟨Or.inr ?_, Or.inr ?_⟩, ⟨Or.inl ?_, Or.inl ?_⟩⟩ <;> funext i <;> fin_cases i
  · exact next_mid.1
  · exact one_mid
  · exact h0
  · exact next_mid.2
  · exact one_mid
  · exact h0
  · exact next1_mid
  · exact next_mid.1
  · exact h0
  · exact next1_mid
  · exact next_mid.2
  · exact h0
  · exact next_mid.2
  · exact next_mid.2
  · exact h0
  · exact next_mid.1
  · exact next_mid.1
  · exact h0

theorem next_area : triArea (m3place (m3 1 1 0)) (m3place (m3 next1 1 0)) (m3place (m3 next1 next1 0)) = (1 / 2) ^ 105 := by
  unfold triArea
  have e1 : m3place (m3 next1 1 0) - m3place (m3 1 1 0) = !₂[(1 / 2) ^ 52, 0, 0] := by
    ext i; fin_cases i <;> simp [m3place, m3val, m3, next1]
  have e2 : m3place (m3 next1 next1 0) - m3place (m3 1 1 0) = !₂[(1 / 2) ^ 52, (1 / 2) ^ 52, 0] := by
    ext i; fin_cases i <;> simp [m3place, m3val, m3, next1]
  have n1 : ‖(!₂[(1 / 2) ^ 52, 0, 0] : EuclideanSpace ℝ (Fin 3))‖ ^ 2 = (1 / 2) ^ 104 := by
    rw [EuclideanSpace.norm_sq_eq, Fin.sum_univ_three]
    simp only [Matrix.cons_val, Real.norm_eq_abs, sq_abs]
    norm_num
  have n2 : ‖(!₂[(1 / 2) ^ 52, (1 / 2) ^ 52, 0] : EuclideanSpace ℝ (Fin 3))‖ ^ 2 = 2 * (1 / 2) ^ 104 := by
    rw [EuclideanSpace.norm_sq_eq, Fin.sum_univ_three]
    simp only [Matrix.cons_val, Real.norm_eq_abs, sq_abs]
    norm_num
  have n3 : inner ℝ (!₂[(1 / 2) ^ 52, 0, 0] : EuclideanSpace ℝ (Fin 3)) !₂[(1 / 2) ^ 52, (1 / 2) ^ 52, 0] = (1 / 2) ^ 104 := by
    rw [PiLp.inner_apply, Fin.sum_univ_three]
    simp only [Matrix.cons_val, RCLike.inner_apply, conj_trivial]
    norm_num
  rw [e1, e2, n1, n2, n3, show ((1 / 2 : ℝ) ^ 104 * (2 * (1 / 2) ^ 104) - ((1 / 2) ^ 104) ^ 2) = ((1 / 2) ^ 104) ^ 2 by ring,
    Real.sqrt_sq (by positivity)]
  norm_num

/-- In `double`, a triangle with its corners at neighbouring numbers, and a maximum less than its area: `Update()` never
returns. -/
example (n : Nat) (c : Cond Filt CId) :
    condGenerate someLib (condCellUpd .linear someLib realCos) (some (areaCompute m3area ((1 / 2) ^ 106))) n c
      (mk [m3 1 1 0, m3 next1 1 0, m3 next1 next1 0] [(0, 1, 2)] (some [(0, 7)])) = none := by
  have hok := mk_ok (P := M3) (pts := [m3 1 1 0, m3 next1 1 0, m3 next1 next1 0]) (T := [(0, 1, 2)]) (some [(0, 7)]) (by decide)
  have key : ∀ a : ℝ, a = (1 / 2) ^ 105 → (1 / 2) ^ 106 < toDigits 53 a := by
    rintro a rfl
    have h2 := abs_le.1 (toDigits_near 53 ((1 / 2) ^ 105))
    rw [abs_of_pos (by positivity)] at h2
    have := h2.1
    norm_num at *
    linarith
  refine C94_neighbours_never_return next_triangle.1 next_triangle.2.1 next_triangle.2.2 (key _ next_area) (key _ ?_) (key _ ?_)
    hok.1 (t := (0, 1, 2)) ?_ rfl rfl rfl _ n c
  · rw [triArea_rotate, next_area]
  · rw [triArea_rotate, triArea_rotate, next_area]
  · rw [hok.2.2.2]; decide

end examples
end Verif
