import Verif.Proofs.Sqrt3Area
import Verif.Properties.CondSafe
/-
C70: the conditional filter with SquareThree and the area criterion ends.
-/
namespace Verif
set_option linter.unusedSectionVars false
variable {E D : Type} [NormedAddCommGroup E] [InnerProductSpace ℝ E] {lib : QELib} {inp : Mesh E D}

/-- C70. With SquareThree and a positive `MaximumArea` `A`, `Update()` of the conditional filter returns within `M * N`
iterations, when no edge of the input is longer than `L` and `M`, `N` are about `log (L ^ 2 / 2 A)` to the base of 9/4 and 3.
The output is valid, none of its triangles is larger than `A`, the points of the input are where they were, and the triangles
of the input that were not too large are still there. -/
theorem C70_sqrt3_area_terminates (hv : inp.Valid) {A L : ℝ} (hA : 0 < A) (hL : 0 ≤ L)
    (hin : ∀ e ∈ dartsOf inp.tris, dist (inp.place e.1) (inp.place e.2) ≤ L) {M N : Nat} (hN : L ^ 2 ≤ 2 * 3 ^ N * A)
    (hM : (4 / 9) ^ M * L ^ 2 ≤ 2 * A) (hmax : inp.points.length + 4 ^ (M * N) * inp.cells.length ≤ idMax)
    (lib : QELib) (cosn : Nat → ℝ) (c : Cond Filt CId) :
    ∃ out c', (∀ fuel, M * N ≤ fuel →
        condGenerate lib (condCellUpd .sqrt3 lib cosn) (some (areaCompute heronArea A)) fuel c inp = some (.ok out, c')) ∧
      out.Valid ∧ (∀ t ∈ out.tris, out.areaOf t ≤ A) ∧ (∀ v p, inp.pos v = some p → out.pos v = some p) ∧
      ∀ t ∈ inp.tris, inp.areaOf t ≤ A → t ∈ out.tris := by
  have hex : ∀ (m : Mesh E D) (old l : List CId), m.Valid → areaCompute heronArea A m old = (.ok (), l) →
      ∀ k, k ∈ l ↔ m.TooLarge heronArea A k := by
    intro m old l hm hl
    obtain ⟨l', h1, -, h2⟩ := C28_area_exact heronArea A hm.cells_sorted hm.allTriangles hm.cornersExist old
    rw [h1] at hl
    cases hl
    exact h2
  obtain ⟨l, h1, h2, hg⟩ := condArea_start (sch := .sqrt3) (lib := lib) hv (by simp) (by simp) (n := M * N) (fun _ => hmax)
    (condCellUpd .sqrt3 lib cosn) heronArea A c
  let I : Nat → Cond Filt CId → Mesh E D → Prop := fun k c cur =>
    AreaInv .sqrt3 k c.sel cur ∧ (∀ k, k ∈ c.sel ↔ cur.TooLarge heronArea A k) ∧
      (∀ t ∈ cur.tris, A < cur.areaOf t → ∃ i j, M * N ≤ i * N + j + k ∧
        Graded L i j (cur.place t.1) (cur.place t.2.1) (cur.place t.2.2)) ∧
      (∀ v p, inp.pos v = some p → cur.pos v = some p) ∧ ∀ t ∈ inp.tris, inp.areaOf t ≤ A → t ∈ cur.tris
  have hzero : ∀ c cur, I 0 c cur → c.sel = [] := by
    rintro c cur ⟨k1, k2, k3, -⟩
    rw [List.eq_nil_iff_forall_not_mem]
    intro k hk
    have hT := (k2 k).1 hk
    obtain ⟨t, _, _, _, hk', -⟩ := id hT
    have hbig := (tooLarge_iff k1.needs.valid hk').1 hT
    obtain ⟨i, j, h3, h4⟩ := k3 t (k1.needs.valid.mem_tris.2 ⟨k, hk'⟩) hbig
    obtain ⟨h5, h6⟩ := h4.small hA hN hM hbig
    have := Nat.mul_le_mul_right N (Nat.succ_le_of_lt h5)
    rw [Nat.succ_mul] at this
    omega
  have hstep : ∀ k c cur, I (k + 1) c cur → c.sel ≠ [] → ∃ m s' sel', condCellUpd .sqrt3 lib cosn c.inner c.sel cur =
      (.ok m, s') ∧ areaCompute heronArea A m c.sel = (.ok (), sel') ∧ I k ⟨s', sel'⟩ m := by
    rintro k c cur ⟨k1, k2, k3, k4, k5⟩ hs
    obtain ⟨m, s', sel', g1, g2, g3, g4⟩ := condArea_step (lib := lib) (cosn := cosn) (by simp) heronArea A c.inner k1 hs
    have hvc := k1.needs.valid
    have hkept : ∀ {w}, w < cur.points.length → m.pos w = some (cur.place w) := fun hw =>
      C06_original_points_kept (by decide) hvc.points_dense g1 _ _ (hvc.pos_place hw)
    have hiff : ∀ t ∈ cur.tris, t ∈ cur.selected (c.inner.setCells c.sel).cells ↔ A < cur.areaOf t := by
      intro t ht
      rw [show (c.inner.setCells c.sel).cells = c.sel from rfl, hvc.mem_selected hs]
      constructor
      · rintro ⟨k, hk, hk'⟩
        exact (tooLarge_iff hvc hk').1 ((k2 k).1 hk)
      · intro hb
        obtain ⟨k, hk⟩ := hvc.mem_tris.1 ht
        exact ⟨k, (k2 k).2 ((tooLarge_iff hvc hk).2 hb), hk⟩
    refine ⟨m, s', sel', g1, g2, g4, hex _ _ _ g4.needs.valid g2, ?_, ?_, ?_⟩
    · intro d hd hbig
      have := sqrt3_area_iteration hvc (f := c.inner.setCells c.sel) k1.selOK (g3 rfl) g1 (A := A) (L := L) hL (N := N)
        (k := M * N - (k + 1)) (fun t ht hn => not_lt.1 fun hb => hn ((hiff t ht).2 hb)) ?_ d hd hbig
      · obtain ⟨i, j, h3, h4⟩ := this
        exact ⟨i, j, by omega, h4⟩
      · intro t ht
        have hb := (hiff t (hvc.selected_subset _ _ ht)).1 ht
        obtain ⟨i, j, h3, h4⟩ := k3 t (hvc.selected_subset _ _ ht) hb
        exact ⟨i, j, ⟨by omega, (h4.small hA hN hM hb).2⟩, h4⟩
    · exact fun v p hp => C06_original_points_kept (by decide) hvc.points_dense g1 v p (k4 v p hp)
    · intro t ht ha
      have htc := k5 t ht ha
      have hvert : ∀ w ∈ t.verts, cur.place w = inp.place w := fun w hw =>
        place_of_pos (k4 w _ (hv.pos_place (hv.verts_lt ht hw)))
      have hac : cur.areaOf t = inp.areaOf t := by
        unfold Mesh.areaOf
        rw [hvert t.1 (by simp [Tri.verts]), hvert t.2.1 (by simp [Tri.verts]), hvert t.2.2 (by simp [Tri.verts])]
      have hn : t ∉ cur.selected (c.inner.setCells c.sel).cells := fun hh => by
        have := (hiff t htc).1 hh
        linarith
      have R := sqrt3Update_result hvc (f := c.inner.setCells c.sel) k1.selOK (g3 rfl) g1
      refine (R.mem_tris hvc).2 ((mem_sq3 R.centres).2 (Or.inl ⟨htc, ?_⟩))
      rw [← Option.not_isSome_iff_eq_none]
      exact fun hh => hn ((centreOf_isSome hvc htc (by simp [Tri.darts])).1 hh)
  have hinit : I (M * N) ⟨c.inner, l⟩ (copyGeometry lib inp) := by
    refine ⟨h2, hex _ _ _ h2.needs.valid h1, ?_, fun v p h => by simpa only [Mesh.pos, copyGeometry_points lib hv] using h, ?_⟩
    · rw [copyGeometry_tris lib hv, place_copyGeometry hv]
      intro t ht _
      refine ⟨0, 0, by omega, Graded.of_sides ?_⟩
      rw [pow_zero, one_mul]
      have hd : ∀ e ∈ t.darts, dist (inp.place e.1) (inp.place e.2) ≤ L := fun e he => hin e (mem_dartsOf.2 ⟨t, ht, he⟩)
      exact ⟨hd (t.1, t.2.1) (by simp [Tri.darts]), hd (t.2.1, t.2.2) (by simp [Tri.darts]), hd (t.2.2, t.1) (by simp [Tri.darts])⟩
    · rw [copyGeometry_tris lib hv]
      exact fun t ht _ => ht
  obtain ⟨out, c', k, h3, -, h4, -, -, h5, h6⟩ := condLoop_ends I hzero hstep (M * N) hinit
  have h10 := hg.trans h3
  refine ⟨out, c', fun fuel hf => condGenerate_mono h10 hf, h4.needs.valid, fun t ht => ?_, h5, h6⟩
  obtain ⟨k, hk⟩ := h4.needs.valid.mem_tris.1 ht
  have h11 := (C30_area_postcondition h10).2.2.1 k
  rw [tooLarge_iff h4.needs.valid hk] at h11
  exact not_lt.1 h11

/-- C70: hence, for every valid mesh and every positive threshold, `Update()` returns unless there are too many points. -/
theorem C70_sqrt3_area_returns (hv : inp.Valid) {A : ℝ} (hA : 0 < A) : ∃ n : Nat,
    inp.points.length + 4 ^ n * inp.cells.length ≤ idMax → ∀ (lib : QELib) (cosn : Nat → ℝ) (c : Cond Filt CId),
      ∃ out c', ∀ fuel, n ≤ fuel →
        condGenerate lib (condCellUpd .sqrt3 lib cosn) (some (areaCompute heronArea A)) fuel c inp = some (.ok out, c') := by
  obtain ⟨L, hL, hin⟩ : ∃ L : ℝ, 0 ≤ L ∧ ∀ e ∈ dartsOf inp.tris, dist (inp.place e.1) (inp.place e.2) ≤ L := by
    have hx : ∀ x ∈ (dartsOf inp.tris).map fun e => dist (inp.place e.1) (inp.place e.2), 0 ≤ x := by
      intro x hx
      obtain ⟨e, -, rfl⟩ := List.mem_map.1 hx
      exact dist_nonneg
    exact ⟨((dartsOf inp.tris).map fun e => dist (inp.place e.1) (inp.place e.2)).sum, List.sum_nonneg hx,
      fun e he => List.single_le_sum hx _ (List.mem_map.2 ⟨e, he, rfl⟩)⟩
  obtain ⟨N, hN⟩ := pow_unbounded_of_one_lt (L ^ 2 / (2 * A)) (show (1 : ℝ) < 3 by norm_num)
  obtain ⟨M, hM⟩ := pow_unbounded_of_one_lt (L ^ 2 / (2 * A)) (show (1 : ℝ) < 9 / 4 by norm_num)
  refine ⟨M * N, fun hmax lib cosn c => ?_⟩
  obtain ⟨out, c', h, -⟩ := C70_sqrt3_area_terminates hv hA hL hin (M := M) (N := N)
    (by rw [div_lt_iff₀ (by linarith)] at hN; nlinarith)
    (by
      rw [div_lt_iff₀ (by linarith)] at hM
      have h1 : (4 / 9 : ℝ) ^ M * (9 / 4) ^ M = 1 := by rw [← mul_pow]; norm_num
      have h2 : (0 : ℝ) < (4 / 9) ^ M := by positivity
      have h3 := mul_le_mul_of_nonneg_left hM.le h2.le
      rw [← mul_assoc, h1, one_mul] at h3
      exact h3) hmax lib cosn c
  exact ⟨out, c', h⟩

theorem patchP_edges : ∀ e ∈ dartsOf patchP.tris, dist (patchP.place e.1) (patchP.place e.2) ≤ 10 := by
  have hp : ∀ v, patchP.place v = (([!₂[0, 0], !₂[4, 0], !₂[0, 4], !₂[3, -4], !₂[4, 4], !₂[-4, 1]] : List R2)[v]?).getD 0 := by
    intro v
    rw [← AMap.find?_dense, ← mapIdx_eq_dense]; rfl
  have key : ∀ x y z w : ℝ, (x - z) ^ 2 + (y - w) ^ 2 ≤ 100 → dist (!₂[x, y] : R2) !₂[z, w] ≤ 10 := by
    intro x y z w h
    rw [EuclideanSpace.dist_eq]
    refine Real.sqrt_le_iff.2 ⟨by norm_num, ?_⟩
    simp only [Fin.sum_univ_two, Real.dist_eq, sq_abs]
    simpa using h.trans (by norm_num)
  rw [patchP_ok.2.2.2]
  intro e he
  rw [hp, hp]
  have hlist : dartsOf patch = [(0, 1), (1, 2), (2, 0), (1, 0), (0, 3), (3, 1), (2, 1), (1, 4), (4, 2), (0, 2), (2, 5), (5, 0)] := by
    decide
  rw [hlist] at he
  simp only [List.mem_cons, List.not_mem_nil, or_false] at he
  rcases he with rfl | rfl | rfl | rfl | rfl | rfl | rfl | rfl | rfl | rfl | rfl | rfl <;>
    exact key _ _ _ _ (by norm_num)

/-- the sample: 20 iterations are enough to get below 1 -/
example (c : Cond Filt CId) : ∃ out c', (∀ fuel, 20 ≤ fuel →
      condGenerate someLib (condCellUpd .sqrt3 someLib realCos) (some (areaCompute heronArea 1)) fuel c patchP = some (.ok out, c')) ∧
    ∀ t ∈ out.tris, out.areaOf t ≤ 1 := by
  obtain ⟨out, c', h, -, h', -⟩ := C70_sqrt3_area_terminates patchP_ok.1 one_pos (by norm_num) patchP_edges (M := 5) (N := 4)
    (by norm_num) (by norm_num) (by decide) someLib realCos c
  exact ⟨out, c', h, h'⟩

example : ∃ n : Nat, patchP.points.length + 4 ^ n * patchP.cells.length ≤ idMax → ∃ out c', ∀ fuel, n ≤ fuel →
    condGenerate someLib (condCellUpd .sqrt3 someLib realCos) (some (areaCompute heronArea (1 / 100))) fuel ⟨usedFilt [1, 3], [5]⟩ patchP =
      some (.ok out, c') := by
  obtain ⟨n, h⟩ := C70_sqrt3_area_returns patchP_ok.1 (A := 1 / 100) (by norm_num)
  exact ⟨n, fun hn => h hn _ _ _⟩

/-- the area in coordinates -/
theorem triArea_R2 (p q r : R2) : triArea p q r = |(q 0 - p 0) * (r 1 - p 1) - (q 1 - p 1) * (r 0 - p 0)| / 2 := by
  unfold triArea
  have h : ‖q - p‖ ^ 2 * ‖r - p‖ ^ 2 - inner ℝ (q - p) (r - p) ^ 2 =
      ((q 0 - p 0) * (r 1 - p 1) - (q 1 - p 1) * (r 0 - p 0)) ^ 2 := by
    rw [EuclideanSpace.norm_sq_eq, EuclideanSpace.norm_sq_eq, PiLp.inner_apply]
    simp only [Fin.sum_univ_two, Real.norm_eq_abs, sq_abs, PiLp.sub_apply, RCLike.inner_apply, conj_trivial]
    ring
  rw [h, Real.sqrt_sq_eq_abs]
  ring

/-- two triangles of the plane, counter-clockwise, side by side -/
noncomputable def wingsP : Mesh R2 Nat := mk [!₂[0, 0], !₂[1, 0], !₂[0, 10], !₂[10, -1]] [(0, 1, 2), (1, 0, 3)] none

theorem wingsP_ok : wingsP.Valid ∧ wingsP.RingOK ∧ wingsP.NoIsolated ∧ wingsP.tris = [(0, 1, 2), (1, 0, 3)] := mk_ok _ (by decide)

/-- C70: an iteration may make a triangle that is larger than all triangles before, since SquareThree replaces the edge between
two subdivided triangles in any case. -/
theorem C70_area_can_grow : ∃ out f', cellUpdate .sqrt3 someLib realCos Filt.new wingsP = (.ok out, f') ∧
    (∀ t ∈ wingsP.tris, wingsP.areaOf t ≤ 5) ∧ ∃ t ∈ out.tris, 6 < out.areaOf t := by
  have hp : ∀ v, wingsP.place v = (([!₂[0, 0], !₂[1, 0], !₂[0, 10], !₂[10, -1]] : List R2)[v]?).getD 0 := by
    intro v
    rw [← AMap.find?_dense, ← mapIdx_eq_dense]; rfl
  have p0 : wingsP.place 0 = !₂[0, 0] := hp 0
  have p1 : wingsP.place 1 = !₂[1, 0] := hp 1
  have p2 : wingsP.place 2 = !₂[0, 10] := hp 2
  have p3 : wingsP.place 3 = !₂[10, -1] := hp 3
  have hsel : wingsP.SelOK Filt.new.cells := selOK_nil _
  have hall : wingsP.selected Filt.new.cells = wingsP.tris := by simp [Mesh.selected, Filt.new]
  have hmax : wingsP.points.length + (wingsP.selected Filt.new.cells).length ≤ idMax := by
    rw [hall, wingsP_ok.2.2.2]
    decide
  obtain ⟨out, f', h, -⟩ := C11_sqrt3_completes (f := Filt.new) someLib realCos wingsP_ok.1 hsel hmax
  refine ⟨out, f', h, ?_, ?_⟩
  · rw [wingsP_ok.2.2.2]
    intro t ht
    simp only [List.mem_cons, List.not_mem_nil, or_false] at ht
    unfold Mesh.areaOf
    rcases ht with rfl | rfl
    · dsimp only
      rw [p0, p1, p2, triArea_R2]
      norm_num
    · dsimp only
      rw [p0, p1, p3, triArea_R2]
      norm_num
  · have R := sqrt3Update_result wingsP_ok.1 hsel hmax h
    have c1 : wingsP.centreOf Filt.new.cells (0, 1) = some 4 := by
      unfold Mesh.centreOf
      rw [hall, wingsP_ok.2.2.2]
      decide
    have c2 : wingsP.centreOf Filt.new.cells (1, 0) = some 5 := by
      unfold Mesh.centreOf
      rw [hall, wingsP_ok.2.2.2]
      decide
    refine ⟨(5, 4, 0), (R.mem_tris wingsP_ok.1).2 ((mem_sq3 R.centres).2 (Or.inr ⟨(1, 0), 5, c2, ?_⟩)), ?_⟩
    · simp [sq3Piece, Edge.sym, c1]
    · obtain ⟨a, ha, q4⟩ := selected_centre wingsP_ok.1 hsel hmax h c1
      obtain ⟨b, hb, q5⟩ := selected_centre wingsP_ok.1 hsel hmax h c2
      have q0 : out.place 0 = wingsP.place 0 := place_of_pos (C06_original_points_kept (by decide) wingsP_ok.1.points_dense h _ _
        (wingsP_ok.1.pos_place (by decide)))
      have ea : a = 2 := by
        rw [hall, wingsP_ok.2.2.2] at ha
        simpa [HasTri] using ha
      have eb : b = 3 := by
        rw [hall, wingsP_ok.2.2.2] at hb
        simpa [HasTri] using hb
      subst ea eb
      unfold Mesh.areaOf
      dsimp only
      rw [q4, q5, q0, p0, p1, p2, p3, triArea_R2]
      simp [mean3]
      norm_num [abs_of_neg, abs_of_pos]

end Verif
