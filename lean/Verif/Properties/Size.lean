import Verif.Proofs.SizeArea
import Verif.Properties.Cost
/-
C85: the exact size of the result of the conditional filter with the Linear cell filter and the area criterion.
-/
namespace Verif
set_option linter.unusedSectionVars false
variable {E D : Type} [NormedAddCommGroup E] [InnerProductSpace ℝ E] {inp out : Mesh E D} {lib : QELib} {cosn : Nat → ℝ}

/-- C85. The numbers of triangles, boundary edges and points of the result are functions of the areas of the input triangles
and of which of them are neighbours: each triangle is quartered until its pieces are small enough, and each side is cut as
often as the deeper one of its two triangles asks for. -/
theorem C85_exact_size (hv : inp.Valid) {A : ℝ} (hA : 0 < A) {n : Nat} {c c' : Cond Filt CId}
    (h : condGenerate lib (condCellUpd .linear lib cosn) (some (areaCompute heronArea A)) n c inp = some (.ok out, c')) :
    out.cells.length = inp.predicted A ∧ out.rimLength = inp.predictedRim A ∧
    2 * out.points.length + inp.cells.length + inp.rimLength =
      2 * inp.points.length + inp.predicted A + inp.predictedRim A := by
  have key := condArea_induct_exact (sch := .linear) hv (by simp) (by simp) (by simp)
    (fun m => m.predicted A = inp.predicted A ∧ m.predictedRim A = inp.predictedRim A) (predicted_copy hv) ?_ h
  · rcases C47_area_safe (lib := lib) (sch := .linear) cosn hv (by simp) (by simp) n (by simp) heronArea A c with h1 | ⟨o, c2, h1, h2, h3, -⟩
    · rw [h1] at h; cases h
    · rw [h1] at h
      cases h
      have hsmall : ∀ t ∈ out.tris, out.areaOf t ≤ A := by
        intro t ht
        obtain ⟨k, hk⟩ := h2.mem_tris.1 ht
        have h11 := (C30_area_postcondition h1).2.2.1 k
        rw [tooLarge_iff h2 hk] at h11
        exact not_lt.1 h11
      obtain ⟨k1, k2⟩ := predicted_done hA hsmall
      rw [key.1, h2.tris_length] at k1
      rw [key.2] at k2
      have e1 := euler_rim hv
      have e2 := euler_rim h2
      refine ⟨k1.symm, k2.symm, ?_⟩
      omega
  · rintro m out sel f f' hn - hsel hne hex - hrun ⟨k1, k2⟩
    obtain ⟨h1, h2⟩ := (depth_step hA hn.valid hsel hne hex hrun).predicted hn.valid
    exact ⟨h1.trans k1, h2.trans k2⟩

/-- C85, comparing two thresholds: a smaller maximum never gives fewer triangles, boundary edges or points, whatever the two
filter objects have done before. -/
theorem C85_smaller_maximum (hv : inp.Valid) {A A' : ℝ} (hA : 0 < A) (hAA : A ≤ A') {n n' : Nat} {c c1 d d1 : Cond Filt CId}
    {out' : Mesh E D}
    (h : condGenerate lib (condCellUpd .linear lib cosn) (some (areaCompute heronArea A)) n c inp = some (.ok out, c1))
    (h' : condGenerate lib (condCellUpd .linear lib cosn) (some (areaCompute heronArea A')) n' d inp = some (.ok out', d1)) :
    out'.cells.length ≤ out.cells.length ∧ out'.rimLength ≤ out.rimLength ∧ out'.points.length ≤ out.points.length := by
  obtain ⟨k1, k2, k3⟩ := C85_exact_size hv hA h
  obtain ⟨k1', k2', k3'⟩ := C85_exact_size hv (hA.trans_le hAA) h'
  have hd : ∀ t ∈ inp.tris, inp.depth A' t ≤ inp.depth A t := fun t _ => quarterings_anti hA hAA _
  have h1 : inp.predicted A' ≤ inp.predicted A := List.sum_le_sum fun t ht => piecesOf_mono hd ht
  have h2 : inp.predictedRim A' ≤ inp.predictedRim A :=
    List.sum_le_sum fun e _ => Nat.pow_le_pow_right (by norm_num) (depthAt_mono hd e)
  omega

theorem depthAt_const {T : List Tri} {d : Tri → ℕ} {k : ℕ} (h : ∀ t ∈ T, d t = k) (e : Edge) : depthAt T d e ≤ k := by
  rcases depthAt_cases T e with ⟨s, hs, -, h1⟩ | ⟨-, h1⟩
  · rw [h1, h s hs]
  · rw [h1]; exact Nat.zero_le _

/-- C85, when all triangles need the same number `k` of cuts (for example when they all have the same area): the result has
`4 ^ k` times as many triangles, as many as `k` levels of the iterative filter give. -/
theorem C85_equal_depths (hv : inp.Valid) {A : ℝ} (hA : 0 < A) {k : ℕ} (hk : ∀ t ∈ inp.tris, inp.depth A t = k) {n : Nat}
    {c c' : Cond Filt CId}
    (h : condGenerate lib (condCellUpd .linear lib cosn) (some (areaCompute heronArea A)) n c inp = some (.ok out, c')) :
    out.cells.length = 4 ^ k * inp.cells.length ∧ out.rimLength = 2 ^ k * inp.rimLength := by
  obtain ⟨h1, h2, -⟩ := C85_exact_size hv hA h
  rw [h1, h2]
  constructor
  · unfold Mesh.predicted
    rw [List.map_congr_left (g := fun _ => 4 ^ k), ← hv.tris_length]
    · simp [Nat.mul_comm]
    · intro t ht
      unfold piecesOf
      rw [hk t ht]
      simp [max_eq_left (depthAt_const hk _)]
  · unfold Mesh.predictedRim Mesh.rimLength
    rw [List.map_congr_left (g := fun _ => 2 ^ k)]
    · simp [Nat.mul_comm]
    · intro e he
      obtain ⟨t, ht, het⟩ := mem_dartsOf.1 (List.mem_filter.1 he).1
      rw [depthAt_of_mem hv.good _ ht het, hk t ht]

/-- C85, the running time: `n` iterations are enough exactly if no triangle of the input needs more than `n` cuts. -/
theorem C85_iterations (hv : inp.Valid) {A : ℝ} (hA : 0 < A) (lib : QELib) (cosn : Nat → ℝ) (n : Nat) (c : Cond Filt CId) :
    condGenerate lib (condCellUpd .linear lib cosn) (some (areaCompute heronArea A)) n c inp = none ↔
      ∃ t ∈ inp.tris, n < inp.depth A t := by
  constructor
  · intro h
    by_contra hc
    have hc' : ∀ t ∈ inp.tris, inp.depth A t ≤ n := fun t ht => not_lt.1 fun h => hc ⟨t, ht, h⟩
    obtain ⟨out, c', h1, -⟩ := C32_area_terminates hv hA (n := n) (fun t ht => (quarterings_spec hA _).trans
      (mul_le_mul_of_nonneg_right (pow_le_pow_right₀ (by norm_num) (hc' t ht)) hA.le)) lib cosn c
    rw [h1 n le_rfl] at h
    cases h
  · rintro ⟨t, ht, hlt⟩
    rcases C47_area_safe (lib := lib) (sch := .linear) cosn hv (by simp) (by simp) n (by simp) heronArea A c with
      h1 | ⟨out, c', h1, h2, -⟩
    · exact h1
    · exfalso
      have hex : ∀ (m : Mesh E D) (old l : List CId), m.Valid → areaCompute heronArea A m old = (.ok (), l) →
          ∀ k, k ∈ l ↔ m.TooLarge heronArea A k := by
        intro m old l hm hl
        obtain ⟨l', h1, -, h2⟩ := C28_area_exact heronArea A hm.cells_sorted hm.allTriangles hm.cornersExist old
        rw [h1] at hl
        cases hl
        exact h2
      obtain ⟨l, k1, k2, hg⟩ := condArea_start (lib := lib) (sch := .linear) (n := n) hv (by simp) (by simp) (by simp)
        (condCellUpd .linear lib cosn) heronArea A c
      have h1' := h1
      rw [hg] at h1'
      have key := condLoop_induct (upd := condCellUpd .linear lib cosn) (crit := areaCompute heronArea A)
        (fun n sel m => (∃ t ∈ m.tris, n < m.depth A t) ∧ AreaInv .linear n sel m ∧ ∀ k, k ∈ sel ↔ m.TooLarge heronArea A k) ?_
        ⟨⟨t, by rw [copyGeometry_tris lib hv]; exact ht, by unfold Mesh.depth; rw [areaOf_copyGeometry hv]; exact hlt⟩, k2,
          hex _ _ _ k2.needs.valid k1⟩ h1'
      · obtain ⟨_, _, ⟨s, hs, hls⟩, -⟩ := key
        have := (depth_pos hA).1 (Nat.lt_of_le_of_lt (Nat.zero_le _) hls)
        obtain ⟨k, hk⟩ := h2.mem_tris.1 hs
        exact absurd ((tooLarge_iff h2 hk).2 this) ((C30_area_postcondition h1).2.2.1 k)
      · rintro n s sel cur ⟨⟨t, ht, hlt⟩, H, hx⟩ hne
        obtain ⟨m, s', sel', k1, k2, -, k4⟩ := condArea_step (lib := lib) (cosn := cosn) (by simp) heronArea A s H hne
        have S := depth_step hA H.needs.valid H.selOK hne hx k1
        refine ⟨m, s', sel', k1, k2, ?_, k4, hex _ _ _ k4.needs.valid k2⟩
        have hc : ∃ d, d ∈ t.children (cur.edgePoint sel) := by
          have h1 := children_length (cur.edgePoint sel) t
          rcases hl : t.children (cur.edgePoint sel) with _ | ⟨d, l⟩
          · rw [hl] at h1; simp at h1; omega
          · exact ⟨d, by simp⟩
        obtain ⟨d, hd⟩ := hc
        refine ⟨d, by rw [S.tris]; exact List.mem_flatMap.2 ⟨t, ht, hd⟩, ?_⟩
        rw [S.depth t ht d hd]
        omega

theorem quarterings_eq {A a : ℝ} {k : ℕ} (hA : 0 < A) (h1 : 4 ^ k * A < a) (h2 : a ≤ 4 ^ (k + 1) * A) :
    quarterings A a = k + 1 := by
  refine le_antisymm (quarterings_le h2) ?_
  by_contra hc
  have h3 := quarterings_spec hA a
  have h4 : (4 : ℝ) ^ quarterings A a ≤ 4 ^ k := pow_le_pow_right₀ (by norm_num) (by omega)
  nlinarith

theorem rowP_depth : rowP.depth 3 (0, 1, 2) = 2 ∧ rowP.depth 3 (2, 1, 3) = 1 ∧ rowP.depth 3 (2, 3, 4) = 1 := by
  obtain ⟨a1, a2, a3⟩ := rowP_area
  unfold Mesh.depth
  rw [a1, a2, a3]
  refine ⟨quarterings_eq ?_ ?_ ?_, quarterings_eq ?_ ?_ ?_, quarterings_eq ?_ ?_ ?_⟩ <;> norm_num

theorem rowP_predicted : rowP.predicted 3 = 26 ∧ rowP.predictedRim 3 = 14 ∧ rowP.rimLength = 5 := by
  obtain ⟨d1, d2, d3⟩ := rowP_depth
  unfold Mesh.predicted Mesh.predictedRim Mesh.rimLength
  rw [rowP_ok.2.2.2]
  simp [row, piecesOf, depthAt, Tri.darts, dartsOf, Edge.sym, d1, d2, d3]

/-- Three triangles in a row with areas 32, 8 and 6, and the maximum 3: the first is cut into 16, the second into 4 and two
more along the first, the third into 4.  One iteration is not enough. -/
example (c : Cond Filt CId) : ∃ n out c',
    condGenerate someLib (condCellUpd .linear someLib realCos) (some (areaCompute heronArea 3)) n c rowP = some (.ok out, c') ∧
    out.cells.length = 26 ∧ out.rimLength = 14 ∧ out.points.length = 21 := by
  obtain ⟨n, out, c', h⟩ := C32_area_returns rowP_ok.1 (show (0 : ℝ) < 3 by norm_num) someLib realCos c
  have key := C85_exact_size rowP_ok.1 (by norm_num) (h n le_rfl)
  obtain ⟨p1, p2, p3⟩ := rowP_predicted
  rw [p1, p2, p3] at key
  refine ⟨n, out, c', h n le_rfl, key.1, key.2.1, ?_⟩
  have h1 : rowP.points.length = 5 := rfl
  have h2 : rowP.cells.length = 3 := rfl
  rw [h1, h2] at key
  omega

example (c : Cond Filt CId) :
    condGenerate someLib (condCellUpd .linear someLib realCos) (some (areaCompute heronArea 3)) 1 c rowP = none :=
  (C85_iterations rowP_ok.1 (by norm_num) someLib realCos 1 c).2
    ⟨(0, 1, 2), by rw [rowP_ok.2.2.2]; decide, by rw [rowP_depth.1]; decide⟩

/-- the thresholds 3 and 5, with two objects used before in different ways -/
example : ∃ n out out' c' d', condGenerate someLib (condCellUpd .linear someLib realCos) (some (areaCompute heronArea 3)) n
      ⟨usedFilt [1], [7]⟩ rowP = some (.ok out, c') ∧
    condGenerate someLib (condCellUpd .linear someLib realCos) (some (areaCompute heronArea 5)) n ⟨usedFilt [], []⟩ rowP =
      some (.ok out', d') ∧ out'.cells.length ≤ out.cells.length := by
  obtain ⟨n, out, c', h⟩ := C32_area_returns rowP_ok.1 (show (0 : ℝ) < 3 by norm_num) someLib realCos ⟨usedFilt [1], [7]⟩
  obtain ⟨n', out', d', h'⟩ := C32_area_returns rowP_ok.1 (show (0 : ℝ) < 5 by norm_num) someLib realCos ⟨usedFilt [], []⟩
  have h1 := h (max n n') (Nat.le_max_left _ _)
  have h2 := h' (max n n') (Nat.le_max_right _ _)
  exact ⟨_, out, out', c', d', h1, h2, (C85_smaller_maximum rowP_ok.1 (by norm_num) (by norm_num) h1 h2).1⟩

/-- four triangles of area 8 and the maximum 2 -/
example (c : Cond Filt CId) : ∃ n out c',
    condGenerate someLib (condCellUpd .linear someLib realCos) (some (areaCompute heronArea 2)) n c patchP = some (.ok out, c') ∧
    out.cells.length = 16 := by
  obtain ⟨n, out, c', h⟩ := C32_area_returns patchP_ok.1 (show (0 : ℝ) < 2 by norm_num) someLib realCos c
  refine ⟨n, out, c', h n le_rfl, ?_⟩
  rw [(C85_equal_depths patchP_ok.1 (by norm_num) (k := 1) (fun t ht => ?_) (h n le_rfl)).1]
  · rfl
  · unfold Mesh.depth
    rw [patchP_areas t ht]
    exact quarterings_eq (k := 0) (by norm_num) (by norm_num) (by norm_num)

end Verif
