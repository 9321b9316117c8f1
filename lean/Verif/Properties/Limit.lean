import Verif.Proofs.Limit
import Verif.Properties.Converge
/-
C89: where Loop subdivision ends up.
-/
namespace Verif
set_option linter.unusedSectionVars false

section algebra
variable {V D : Type} [AddCommGroup V] [Module ℝ V] {lib : QELib} {inp out : Mesh V D}

/-- C89. A uniform run of the iterative Loop filter with any number of levels: the exact position of an inner point, from its
neighbours in the input alone.  It goes straight to its limit, and each level leaves the part `loopRate k` of the distance. -/
theorem C89_inner (hl : lib.Lawful) (hn : Scheme.loop.Needs inp) {f : Iter} (hf : f.cells = []) {v : PId} {p : V}
    (hp : inp.pos v = some p) {N : List PId} (hN : inp.InnerAt v N) {q : PId → V} (hq : ∀ w ∈ N, inp.pos w = some (q w))
    (h : (iterUpdate .loop lib realCos f inp).1 = .ok out) :
    out.pos v = some (loopLimit N.length p (N.map q).sum +
      loopRate N.length ^ max 1 f.levels • (p - loopLimit N.length p (N.map q).sum)) := by
  obtain ⟨m, h1, h2⟩ := inner_levels hl hn hp hN (max 1 f.levels)
  rw [iterUpdate_eq, ← levelsOf_eq, hf, h1] at h
  cases h
  rw [List.map_congr_left (f := q) (g := inp.coord) fun w hw => (Mesh.coord_of_pos (hq w hw)).symm]
  exact h2

/-- C89, the boundary: the same with a quarter, and the limit depends on the two neighbours along the boundary only. -/
theorem C89_rim (hl : lib.Lawful) (hn : Scheme.loop.Needs inp) {f : Iter} (hf : f.cells = []) {v a b : PId} {p pa pb : V}
    (hp : inp.pos v = some p) (hab : inp.RimAt v a b) (ha : inp.pos a = some pa) (hb : inp.pos b = some pb)
    (h : (iterUpdate .loop lib realCos f inp).1 = .ok out) :
    out.pos v = some (loopRimLimit p pa pb + (1 / 4 : ℝ) ^ max 1 f.levels • (p - loopRimLimit p pa pb)) := by
  obtain ⟨m, h1, h2⟩ := rim_levels hl hn hp hab (max 1 f.levels)
  rw [iterUpdate_eq, ← levelsOf_eq, hf, h1] at h
  cases h
  rw [← Mesh.coord_of_pos ha, ← Mesh.coord_of_pos hb]
  exact h2

/-- C89, directions: round an inner point with `k` neighbours, the sums of the neighbours with the weights
`cos (2πi/k + φ)` keep their directions over all levels, and get shorter by the same factor.  Two of them span the tangent
plane. -/
theorem C89_tangents (hl : lib.Lawful) (hn : Scheme.loop.Needs inp) {f : Iter} (hf : f.cells = []) {v : PId} {p : V}
    (hp : inp.pos v = some p) {k : Nat} {w : Nat → PId} (hw : inp.RoundAt v k w) {q : Nat → V}
    (hq : ∀ i, inp.pos (w i) = some (q i)) (h : (iterUpdate .loop lib realCos f inp).1 = .ok out) :
    ∃ (x : Nat → PId) (y : Nat → V), out.RoundAt v k x ∧ (∀ i, out.pos (x i) = some (y i)) ∧
      ∀ φ : ℝ, ∑ i ∈ Finset.range k, Real.cos (2 * Real.pi * i / k + φ) • y i =
        (3 / 8 + Real.cos (2 * Real.pi / k) / 4) ^ max 1 f.levels •
          ∑ i ∈ Finset.range k, Real.cos (2 * Real.pi * i / k + φ) • q i := by
  obtain ⟨m, h1, x, h2, h3⟩ := round_levels hl hn hp hw (max 1 f.levels)
  obtain ⟨m', s', h1', hn', -⟩ := manyLevels_ok realCos (fun _ => hl) (max 1 f.levels) hn (sel := []) (by intro k hk; cases hk)
    (fun h => by cases h)
  rw [h1] at h1'
  cases h1'
  rw [iterUpdate_eq, ← levelsOf_eq, hf, h1] at h
  cases h
  have hv := hn'.valid
  refine ⟨x, fun i => m.coord (x i), h2, fun i => hv.pos_eq (hv.isEdge_lt ((hv.edges_iff (v, x i)).2
    (Or.inl (dartsOf_iff_hasTri.2 ⟨_, h2.tri i⟩)))).2, fun φ => (h3 φ).trans ?_⟩
  congr 1
  exact Finset.sum_congr rfl fun i _ => by rw [Mesh.coord_of_pos (hq i)]

end algebra

section norm
variable {V D : Type} [NormedAddCommGroup V] [NormedSpace ℝ V] {lib : QELib} {inp out : Mesh V D}

/-- C89, distances: with `n` levels an inner point is within `(25/64) ^ n` times its first distance from the limit. -/
theorem C89_inner_near (hl : lib.Lawful) (hn : Scheme.loop.Needs inp) {f : Iter} (hf : f.cells = []) {v : PId} {p : V}
    (hp : inp.pos v = some p) {N : List PId} (hN : inp.InnerAt v N) {q : PId → V} (hq : ∀ w ∈ N, inp.pos w = some (q w))
    (h : (iterUpdate .loop lib realCos f inp).1 = .ok out) {p' : V} (hp' : out.pos v = some p') :
    ‖p' - loopLimit N.length p (N.map q).sum‖ ≤ (25 / 64) ^ max 1 f.levels * ‖p - loopLimit N.length p (N.map q).sum‖ := by
  rw [C89_inner hl hn hf hp hN hq h] at hp'
  obtain rfl := Option.some.inj hp'
  obtain ⟨b1, b2⟩ := loopRate_bounds N.length
  rw [add_sub_cancel_left, norm_smul, norm_pow, Real.norm_of_nonneg b1]
  exact mul_le_mul_of_nonneg_right (pow_le_pow_left₀ b1 b2 _) (norm_nonneg _)

end norm

/-- the corners of the tetrahedron are inner points -/
theorem tetraR_innerAt : tetraR.InnerAt 0 [1, 2, 3] := by
  refine ⟨by decide, fun w => ?_, fun w hw => ?_⟩
  · constructor
    · intro hw
      simp only [List.mem_cons, List.not_mem_nil, or_false] at hw
      rcases hw with rfl | rfl | rfl <;> (unfold Mesh.IsEdge; decide)
    · intro hw
      have := (tetraR_ok.1.edges_iff (0, w)).1 hw
      rw [tetraR_ok.2.2.2] at this
      have h4 : w < 4 := (tetraR_ok.1.isEdge_lt hw).2
      have key : ∀ w < 4, (0, w) ∈ dartsOf tetra ∨ Edge.sym (0, w) ∈ dartsOf tetra → w ∈ [1, 2, 3] := by decide
      exact key w h4 this
  · rw [← dartsOf_iff_hasTri, ← dartsOf_iff_hasTri, tetraR_ok.2.2.2]
    simp only [List.mem_cons, List.not_mem_nil, or_false] at hw
    rcases hw with rfl | rfl | rfl <;> decide

theorem cos_third : Real.cos (2 * Real.pi / (3 : ℕ)) = -1 / 2 := by
  have : 2 * Real.pi / ((3 : ℕ) : ℝ) = 2 * (Real.pi / 3) := by push_cast; ring
  rw [this, Real.cos_two_mul, Real.cos_pi_div_three]; norm_num

/-- a corner of the tetrahedron with the coordinates 0, 4, 8, 12 goes from 0 to 24/5, and each level leaves a sixteenth of the way -/
example (n : Nat) (hn : 1 ≤ n) (out : Mesh ℝ Nat) (h : (iterUpdate .loop someLib realCos ⟨[], n, []⟩ tetraR).1 = .ok out) :
    out.pos 0 = some (24 / 5 - (1 / 16) ^ n * (24 / 5)) := by
  have := C89_inner (f := ⟨[], n, []⟩) (p := (0 : ℝ)) (q := fun w => 4 * w) someLib_lawful
    ⟨tetraR_ok.1, fun _ => tetraR_ok.2.1, fun _ => tetraR_ok.2.2.1⟩ rfl rfl tetraR_innerAt (by
      intro w hw
      simp only [List.mem_cons, List.not_mem_nil, or_false] at hw
      rcases hw with rfl | rfl | rfl <;> (simp [tetraR, mk, Mesh.pos, meshOf]; norm_num [AMap.find?])) h
  refine this.trans (congrArg some ?_)
  have hlen : ([1, 2, 3] : List PId).length = 3 := rfl
  rw [hlen, show max 1 n = n by omega]
  unfold loopLimit loopRate
  rw [cos_third]
  simp only [smul_eq_mul, mul_zero, zero_add, List.map_cons, List.map_nil, List.sum_cons, List.sum_nil]
  norm_num
  ring

/-- the runs exist -/
example : ∃ out, (iterUpdate .loop someLib realCos ⟨[], 4, []⟩ tetraR).1 = .ok out := by
  obtain ⟨m, h1, -⟩ := inner_levels someLib_lawful (inp := tetraR)
    ⟨tetraR_ok.1, fun _ => tetraR_ok.2.1, fun _ => tetraR_ok.2.2.1⟩ (v := 0) (p := 0) rfl tetraR_innerAt 4
  refine ⟨m, ?_⟩
  rw [iterUpdate_eq]
  show Except.map Prod.fst (manyLevels .loop someLib realCos 4 (tetraR, [])) = _
  rw [h1]
  rfl

/-- point 3 of the patch lies on the boundary between 0 and 1 -/
theorem patchR_rimAt : patchR.RimAt 3 0 1 := by
  refine ⟨by decide, fun w => ?_⟩
  constructor
  · rintro (rfl | rfl)
    · refine ⟨by unfold Mesh.IsEdge; decide, Or.inl fun c hc => ?_⟩
      have := hc.dart
      rw [patchR_ok.2.2.2] at this
      revert this; decide
    · refine ⟨by unfold Mesh.IsEdge; decide, Or.inr fun c hc => ?_⟩
      have := hc.dart
      rw [patchR_ok.2.2.2] at this
      revert this; decide
  · rintro ⟨hw, -⟩
    have := (patchR_ok.1.edges_iff (3, w)).1 hw
    rw [patchR_ok.2.2.2] at this
    rcases this with h1 | h1 <;> simp [dartsOf, patch, Tri.darts, Edge.sym] at h1 <;> simp [h1]

example (n : Nat) (hn : 1 ≤ n) (out : Mesh ℝ Nat) (h : (iterUpdate .loop someLib realCos ⟨[], n, []⟩ patchR).1 = .ok out) :
    out.pos 3 = some (26 / 3 + (1 / 4) ^ n * (10 / 3)) := by
  have := C89_rim (f := ⟨[], n, []⟩) (p := (12 : ℝ)) (pa := 0) (pb := 4) someLib_lawful
    ⟨patchR_ok.1, fun _ => patchR_ok.2.1, fun _ => patchR_ok.2.2.1⟩ rfl rfl patchR_rimAt rfl rfl h
  refine this.trans (congrArg some ?_)
  rw [show max 1 n = n by omega]
  unfold loopRimLimit
  simp only [smul_eq_mul]
  norm_num

/-- round the corner 0 of the tetrahedron -/
theorem tetraR_roundAt : tetraR.RoundAt 0 3 fun i => [1, 2, 3].getD (i % 3) 0 := by
  refine ⟨fun i => ?_, fun i => by simp⟩
  rw [tetraR_ok.2.2.2, Nat.add_mod i 1 3]
  have key : ∀ j < 3, HasTri tetra 0 ([1, 2, 3].getD j 0) ([1, 2, 3].getD ((j + 1) % 3) 0) := by unfold HasTri; decide
  exact key _ (Nat.mod_lt _ (by decide))

/-- the weights 1, -1/2, -1/2 at the corner 0: every level leaves a quarter -/
example (out : Mesh ℝ Nat) (h : (iterUpdate .loop someLib realCos ⟨[], 2, []⟩ tetraR).1 = .ok out) :
    ∃ (x : Nat → PId) (y : Nat → ℝ), out.RoundAt 0 3 x ∧ (∀ i, out.pos (x i) = some (y i)) ∧
      ∑ i ∈ Finset.range 3, Real.cos (2 * Real.pi * i / (3 : ℕ) + 0) * y i =
        (1 / 16) * ∑ i ∈ Finset.range 3, Real.cos (2 * Real.pi * i / (3 : ℕ) + 0) * (4 * (i + 1)) := by
  have hq : ∀ i : Nat, tetraR.pos ([1, 2, 3].getD (i % 3) 0) = some (4 * ((i % 3 : ℕ) + 1 : ℝ)) := by
    intro i
    have : ∀ j < 3, tetraR.pos ([1, 2, 3].getD j 0) = some (4 * ((j : ℕ) + 1 : ℝ)) := by
      intro j hj
      obtain rfl | rfl | rfl : j = 0 ∨ j = 1 ∨ j = 2 := by omega
      all_goals simp [tetraR, mk, Mesh.pos, meshOf]; norm_num [AMap.find?]
    exact this _ (Nat.mod_lt _ (by decide))
  obtain ⟨x, y, h1, h2, h3⟩ := C89_tangents (f := ⟨[], 2, []⟩) (p := (0 : ℝ)) someLib_lawful
    ⟨tetraR_ok.1, fun _ => tetraR_ok.2.1, fun _ => tetraR_ok.2.2.1⟩ rfl rfl tetraR_roundAt hq h
  have h4 := h3 0
  simp only [smul_eq_mul] at h4
  refine ⟨x, y, h1, h2, h4.trans (congrArg₂ (· * ·) ?_ (Finset.sum_congr rfl fun i hi => ?_))⟩
  · rw [cos_third]
    show (3 / 8 + -1 / 2 / 4 : ℝ) ^ 2 = 1 / 16
    norm_num
  · rw [Nat.mod_eq_of_lt (Finset.mem_range.1 hi)]

end Verif
