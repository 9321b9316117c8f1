import Verif.Properties.Points

/-!
# C79: the weights in the documentation of the Loop filter

itkLoopTriangleCell….h:38-51 documents that each vertex with `N` neighbours moves to `(1 - Nβ)` times itself plus `β`
times the sum of its neighbours, with `β = (1/N) (5/8 - (3/8 + 1/4 cos²(2π/N)))`.  The code (….hxx:272-276) has the square
around the whole bracket, as Loop's scheme has it.  The two are different for every `N`.
-/

namespace Verif
set_option linter.unusedSectionVars false

variable {D : Type} {lib : QELib} {f' : Filt} {P : Type} [AddCommGroup P] [Module ℝ P] {inp out : Mesh P D}

/-- `N` times the weight which the documentation gives, itkLoopTriangleCell….h:48-51 -/
noncomputable def docShare (N : Nat) : ℝ := 5 / 8 - (3 / 8 + 1 / 4 * Real.cos (2 * Real.pi / N) ^ 2)

/-- the difference between Loop's weight and the one of the documentation is at least 3/16, whatever the cosine -/
theorem share_gap (c : ℝ) : 5 / 8 - (3 / 8 + 1 / 4 * c ^ 2) + 3 / 16 ≤ 5 / 8 - (3 / 8 + c / 4) ^ 2 := by
  nlinarith [sq_nonneg (c - 1 / 2)]

theorem share_bounds {c : ℝ} (h1 : -1 ≤ c) (h2 : c ≤ 1) :
    15 / 64 ≤ 5 / 8 - (3 / 8 + c / 4) ^ 2 ∧ 5 / 8 - (3 / 8 + c / 4) ^ 2 ≤ 39 / 64 := by
  constructor <;> nlinarith [mul_nonneg (sub_nonneg.2 h1) (sub_nonneg.2 h2)]

/-- C79, what holds: an inner point moves from its place `p` towards the mean of its neighbours, by a share between 15/64
and 39/64 of the way; this is further than the documentation says, by at least 3/16 of the way. -/
theorem C79_loop_share_partial (hn : Scheme.loop.Needs inp)
    (h : cellUpdate .loop lib realCos Filt.new inp = (.ok out, f'))
    {v : PId} {p : P} (hp : inp.pos v = some p) {N : List PId} (hnd : N.Nodup) (hN : ∀ w, w ∈ N ↔ inp.IsEdge (v, w))
    (hin : ∀ w ∈ N, (∃ c, HasTri inp.tris v w c) ∧ ∃ c, HasTri inp.tris w v c) {q : PId → P}
    (hq : ∀ w ∈ N, inp.pos w = some (q w)) :
    ∃ θ : ℝ, 15 / 64 ≤ θ ∧ θ ≤ 39 / 64 ∧ docShare N.length + 3 / 16 ≤ θ ∧
      out.pos v = some ((1 - θ) • p + θ • ((1 / (N.length : ℝ)) • (N.map q).sum)) := by
  obtain ⟨g1, g2⟩ := share_bounds (Real.neg_one_le_cos (2 * Real.pi / N.length)) (Real.cos_le_one _)
  refine ⟨_, g1, g2, share_gap _, ?_⟩
  have hlt : v < inp.points.length := by
    unfold Mesh.pos at hp
    rw [hn.valid.points_eq, AMap.find?_dense] at hp
    simpa using (List.getElem?_eq_some_iff.1 hp).1
  obtain ⟨w, hw⟩ := (hn.noIsolated rfl).edge hn.valid hlt
  have h0 : (N.length : ℝ) ≠ 0 := by
    have : N ≠ [] := List.ne_nil_of_mem ((hN w).2 hw)
    exact_mod_cast (List.length_pos_of_ne_nil this).ne'
  rw [C09_loop_inner_point hn h hp hnd hN hin hq rfl, mul_div_cancel₀ _ h0, smul_smul, mul_one_div]

/-- C79 is false: in every uniform run of a new Loop filter each inner point which is not the mean of its neighbours already
gets another position than the documented one. -/
theorem C79_documented_weight_refuted (hn : Scheme.loop.Needs inp)
    (h : cellUpdate .loop lib realCos Filt.new inp = (.ok out, f'))
    {v : PId} {p : P} (hp : inp.pos v = some p) {N : List PId} (hnd : N.Nodup) (hN : ∀ w, w ∈ N ↔ inp.IsEdge (v, w))
    (hin : ∀ w ∈ N, (∃ c, HasTri inp.tris v w c) ∧ ∃ c, HasTri inp.tris w v c) {q : PId → P}
    (hq : ∀ w ∈ N, inp.pos w = some (q w)) (hmean : p ≠ (1 / (N.length : ℝ)) • (N.map q).sum) {β : ℝ}
    (hβ : β = 1 / N.length * (5 / 8 - (3 / 8 + 1 / 4 * Real.cos (2 * Real.pi / N.length) ^ 2))) :
    out.pos v ≠ some ((1 - (N.length : ℝ) * β) • p + β • (N.map q).sum) := by
  obtain ⟨θ, -, -, h3, h4⟩ := C79_loop_share_partial hn h hp hnd hN hin hq
  have hlt : v < inp.points.length := by
    unfold Mesh.pos at hp
    rw [hn.valid.points_eq, AMap.find?_dense] at hp
    simpa using (List.getElem?_eq_some_iff.1 hp).1
  obtain ⟨w, hw⟩ := (hn.noIsolated rfl).edge hn.valid hlt
  have h0 : (N.length : ℝ) ≠ 0 := by
    have : N ≠ [] := List.ne_nil_of_mem ((hN w).2 hw)
    exact_mod_cast (List.length_pos_of_ne_nil this).ne'
  have hd : (N.length : ℝ) * β = docShare N.length := by
    rw [hβ, docShare]; field_simp
  have hs : β • (N.map q).sum = docShare N.length • ((1 / (N.length : ℝ)) • (N.map q).sum) := by
    rw [smul_smul, ← hd]; congr 1; field_simp
  rw [h4, hd, hs]
  intro he
  have he := Option.some.inj he
  have h5 : (θ - docShare N.length) • ((1 / (N.length : ℝ)) • (N.map q).sum - p) = 0 := by
    rw [smul_sub, sub_smul, sub_smul]
    rw [sub_smul, sub_smul, one_smul] at he
    have := sub_eq_zero.2 he
    rw [← this]; abel
  rcases smul_eq_zero.1 h5 with h6 | h6
  · linarith
  · exact hmean (sub_eq_zero.1 h6).symm

/-- the neighbours of the first corner of the tetrahedron -/
theorem tetraR_nbrs : ∀ w, w ∈ [1, 2, 3] ↔ tetraR.IsEdge (0, w) := by
  intro w
  constructor
  · intro hw
    simp only [List.mem_cons, List.not_mem_nil, or_false] at hw
    rcases hw with rfl | rfl | rfl <;> (unfold Mesh.IsEdge; decide)
  · intro hw
    have := (tetraR_ok.1.edges_iff (0, w)).1 hw
    rw [tetraR_ok.2.2.2] at this
    have h4 : w < 4 := (tetraR_ok.1.isEdge_lt hw).2
    have key : ∀ w < 4, (0, w) ∈ dartsOf tetra ∨ Edge.sym (0, w) ∈ dartsOf tetra → w ∈ [1, 2, 3] := by decide
    exact key w h4 this

theorem tetraR_inner : ∀ w ∈ [1, 2, 3], (∃ c, HasTri tetraR.tris 0 w c) ∧ ∃ c, HasTri tetraR.tris w 0 c := by
  intro w hw
  rw [← dartsOf_iff_hasTri, ← dartsOf_iff_hasTri, tetraR_ok.2.2.2]
  simp only [List.mem_cons, List.not_mem_nil, or_false] at hw
  rcases hw with rfl | rfl | rfl <;> decide

theorem tetraR_pos : ∀ w ∈ [1, 2, 3], tetraR.pos w = some (4 * (w : ℝ)) := by
  intro w hw
  simp only [List.mem_cons, List.not_mem_nil, or_false] at hw
  rcases hw with rfl | rfl | rfl <;> (simp [tetraR, mk, Mesh.pos, meshOf]; norm_num [AMap.find?])

/-- the corner of the tetrahedron at 0, whose neighbours lie at 4, 8 and 12, moves to 9/2 and not to 3/2 -/
example (out : Mesh ℝ Nat) (f' : Filt) (h : cellUpdate .loop someLib realCos Filt.new tetraR = (.ok out, f')) :
    out.pos 0 ≠ some (3 / 2) := by
  have hcos : Real.cos (2 * Real.pi / ([1, 2, 3] : List PId).length) = -1 / 2 := by
    have : 2 * Real.pi / (([1, 2, 3] : List PId).length : ℝ) = 2 * (Real.pi / 3) := by
      simp only [List.length_cons, List.length_nil]; push_cast; ring
    rw [this, Real.cos_two_mul, Real.cos_pi_div_three]; norm_num
  have := C79_documented_weight_refuted (v := 0) (p := 0) (N := [1, 2, 3]) (q := fun w => 4 * w) (β := 1 / 16)
    ⟨tetraR_ok.1, fun _ => tetraR_ok.2.1, fun _ => tetraR_ok.2.2.1⟩ h rfl (by decide) tetraR_nbrs tetraR_inner tetraR_pos
    (by norm_num) (by rw [hcos]; norm_num)
  intro he
  apply this
  rw [he]
  norm_num

end Verif
