import Verif.Proofs.ShrinkLevels
import Verif.Properties.Iterative
import Verif.Properties.Points
import Verif.Properties.Affine
import Mathlib.Analysis.SpecificLimits.Basic
/-
C67: uniform refinement converges.
-/
namespace Verif
set_option linter.unusedSectionVars false
open Filter Topology
variable {V D : Type} [NormedAddCommGroup V] [NormedSpace ℝ V] {lib : QELib} {f' : Filt} {inp out : Mesh V D} {sch : Scheme}
  {δ : ℝ}

/-- one uniform level: the longest edge gets shorter by a fixed factor, points of the input move by at most a fixed part of
the longest edge, and every point of the output is near a point of the input -/
theorem C67_one_level (hs : sch.Shrinks inp) (hmax : sch = .sqrt3 → inp.points.length + (inp.selected []).length ≤ idMax)
    (h : cellUpdate sch lib realCos (Filt.new.setCells []) inp = (.ok out, f')) (hδ0 : 0 ≤ δ) (hδ : inp.EdgesWithin δ) :
    out.EdgesWithin (sch.shrink * δ) ∧
    (∀ v p q, inp.pos v = some p → out.pos v = some q → ‖q - p‖ ≤ sch.drift * δ) ∧
    ∀ v q, out.pos v = some q → ∃ u p, inp.pos u = some p ∧ ‖q - p‖ ≤ (sch.drift + sch.shrink) * δ :=
  ⟨level_shrink hs hmax h hδ, fun _ _ _ => level_drift hs hδ0 h hδ, fun _ _ => level_near hs hδ0 hmax h hδ⟩

/-- after `n` levels no edge is longer than `shrink ^ n` times the longest edge of the input -/
theorem C67_edges_shrink (hl : sch = .loop ∨ sch = .butterfly → lib.Lawful) (hs : sch.Shrinks inp) {f : Iter} (hf : f.cells = [])
    (hid : sch.IdsLeft (max 1 f.levels) inp []) (hδ0 : 0 ≤ δ) (hδ : inp.EdgesWithin δ)
    (h : (iterUpdate sch lib realCos f inp).1 = .ok out) : out.EdgesWithin (sch.shrink ^ max 1 f.levels * δ) := by
  obtain ⟨m, h1, -, h2, -⟩ := levels_from hl hδ0 (max 1 f.levels) hs hid hδ
  rw [iterUpdate_eq, ← levelsOf_eq, hf, h1] at h
  cases h
  exact h2

/-- The output with more levels against the output with fewer: no point moves by more than a multiple of the longest edge of
the coarser one, and every point of the finer one is that near to a point of the coarser one. -/
theorem C67_levels_close (hl : sch = .loop ∨ sch = .butterfly → lib.Lawful) (hs : sch.Shrinks inp) {f g : Iter}
    (hf : f.cells = []) (hg : g.cells = []) (hfg : f.levels ≤ g.levels) (hid : sch.IdsLeft (max 1 g.levels) inp [])
    (hδ0 : 0 ≤ δ) (hδ : inp.EdgesWithin δ) {out' : Mesh V D} (h : (iterUpdate sch lib realCos f inp).1 = .ok out)
    (h' : (iterUpdate sch lib realCos g inp).1 = .ok out') :
    (∀ v p, out.pos v = some p → ∃ q, out'.pos v = some q ∧
      ‖q - p‖ ≤ sch.drift / (1 - sch.shrink) * (sch.shrink ^ max 1 f.levels * δ)) ∧
    ∀ v q, out'.pos v = some q → ∃ u p, out.pos u = some p ∧
      ‖q - p‖ ≤ (sch.drift + sch.shrink) / (1 - sch.shrink) * (sch.shrink ^ max 1 f.levels * δ) := by
  obtain ⟨b1, b2, b3⟩ := sch.shrink_bounds
  obtain ⟨k, hk⟩ : ∃ k, max 1 g.levels = max 1 f.levels + k := ⟨max 1 g.levels - max 1 f.levels, by omega⟩
  rw [hk] at hid
  obtain ⟨m, m', h1, h2, -, h3, h4⟩ := levels_between hl hδ0 (max 1 f.levels) k hs hid hδ
  rw [iterUpdate_eq, ← levelsOf_eq, hf, h1] at h
  rw [iterUpdate_eq, ← levelsOf_eq, hg, hk, h2] at h'
  cases h
  cases h'
  have hle : ∀ c : ℝ, 0 ≤ c → c * ((1 - sch.shrink ^ k) / (1 - sch.shrink)) * (sch.shrink ^ max 1 f.levels * δ) ≤
      c / (1 - sch.shrink) * (sch.shrink ^ max 1 f.levels * δ) := by
    intro c hc
    refine mul_le_mul_of_nonneg_right ?_ (mul_nonneg (pow_nonneg b1.le _) hδ0)
    rw [← mul_div_assoc]
    refine div_le_div_of_nonneg_right ?_ (by linarith)
    have := pow_nonneg b1.le k
    nlinarith
  refine ⟨fun v p hp => ?_, fun v q hq => ?_⟩
  · obtain ⟨q, hq, hn⟩ := h3 v p hp
    exact ⟨q, hq, hn.trans (hle _ b3)⟩
  · obtain ⟨u, p, hp, hn⟩ := h4 v q hq
    exact ⟨u, p, hp, hn.trans (hle _ (by linarith))⟩

/-- Every point tends to a limit, and a run with `n` levels is within a multiple of `shrink ^ n` of it.  (SquareThree does not
move points, so `C67_levels_close` says it all; its number of levels is bounded by the type of the ids.) -/
theorem C67_converges [CompleteSpace V] (hs3 : sch ≠ .sqrt3) (hl : sch = .loop ∨ sch = .butterfly → lib.Lawful)
    (hs : sch.Shrinks inp) (hδ0 : 0 ≤ δ) (hδ : inp.EdgesWithin δ) :
    ∃ lim : PId → V, ∀ (f : Iter) (out : Mesh V D), f.cells = [] → (iterUpdate sch lib realCos f inp).1 = .ok out →
      ∀ v p, out.pos v = some p → ‖p - lim v‖ ≤ sch.drift / (1 - sch.shrink) * (sch.shrink ^ max 1 f.levels * δ) := by
  obtain ⟨b1, b2, b3⟩ := sch.shrink_bounds
  have hid : ∀ L, sch.IdsLeft L inp [] := fun L hq => absurd hq hs3
  have hex : ∀ L, ∃ m, manyLevels sch lib realCos L (inp, []) = .ok (m, []) := fun L =>
    (levels_from hl hδ0 L hs (hid L) hδ).imp fun m h => h.1
  choose lev hlev using hex
  -- two levels
  have two : ∀ L k v p, (lev L).pos v = some p → (lev (L + k)).pos v = some ((lev (L + k)).coord v) ∧
      ‖(lev (L + k)).coord v - p‖ ≤ sch.drift / (1 - sch.shrink) * (sch.shrink ^ L * δ) := by
    intro L k v p hp
    obtain ⟨m, m', h1, h2, -, h3, -⟩ := levels_between hl hδ0 L k hs (hid _) hδ
    rw [hlev] at h1 h2
    cases h1; cases h2
    obtain ⟨q, hq, hn⟩ := h3 v p hp
    rw [Mesh.coord_of_pos hq]
    refine ⟨hq, hn.trans (mul_le_mul_of_nonneg_right ?_ (mul_nonneg (pow_nonneg b1.le _) hδ0))⟩
    rw [← mul_div_assoc]
    refine div_le_div_of_nonneg_right ?_ (by linarith)
    have := pow_nonneg b1.le k
    nlinarith
  have hlim : ∀ v, ∃ l : V, ∀ L p, (lev L).pos v = some p → ‖p - l‖ ≤ sch.drift / (1 - sch.shrink) * (sch.shrink ^ L * δ) := by
    intro v
    by_cases hv : ∃ N p, (lev N).pos v = some p
    · obtain ⟨N, p₀, hp₀⟩ := hv
      have hc : CauchySeq fun k => (lev (N + k)).coord v := by
        refine cauchySeq_of_le_geometric sch.shrink (sch.drift / (1 - sch.shrink) * (sch.shrink ^ N * δ)) b2 fun k => ?_
        rw [dist_comm, dist_eq_norm]
        have := (two (N + k) 1 v _ (two N k v _ hp₀).1).2
        refine this.trans (le_of_eq ?_)
        rw [pow_add]; ring
      obtain ⟨l, hl'⟩ := cauchySeq_tendsto_of_complete hc
      have ht : Tendsto (fun k => (lev k).coord v) atTop (𝓝 l) := by
        have : (fun k => (lev (N + k)).coord v) = fun k => (fun j => (lev j).coord v) (k + N) := by
          funext k; rw [Nat.add_comm]
        rw [this] at hl'
        exact (tendsto_add_atTop_iff_nat N).1 hl'
      refine ⟨l, fun L p hp => ?_⟩
      have ht' : Tendsto (fun k => ‖(lev (k + L)).coord v - p‖) atTop (𝓝 ‖l - p‖) :=
        (((tendsto_add_atTop_iff_nat L).2 ht).sub_const p).norm
      rw [norm_sub_rev]
      refine le_of_tendsto' ht' fun k => ?_
      rw [Nat.add_comm]
      exact (two L k v p hp).2
    · exact ⟨0, fun L p hp => absurd ⟨L, p, hp⟩ hv⟩
  choose lim hlim using hlim
  refine ⟨lim, fun f out hf h v p hp => ?_⟩
  rw [iterUpdate_eq, ← levelsOf_eq, hf, hlev] at h
  cases h
  exact hlim v _ p hp

theorem tetraR_closed : tetraR.Closed := by
  rintro e ⟨h1, h2⟩
  have : ∀ e ∈ dartsOf tetra, e.sym ∈ dartsOf tetra := by decide
  rw [tetraR_ok.2.2.2] at h1 h2
  exact h2 (this e h1)

theorem tetraR_shrinks (sch : Scheme) : sch.Shrinks tetraR :=
  ⟨⟨tetraR_ok.1, fun _ => tetraR_ok.2.1, fun _ => tetraR_ok.2.2.1⟩, fun _ e _ he _ => absurd he (tetraR_closed e), fun _ => tetraR_closed⟩

/-- a crude bound for the samples: all coordinates are between 0 and `b` -/
theorem within_of_range {m : Mesh ℝ D} {b : ℝ} (h : ∀ v p, m.pos v = some p → 0 ≤ p ∧ p ≤ b) : m.EdgesWithin b := by
  intro e p q _ hp hq
  have h1 := h _ p hp
  have h2 := h _ q hq
  rw [Real.norm_eq_abs, abs_le]
  constructor <;> linarith

theorem patchR_within : patchR.EdgesWithin 20 := by
  refine within_of_range fun v p hp => ?_
  have : p ∈ ([0, 4, 8, 12, 16, 20] : List ℝ) := by
    have hd : patchR.pos v = ([0, 4, 8, 12, 16, 20] : List ℝ)[v]? := by
      rw [← AMap.find?_dense, ← mapIdx_eq_dense]; rfl
    exact List.mem_of_getElem? (hd.symm.trans hp)
  simp only [List.mem_cons, List.not_mem_nil, or_false] at this
  rcases this with rfl | rfl | rfl | rfl | rfl | rfl <;> norm_num

theorem tetraR_within : tetraR.EdgesWithin 12 := by
  refine within_of_range fun v p hp => ?_
  have : p ∈ ([0, 4, 8, 12] : List ℝ) := by
    have hd : tetraR.pos v = ([0, 4, 8, 12] : List ℝ)[v]? := by
      rw [← AMap.find?_dense, ← mapIdx_eq_dense]; rfl
    exact List.mem_of_getElem? (hd.symm.trans hp)
  simp only [List.mem_cons, List.not_mem_nil, or_false] at this
  rcases this with rfl | rfl | rfl | rfl <;> norm_num

theorem patchR_simple : patchR.SimpleBoundary := by
  rintro e e' ⟨h1, h2⟩ ⟨h3, h4⟩
  rw [patchR_ok.2.2.2] at h1 h2 h3 h4
  exact patch_simple e e' h1 h2 h3 h4

theorem patchR_shrinks : Scheme.loop.Shrinks patchR :=
  ⟨⟨patchR_ok.1, fun _ => patchR_ok.2.1, fun _ => patchR_ok.2.2.1⟩, fun _ => patchR_simple, by simp⟩

/-- forty levels of Loop on the patch: no edge is longer than a tenth -/
example (out : Mesh ℝ Nat) (h : (iterUpdate .loop someLib realCos ⟨[], 40, []⟩ patchR).1 = .ok out) : out.EdgesWithin (1 / 10) := by
  have := C67_edges_shrink (f := ⟨[], 40, []⟩) (fun _ => someLib_lawful) patchR_shrinks rfl (fun h => by cases h) (by norm_num)
    patchR_within h
  intro e p q he hp hq
  refine (this e p q he hp hq).trans ?_
  simp only [Scheme.shrink]
  norm_num

/-- the runs exist -/
example (sch : Scheme) : ∃ out, (iterUpdate sch someLib realCos ⟨[], 3, []⟩ tetraR).1 = .ok out ∧
    out.EdgesWithin (sch.shrink ^ 3 * 12) := by
  obtain ⟨m, h1, -, h2, -⟩ := levels_from (lib := someLib) (fun _ => someLib_lawful) (by norm_num) 3 (tetraR_shrinks sch)
    (fun _ => by decide) tetraR_within
  refine ⟨m, ?_, h2⟩
  rw [iterUpdate_eq]
  show Except.map Prod.fst (manyLevels sch someLib realCos 3 (tetraR, [])) = _
  rw [h1]
  rfl

/-- one level of Butterfly on the tetrahedron -/
example (out : Mesh ℝ Nat) (f' : Filt) (h : cellUpdate .butterfly someLib realCos (Filt.new.setCells []) tetraR = (.ok out, f')) :
    out.EdgesWithin (21 / 2) := by
  have := (C67_one_level (tetraR_shrinks .butterfly) (fun h => by cases h) h (by norm_num) tetraR_within).1
  intro e p q he hp hq
  refine (this e p q he hp hq).trans ?_
  simp only [Scheme.shrink]
  norm_num

/-- SquareThree with two and with five levels -/
example (out out' : Mesh ℝ Nat) (h : (iterUpdate .sqrt3 someLib realCos ⟨[], 2, []⟩ tetraR).1 = .ok out)
    (h' : (iterUpdate .sqrt3 someLib realCos ⟨[], 5, []⟩ tetraR).1 = .ok out') (v : PId) (q : ℝ) (hq : out'.pos v = some q) :
    ∃ u p, out.pos u = some p ∧ |q - p| ≤ 32 / 3 := by
  obtain ⟨u, p, hp, hn⟩ := (C67_levels_close (f := ⟨[], 2, []⟩) (g := ⟨[], 5, []⟩) (fun _ => someLib_lawful)
    (tetraR_shrinks .sqrt3) rfl rfl (by decide) (fun _ => by decide) (by norm_num) tetraR_within h h').2 v q hq
  refine ⟨u, p, hp, hn.trans ?_⟩
  simp only [Scheme.shrink, Scheme.drift]
  norm_num

/-- Loop on the patch: with 60 levels every point is within a tenth of its limit -/
example : ∃ lim : PId → ℝ, ∀ out, (iterUpdate .loop someLib realCos ⟨[], 60, []⟩ patchR).1 = .ok out →
    ∀ v p, out.pos v = some p → |p - lim v| ≤ 1 / 10 := by
  obtain ⟨lim, hlim⟩ := C67_converges (sch := .loop) (lib := someLib) (by decide) (fun _ => someLib_lawful) patchR_shrinks
    (by norm_num) patchR_within
  refine ⟨lim, fun out h v p hp => (hlim ⟨[], 60, []⟩ out rfl h v p hp).trans ?_⟩
  simp only [Scheme.shrink, Scheme.drift]
  norm_num

end Verif
