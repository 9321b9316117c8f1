import Verif.Spec.Hull
import Verif.Proofs.Affine
import Mathlib.Tactic.Positivity
import Mathlib.Tactic.Linarith
/-
Convex combinations: the means used by the schemes stay in a convex set that contains the points they combine.
-/
set_option linter.unusedSectionVars false
namespace Verif
variable {K P D : Type} [Field K] [LinearOrder K] [IsStrictOrderedRing K] [AddCommGroup P] [Module K P]

section combinations
variable {C : Set P} (hC : Convex K C)
include hC

theorem mid_mem {a b : P} (ha : a ∈ C) (hb : b ∈ C) : midPoint K a b ∈ C := by
  have := hC ha hb (a := 1 / 2) (b := 1 / 2) (by positivity) (by positivity) (by norm_num)
  rwa [← smul_add] at this

theorem third_mem {a b c : P} (ha : a ∈ C) (hb : b ∈ C) (hc : c ∈ C) : (1 / 3 : K) • (0 + a + b + c) ∈ C := by
  rw [zero_add]
  have := hC (mid_mem hC ha hb) hc (a := 2 / 3) (b := 1 / 3) (by positivity) (by positivity) (by norm_num)
  have e : (1 / 3 : K) • (a + b + c) = (2 / 3 : K) • midPoint K a b + (1 / 3 : K) • c := by
    unfold midPoint; module
  rwa [e]

theorem loop_mem {a b c d : P} (ha : a ∈ C) (hb : b ∈ C) (hc : c ∈ C) (hd : d ∈ C) :
    0 + (3 / 8 : K) • a + (3 / 8 : K) • b + (1 / 8 : K) • c + (1 / 8 : K) • d ∈ C := by
  rw [zero_add]
  have := hC (mid_mem hC ha hb) (mid_mem hC hc hd) (a := 3 / 4) (b := 1 / 4) (by positivity) (by positivity)
    (by norm_num)
  have e : (3 / 8 : K) • a + (3 / 8 : K) • b + (1 / 8 : K) • c + (1 / 8 : K) • d =
      (3 / 4 : K) • midPoint K a b + (1 / 4 : K) • midPoint K c d := by
    unfold midPoint; module
  rwa [e]

theorem mean_mem (l : List P) (hl : ∀ p ∈ l, p ∈ C) (hne : l ≠ []) : (1 / (l.length : K)) • l.sum ∈ C := by
  induction l with
  | nil => exact absurd rfl hne
  | cons x l ih =>
    rcases l with _ | ⟨y, l⟩
    · simpa using hl x (by simp)
    · have h1 := ih (fun p hp => hl p (by simp [hp])) (by simp)
      have h2 := hl x (by simp)
      generalize y :: l = l' at *
      have e0 : ((x :: l').length : K) = (l'.length : K) + 1 := by rw [List.length_cons]; push_cast; rfl
      by_cases h0 : (l'.length : K) = 0
      · have : l' = [] := List.length_eq_zero_iff.1 (by exact_mod_cast h0)
        subst this; simpa using h2
      · have hp : (0 : K) < l'.length := lt_of_le_of_ne (Nat.cast_nonneg _) (Ne.symm h0)
        have := hC h2 h1 (a := 1 / ((l'.length : K) + 1)) (b := (l'.length : K) / ((l'.length : K) + 1)) (by positivity)
          (by positivity) (by field_simp; ring)
        rw [smul_smul] at this
        have e : (l'.length : K) / ((l'.length : K) + 1) * (1 / (l'.length : K)) = 1 / ((l'.length : K) + 1) := by
          field_simp
        rw [e, ← smul_add] at this
        rw [e0, List.sum_cons]
        exact this

/-- a point moved towards the mean of others -/
theorem towards_mem {p : P} (hp : p ∈ C) {l : List P} (hl : ∀ q ∈ l, q ∈ C) (hne : l ≠ []) {β : K} (h0 : 0 ≤ β)
    (h1 : (l.length : K) * β ≤ 1) : (1 - (l.length : K) * β) • p + β • l.sum ∈ C := by
  have hpos : (0 : K) < l.length := by
    have : 0 < l.length := List.length_pos_iff.2 hne
    exact_mod_cast this
  have := hC hp (mean_mem hC l hl hne) (a := 1 - (l.length : K) * β) (b := (l.length : K) * β) (by linarith)
    (by positivity) (by ring)
  rw [smul_smul] at this
  have e : (l.length : K) * β * (1 / (l.length : K)) = β := by field_simp
  rwa [e] at this

end combinations

theorem loopBeta_bounds {cosn : Nat → K} (hc : ∀ n, -1 ≤ cosn n ∧ cosn n ≤ 1) {n : Nat} (hn : n ≠ 0) :
    0 ≤ loopBeta cosn n ∧ (n : K) * loopBeta cosn n ≤ 1 := by
  obtain ⟨h1, h2⟩ := hc n
  have hpos : (0 : K) < n := by exact_mod_cast Nat.pos_of_ne_zero hn
  have hx : (3 / 8 + 1 / 4 * cosn n) * (3 / 8 + 1 / 4 * cosn n) ≤ 25 / 64 := by nlinarith
  have hy : 0 ≤ (3 / 8 + 1 / 4 * cosn n) * (3 / 8 + 1 / 4 * cosn n) := mul_self_nonneg _
  constructor
  · unfold loopBeta
    apply div_nonneg _ hpos.le
    linarith
  · unfold loopBeta
    rw [mul_div_cancel₀ _ hpos.ne']
    linarith

section
variable {inp out : Mesh P D} {lib : QELib} {cosn : Nat → K} {f f' : Filt}

theorem coord_mem_hull (hv : inp.Valid) {v : PId} (h : v < inp.points.length) : inp.coord v ∈ inp.hull K :=
  subset_convexHull K _ ⟨v, hv.pos_eq h⟩

theorem loopBase_mem_hull (hc : ∀ n, -1 ≤ cosn n ∧ cosn n ≤ 1) (hn : Scheme.loop.Needs inp) (hsb : inp.SimpleBoundary)
    (f : Filt) {v : PId} (h : v < inp.points.length) : loopBase cosn inp f v ∈ inp.hull K := by
  have hv := hn.valid
  have hr := hn.ring (Or.inl rfl)
  have hC : Convex K (inp.hull K) := convex_convexHull K _
  unfold loopBase
  split
  · obtain ⟨w, hw⟩ := (hn.noIsolated rfl).edge hv h
    obtain ⟨r, h1, h2, h3⟩ := smoothingPoint_ok cosn hv hr hw (inp.coord v)
    rw [valueOf_eq (np := fun v => smoothingPoint cosn inp v (inp.coord v)) h3]
    have hp := coord_mem_hull (K := K) hv h
    have hq : ∀ l : List Edge, (∀ e ∈ l, e ∈ r) → ∀ q ∈ l.map (fun e => inp.coord e.2), q ∈ inp.hull K := by
      intro l hl q hq
      obtain ⟨e, he, rfl⟩ := List.mem_map.1 hq
      exact coord_mem_hull hv (hv.isEdge_lt ((h2 e).1 (hl e he)).1).2
    simp only [smoothed, added_eq]
    rcases border_edges hv hsb h1 h2 with hb | hb
    · rw [if_neg (by simpa using hb)]
      have hne : r ≠ [] := List.ne_nil_of_mem ((h2 _).2 ⟨hw, rfl⟩)
      obtain ⟨b1, b2⟩ := loopBeta_bounds hc (n := r.length) (by simpa using hne)
      have := towards_mem hC hp (l := r.map fun e => inp.coord e.2) (hq r fun _ h => h) (by simpa using hne) b1
        (by rw [List.length_map]; exact b2)
      rwa [List.length_map] at this
    · rw [if_pos (by simp [hb])]
      have := towards_mem hC hp (l := (r.filter inp.isAtBorder).map fun e => inp.coord e.2)
        (hq _ fun _ h => List.mem_of_mem_filter h) (by
          intro h0
          rw [List.map_eq_nil_iff] at h0
          rw [h0] at hb; simp at hb) (β := (1 / 8 : K)) (by positivity) (by
          rw [List.length_map, hb]; norm_num)
      rw [List.length_map, hb] at this
      have e : (1 - ((2 : Nat) : K) * (1 / 8)) = 3 / 4 := by norm_num
      rwa [e] at this
  · exact coord_mem_hull hv h

theorem mem_of_dense {pts : List P} {C : Set P} (hp : out.points = AMap.dense pts) (h : ∀ p ∈ pts, p ∈ C) :
    ∀ v p, out.pos v = some p → p ∈ C := by
  intro v p hpos
  unfold Mesh.pos at hpos
  rw [hp, AMap.find?_dense] at hpos
  exact h p (List.mem_of_getElem? hpos)

/-- A half-space that contains the input points contains the output points: the bounding box does not grow. -/
theorem hull_le {g : P →ₗ[K] K} {b : K} (hb : ∀ v p, inp.pos v = some p → g p ≤ b) {p : P} (hp : p ∈ inp.hull K) :
    g p ≤ b := by
  have : inp.hull K ⊆ {p | g p ≤ b} := by
    refine convexHull_min ?_ (convex_halfSpace_le g.isLinear b)
    rintro p ⟨v, hv⟩
    exact hb v p hv
  exact this hp

end
end Verif
