import Verif.Proofs.Trap
import Verif.Properties.CondKeeps
import Verif.Properties.CondSqrt3
/-
C78: the conditional filter with the ModifiedButterfly filter and `SetMaximumArea` may never return.
-/
namespace Verif
set_option linter.unusedSectionVars false

section rounded
variable {P D : Type} [Zero P] [Add P] [SMul ℝ P] {ε η B M : ℝ} {val : P → Fin 2 → ℝ} {lib : QELib} {inp : Mesh P D}

/-- C78: a mesh with a trap (ten triangles that the filter reproduces at the same place and in the same size), in machine
arithmetic (`Rounded`, C66: operations with small errors, here at most 1/32 for a new point; an area computed up to 1/2).  With a
threshold of about 67 the filter never returns: in each iteration one triangle is too large.  (`none`: the iterations of the
model are used up, however many they are.) -/
theorem C78_butterfly_trap_rounded (hv : inp.Valid) (hl : lib.Lawful) {X Y : PId → ℝ}
    (hXY : ∀ v p, inp.pos v = some p → X v = val p 0 ∧ Y v = val p 1)
    {a b c x y p q u v e : PId} (T : Trap inp.tris X Y a b c x y p q u v e)
    (hR : Rounded ε η B val) (hM : 20 ≤ M) (hb : ∀ v p, inp.pos v = some p → ‖val p‖ ≤ M)
    (hB : Scheme.butterfly.InRange 0 ε η B M 1) (hE : Scheme.butterfly.errorBound 0 ε η M 1 ≤ 1 / 32)
    {area : P → P → P → ℝ} (hA : ∀ p q r, ‖val p‖ ≤ M → ‖val q‖ ≤ M → ‖val r‖ ≤ M →
      |area p q r - planeArea (val p 0) (val p 1) (val q 0) (val q 1) (val r 0) (val r 1)| ≤ 1 / 2)
    {A : ℝ} (h66 : 133 / 2 ≤ A) (h68 : A ≤ 135 / 2) (cosn : Nat → ℝ) (n : Nat) (k : Cond Filt CId) :
    condGenerate lib (condCellUpd .butterfly lib cosn) (some (areaCompute area A)) n k inp = none := by
  obtain ⟨l, h1, h2, h3⟩ := condArea_start (sch := .butterfly) hv (fun _ => hl) (by simp) (n := n) (by simp)
    (condCellUpd .butterfly lib cosn) area A k
  rw [h3]
  have hvc := copyGeometry_valid lib hv
  refine Trap.loop hl hR hM hB hE hA h66 h68 (m := copyGeometry lib inp) (X := X) (Y := Y)
    (by rw [copyGeometry_tris lib hv]; exact T) ?_ h2 ?_
  · intro v p hp
    have hp : inp.pos v = some p := by
      unfold Mesh.pos at *
      rwa [copyGeometry_points lib hv] at hp
    exact ⟨(hXY v p hp).1, (hXY v p hp).2, hb v p hp⟩
  · obtain ⟨l', k1, -, k2⟩ := C28_area_exact area A hvc.cells_sorted hvc.allTriangles hvc.cornersExist k.sel
    rw [h1] at k1
    cases k1
    exact k2

end rounded

section exact
variable {D : Type} {lib : QELib} {inp : Mesh R2 D}

theorem rounded_exact (B : ℝ) : Rounded 0 0 B (fun p : R2 => (p : Fin 2 → ℝ)) where
  eps := le_rfl
  eta := le_rfl
  zero := rfl
  add p q _ _ := by simp
  smul k p _ _ := by simp

/-- C78 in exact arithmetic. -/
theorem C78_butterfly_trap (hv : inp.Valid) (hl : lib.Lawful) {a b c x y p q u v e : PId}
    (T : Trap inp.tris (fun i => inp.place i 0) (fun i => inp.place i 1) a b c x y p q u v e)
    {A : ℝ} (h66 : 133 / 2 ≤ A) (h68 : A ≤ 135 / 2) (cosn : Nat → ℝ) (n : Nat) (k : Cond Filt CId) :
    condGenerate lib (condCellUpd .butterfly lib cosn) (some (areaCompute heronArea A)) n k inp = none := by
  obtain ⟨M, hM, hb⟩ : ∃ M : ℝ, 20 ≤ M ∧ ∀ v p, inp.pos v = some p → ‖(p : Fin 2 → ℝ)‖ ≤ M := by
    have h0 : ∀ z ∈ inp.points.map fun w => ‖(w.2 : Fin 2 → ℝ)‖, 0 ≤ z := by
      intro z hz
      obtain ⟨w, -, rfl⟩ := List.mem_map.1 hz
      exact norm_nonneg _
    refine ⟨20 + (inp.points.map fun w => ‖(w.2 : Fin 2 → ℝ)‖).sum, by linarith [List.sum_nonneg h0], fun v p hp => ?_⟩
    have := List.single_le_sum h0 _ (List.mem_map.2 ⟨(v, p), AMap.mem_of_find? hp, rfl⟩)
    linarith
  refine C78_butterfly_trap_rounded (val := fun p : R2 => (p : Fin 2 → ℝ)) (M := M) hv hl (fun v p hp => ?_) T
    (rounded_exact (3 / 2 * (3 / 2 * M))) hM hb ?_ ?_ (fun p q r _ _ _ => ?_) h66 h68 cosn n k
  · simp only [place_of_pos hp, and_self]
  · norm_num [Scheme.InRange, Scheme.sizeAfter, Scheme.tinyAfter, Scheme.growth, Scheme.multiples, Scheme.widest, Scheme.roundings]
  · norm_num [Scheme.errorBound, Scheme.sizeAfter, Scheme.tinyAfter, Scheme.growth, Scheme.multiples, Scheme.roundings]
  · rw [heronArea_eq, triArea_R2]
    unfold planeArea
    norm_num

/-- C78 in space, in any position and of any size: a similarity takes the mesh to where it is, and the threshold is scaled. -/
theorem C78_butterfly_trap_space {E : Type} [NormedAddCommGroup E] [InnerProductSpace ℝ E] (hv : inp.Valid)
    (hring : inp.RingOK) (hl : lib.Lawful) {a b c x y p q u v e : PId}
    (T : Trap inp.tris (fun i => inp.place i 0) (fun i => inp.place i 1) a b c x y p q u v e)
    {A : ℝ} (h66 : 133 / 2 ≤ A) (h68 : A ≤ 135 / 2) (φ : R2 →ᵃ[ℝ] E) {r : ℝ} (hr : 0 < r)
    (hφ : ∀ p q, dist (φ p) (φ q) = r * dist p q) (cosn : Nat → ℝ) (n : Nat) (k : Cond Filt CId) :
    condGenerate lib (condCellUpd .butterfly lib cosn) (some (areaCompute heronArea (r ^ 2 * A))) n k (inp.mapPoints φ) = none := by
  have h := C19_similarity_conditional_partial (sch := .butterfly) (inp := inp) (lib := lib) (fun _ => hl) cosn
    ⟨hv, fun _ => hring, by simp⟩ (by simp) (n := n) (by simp) φ hr hφ A k
  rw [C78_butterfly_trap hv hl T h66 h68 cosn n k] at h
  exact Option.map_eq_none_iff.1 h

end exact

/-- the corners of the example: `a`, `b`, `c`, `x`, `y`, `p`, `q`, `u`, `v`, `e` -/
noncomputable def trapPts : List R2 :=
  [!₂[0, 0], !₂[61 / 5, 1 / 5], !₂[1 / 5, 61 / 5], !₂[21, -1 / 4], !₂[-1 / 4, 21], !₂[-80, -1 / 5], !₂[-1 / 5, -80],
    !₂[27 / 2, 4 / 5], !₂[4 / 5, 27 / 2], !₂[32 / 5, 32 / 5]]

/-- its triangles -/
def trapTris : List Tri :=
  [(0, 1, 2), (1, 0, 3), (3, 0, 5), (1, 3, 7), (1, 7, 9), (2, 1, 9), (2, 9, 8), (4, 2, 8), (0, 2, 4), (0, 4, 6)]

noncomputable def trapP : Mesh R2 Nat := mk trapPts trapTris none

theorem trapP_ok : trapP.Valid ∧ trapP.RingOK ∧ trapP.NoIsolated ∧ trapP.tris = trapTris := mk_ok _ (by decide)

theorem trapP_place (v : PId) : trapP.place v = (trapPts[v]?).getD 0 := by
  rw [← AMap.find?_dense, ← mapIdx_eq_dense]; rfl

theorem trapP_trap : Trap trapP.tris (fun i => trapP.place i 0) (fun i => trapP.place i 1) 0 1 2 3 4 5 6 7 8 9 := by
  have hp := trapP_place
  have p0 := hp 0; have p1 := hp 1; have p2 := hp 2; have p3 := hp 3; have p4 := hp 4
  have p5 := hp 5; have p6 := hp 6; have p7 := hp 7; have p8 := hp 8; have p9 := hp 9
  simp only [trapPts, List.getElem?_cons_zero, List.getElem?_cons_succ, Option.getD_some] at p0 p1 p2 p3 p4 p5 p6 p7 p8 p9
  rw [trapP_ok.2.2.2]
  constructor
  case pa => simp only [p0]; apply near_of <;> norm_num
  case pb => simp only [p1]; apply near_of <;> norm_num
  case pc => simp only [p2]; apply near_of <;> norm_num
  case px => simp only [p3]; apply near_of <;> norm_num
  case py => simp only [p4]; apply near_of <;> norm_num
  case pp => simp only [p5]; apply near_of <;> norm_num
  case pq => simp only [p6]; apply near_of <;> norm_num
  case pu => simp only [p7]; apply near_of <;> norm_num
  case pv => simp only [p8]; apply near_of <;> norm_num
  case pe => simp only [p9]; apply near_of <;> norm_num
  case small =>
    intro t ht hn
    simp only [trapTris, List.mem_cons, List.not_mem_nil, or_false] at ht
    rcases ht with rfl | rfl | rfl | rfl | rfl | rfl | rfl | rfl | rfl | rfl
    · simp at hn
    all_goals
      simp only [p0, p1, p2, p3, p4, p5, p6, p7, p8, p9]
      norm_num [planeArea, abs_of_pos, abs_of_neg]
  all_goals
    unfold HasTri; decide

example (n : Nat) (k : Cond Filt CId) : condGenerate someLib (condCellUpd .butterfly someLib realCos)
    (some (areaCompute heronArea 67)) n k trapP = none :=
  C78_butterfly_trap trapP_ok.1 someLib_lawful trapP_trap (by norm_num) (by norm_num) realCos n k

/-- the plane in space -/
noncomputable def intoSpace : R2 →ᵃ[ℝ] EuclideanSpace ℝ (Fin 3) :=
  ({ toFun := fun p => !₂[p 0, p 1, 0]
     map_add' := fun p q => by ext i; fin_cases i <;> simp
     map_smul' := fun k p => by ext i; fin_cases i <;> simp } : R2 →ₗ[ℝ] EuclideanSpace ℝ (Fin 3)).toAffineMap

theorem intoSpace_dist (p q : R2) : dist (intoSpace p) (intoSpace q) = 1 * dist p q := by
  rw [one_mul, EuclideanSpace.dist_eq, EuclideanSpace.dist_eq, Fin.sum_univ_three, Fin.sum_univ_two]
  simp [intoSpace]

/-- the example in space -/
noncomputable def trapS : Mesh (EuclideanSpace ℝ (Fin 3)) Nat := trapP.mapPoints intoSpace

theorem trapS_stuck (n : Nat) (k : Cond Filt CId) : condGenerate someLib (condCellUpd .butterfly someLib realCos)
    (some (areaCompute heronArea 67)) n k trapS = none := by
  have := C78_butterfly_trap_space trapP_ok.1 trapP_ok.2.1 someLib_lawful trapP_trap (A := 67) (by norm_num) (by norm_num)
    intoSpace one_pos intoSpace_dist realCos n k
  rwa [one_pow, one_mul] at this

/-- C78 is false as it is stated: there are a valid mesh in space and a positive area with which the filter never returns. -/
theorem C78_butterfly_area_refuted : ¬ ∀ (inp : Mesh (EuclideanSpace ℝ (Fin 3)) Nat) (lib : QELib) (A : ℝ), inp.Valid → lib.Lawful → 0 < A →
    ∀ k : Cond Filt CId, ∃ n out k',
      condGenerate lib (condCellUpd .butterfly lib realCos) (some (areaCompute heronArea A)) n k inp = some (.ok out, k') := by
  intro H
  obtain ⟨n, out, k', h⟩ := H trapS someLib 67 trapP_ok.1.mapPoints someLib_lawful (by norm_num) ⟨Filt.new, []⟩
  rw [trapS_stuck n] at h
  cases h

section double

/-- machine positions in the plane -/
abbrev M2 := Fin 2 → Double

noncomputable def m2 (x y : ℝ) : M2 := ![⟨x⟩, ⟨y⟩]

/-- the exact values -/
noncomputable def m2val (p : M2) : Fin 2 → ℝ := fun i => (p i).val

theorem m2_rounded : Rounded (2 * (1 / 2) ^ 53 + ((1 / 2) ^ 53) ^ 2) 0 ((2 : ℝ) ^ 200 / 2) m2val :=
  rounded_pi (rounded_double (one_le_pow₀ (by norm_num)))

/-- the corners of an example in `double`: all coordinates are machine numbers -/
noncomputable def trapMs : List M2 :=
  [m2 0 0, m2 (49 / 4) (1 / 4), m2 (1 / 4) (49 / 4), m2 21 (-1 / 4), m2 (-1 / 4) 21, m2 (-80) (-1 / 4), m2 (-1 / 4) (-80),
    m2 (27 / 2) (3 / 4), m2 (3 / 4) (27 / 2), m2 (51 / 8) (51 / 8)]

noncomputable def trapM : Mesh M2 Nat := mk trapMs trapTris none

theorem trapM_ok : trapM.Valid ∧ trapM.RingOK ∧ trapM.NoIsolated ∧ trapM.tris = trapTris := mk_ok _ (by decide)

theorem trapM_pos (v : PId) : trapM.pos v = trapMs[v]? := by
  rw [← AMap.find?_dense, ← mapIdx_eq_dense]; rfl

theorem trapM_size (v : PId) (p : M2) (h : trapM.pos v = some p) : ‖m2val p‖ ≤ 80 := by
  have hm : p ∈ trapMs := by rw [trapM_pos] at h; exact List.mem_of_getElem? h
  rw [pi_norm_le_iff_of_nonneg (by norm_num)]
  intro i
  simp only [trapMs, List.mem_cons, List.not_mem_nil, or_false] at hm
  rcases hm with rfl | rfl | rfl | rfl | rfl | rfl | rfl | rfl | rfl | rfl <;> fin_cases i <;> norm_num [m2val, m2, abs_of_neg]

theorem trapM_trap : Trap trapM.tris (fun i => m2val ((trapMs[i]?).getD 0) 0) (fun i => m2val ((trapMs[i]?).getD 0) 1)
    0 1 2 3 4 5 6 7 8 9 := by
  rw [trapM_ok.2.2.2]
  constructor
  case small =>
    intro t ht hn
    simp only [trapTris, List.mem_cons, List.not_mem_nil, or_false] at ht
    rcases ht with rfl | rfl | rfl | rfl | rfl | rfl | rfl | rfl | rfl | rfl
    · simp at hn
    all_goals
      simp only [trapMs, List.getElem?_cons_zero, List.getElem?_cons_succ, Option.getD_some]
      norm_num [planeArea, abs_of_pos, abs_of_neg, m2val, m2]
  all_goals first
    | (simp only [trapMs, List.getElem?_cons_zero, List.getElem?_cons_succ, Option.getD_some]
       apply near_of <;> norm_num [m2val, m2])
    | (unfold HasTri; decide)

/-- The filter does not return in `double`, whatever formula is used for the area. -/
example (n : Nat) (k : Cond Filt CId) (area : M2 → M2 → M2 → ℝ)
    (hA : ∀ p q r, ‖m2val p‖ ≤ 80 → ‖m2val q‖ ≤ 80 → ‖m2val r‖ ≤ 80 →
      |area p q r - planeArea (m2val p 0) (m2val p 1) (m2val q 0) (m2val q 1) (m2val r 0) (m2val r 1)| ≤ 1 / 2) :
    condGenerate someLib (condCellUpd .butterfly someLib realCos) (some (areaCompute area 67)) n k trapM = none :=
  C78_butterfly_trap_rounded (M := 80) trapM_ok.1 someLib_lawful (fun v p hp => by
      rw [trapM_pos] at hp
      simp only [hp, Option.getD_some, and_self]) trapM_trap m2_rounded
    (by norm_num) trapM_size (by
      unfold Scheme.InRange
      refine le_trans (mul_le_mul_of_nonneg_right (powers_le _) ?_) ?_ <;>
        norm_num [Scheme.sizeAfter, Scheme.tinyAfter, Scheme.growth, Scheme.multiples, Scheme.widest, Scheme.roundings])
    (by norm_num [Scheme.errorBound, Scheme.sizeAfter, Scheme.tinyAfter, Scheme.growth, Scheme.multiples, Scheme.roundings]) hA
    (by norm_num) (by norm_num) realCos n k

end double

end Verif
