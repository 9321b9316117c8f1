import Verif.Properties.Geometry
import Verif.Proofs.ShrinkLevels
import Verif.Proofs.CondExact
import Mathlib.Tactic.NormNum
/-
Lengths and areas of the pieces that SquareThree makes.
-/
namespace Verif
open scoped InnerProductSpace
set_option linter.unusedSectionVars false
variable {E D : Type} [NormedAddCommGroup E] [InnerProductSpace ℝ E] {lib : QELib} {cosn : Nat → ℝ} {f f' : Filt} {inp out : Mesh E D}

/-- no side of the triangle `p q r` is longer than `l` -/
def Sides (l : ℝ) (p q r : E) : Prop := dist p q ≤ l ∧ dist q r ≤ l ∧ dist r p ≤ l

theorem Sides.rot {l : ℝ} {p q r : E} (h : Sides l p q r) : Sides l q r p := ⟨h.2.1, h.2.2, h.1⟩

theorem triArea_le_sides {l : ℝ} {p q r : E} (h : Sides l p q r) : triArea p q r ≤ l ^ 2 / 2 := by
  obtain ⟨h1, -, h3⟩ := h
  have h0 : 0 ≤ l := dist_nonneg.trans h1
  rw [dist_comm, dist_eq_norm] at h1
  rw [dist_eq_norm] at h3
  have : Real.sqrt (‖q - p‖ ^ 2 * ‖r - p‖ ^ 2 - ⟪q - p, r - p⟫_ℝ ^ 2) ≤ l ^ 2 := by
    refine Real.sqrt_le_iff.2 ⟨by positivity, ?_⟩
    have k1 : ‖q - p‖ ^ 2 ≤ l ^ 2 := pow_le_pow_left₀ (norm_nonneg _) h1 2
    have k2 : ‖r - p‖ ^ 2 ≤ l ^ 2 := pow_le_pow_left₀ (norm_nonneg _) h3 2
    have := mul_le_mul k1 k2 (by positivity) (by positivity)
    nlinarith [sq_nonneg ⟪q - p, r - p⟫_ℝ]
  unfold triArea
  linarith

/-- the mean of three points -/
noncomputable def mean3 (p q r : E) : E := (1 / 3 : ℝ) • p + (1 / 3 : ℝ) • q + (1 / 3 : ℝ) • r

theorem mean3_rot (p q r : E) : mean3 q r p = mean3 p q r := by unfold mean3; abel

theorem dist_mean3 {l : ℝ} {p q r : E} (h : Sides l p q r) : dist (mean3 p q r) p ≤ 2 / 3 * l := by
  have : mean3 p q r - p = (1 / 3 : ℝ) • (q - p) + (1 / 3 : ℝ) • (r - p) := by unfold mean3; module
  rw [dist_eq_norm, this]
  refine (norm_add_le _ _).trans ?_
  rw [norm_smul, norm_smul, ← dist_eq_norm, ← dist_eq_norm, dist_comm q]
  norm_num
  linarith [h.1, h.2.2]

theorem area_mean3 (p q r : E) : triArea p q (mean3 p q r) = triArea p q r / 3 := by
  rw [triArea_comb (p := p) (q := q) (r := r) 1 0 (1 / 3) (1 / 3) (by module) (by unfold mean3; module)]
  norm_num [abs_of_pos]
  ring

theorem sides_fan {l : ℝ} {p q r : E} (h : Sides l p q r) : Sides l p q (mean3 p q r) := by
  have h0 : 0 ≤ l := dist_nonneg.trans h.1
  refine ⟨h.1, ?_, ?_⟩
  · have := dist_mean3 h.rot
    rw [mean3_rot, dist_comm] at this
    linarith
  · have := dist_mean3 h
    linarith

/-- the triangle of the two centres at the edge `p q` and its end `q` -/
theorem sides_flip {l : ℝ} {p q r s : E} (h : Sides l p q r) (h' : Sides l q p s) :
    Sides (2 / 3 * l) (mean3 p q r) (mean3 q p s) q := by
  refine ⟨?_, dist_mean3 h', ?_⟩
  · have : mean3 p q r - mean3 q p s = (1 / 3 : ℝ) • (r - p) + (1 / 3 : ℝ) • (p - s) := by unfold mean3; module
    rw [dist_eq_norm, this]
    refine (norm_add_le _ _).trans ?_
    rw [norm_smul, norm_smul, ← dist_eq_norm, ← dist_eq_norm]
    norm_num
    linarith [h.2.2, h'.2.1]
  · have := dist_mean3 h.rot
    rw [mean3_rot, dist_comm] at this
    exact this

theorem selected_centre (hv : inp.Valid) (hsel : inp.SelOK f.cells)
    (hmax : inp.points.length + (inp.selected f.cells).length ≤ idMax)
    (h : cellUpdate .sqrt3 lib cosn f inp = (.ok out, f')) {a b : PId} {v : PId}
    (hc : inp.centreOf f.cells (a, b) = some v) :
    ∃ c, HasTri (inp.selected f.cells) a b c ∧ out.place v = mean3 (inp.place a) (inp.place b) (inp.place c) := by
  obtain ⟨i, ⟨x, y, z⟩, h1, h2, rfl⟩ := centreIn_some (n := inp.points.length) (L := inp.selected f.cells) hc
  have hT : HasTri (inp.selected f.cells) x y z := Or.inl (List.mem_of_getElem? h1)
  have ht := hv.selected_subset _ _ (List.mem_of_getElem? h1)
  have pe : ∀ {w}, w ∈ Tri.verts (x, y, z) → inp.pos w = some (inp.place w) := fun hw => hv.pos_place (hv.verts_lt ht hw)
  have hp := place_of_pos ((C12_sqrt3_centroids hv hsel hmax h h1).1 _ _ _ (pe (by simp [Tri.verts])) (pe (by simp [Tri.verts]))
    (pe (by simp [Tri.verts])))
  have hp : out.place (inp.points.length + i) = mean3 (inp.place x) (inp.place y) (inp.place z) := hp
  simp only [Tri.darts, List.mem_cons, Prod.mk.injEq, List.not_mem_nil, or_false] at h2
  rcases h2 with ⟨rfl, rfl⟩ | ⟨rfl, rfl⟩ | ⟨rfl, rfl⟩
  · exact ⟨z, hT, hp⟩
  · exact ⟨x, hT.rot, hp.trans (mean3_rot _ _ _).symm⟩
  · exact ⟨y, hT.rot.rot, hp.trans (mean3_rot _ _ _)⟩

/-- the triangles of the output: an untouched triangle; a third of a subdivided one; or a triangle at a flipped edge -/
theorem sqrt3_pieces (hv : inp.Valid) (hsel : inp.SelOK f.cells)
    (hmax : inp.points.length + (inp.selected f.cells).length ≤ idMax)
    (h : cellUpdate .sqrt3 lib cosn f inp = (.ok out, f')) {d : Tri} (hd : d ∈ out.tris) :
    (d ∈ inp.tris ∧ d ∉ inp.selected f.cells) ∨
    (∃ a b c v, HasTri (inp.selected f.cells) a b c ∧ d = (a, b, v) ∧
      out.place v = mean3 (inp.place a) (inp.place b) (inp.place c)) ∨
    ∃ a b c c' v v', HasTri (inp.selected f.cells) a b c ∧ HasTri (inp.selected f.cells) b a c' ∧ d = (v, v', b) ∧
      out.place v = mean3 (inp.place a) (inp.place b) (inp.place c) ∧
      out.place v' = mean3 (inp.place b) (inp.place a) (inp.place c') := by
  have R := sqrt3Update_result hv hsel hmax h
  rcases (mem_sq3 R.centres).1 ((R.mem_tris hv).1 hd) with ⟨ht, h0⟩ | ⟨⟨a, b⟩, v, he, hde⟩
  · left
    refine ⟨ht, fun hs => ?_⟩
    have := (centreOf_isSome hv (sel := f.cells) ht (e := (d.1, d.2.1)) (by simp [Tri.darts])).2 hs
    rw [h0] at this
    simp at this
  · right
    obtain ⟨c, hT, hp⟩ := selected_centre hv hsel hmax h he
    unfold sq3Piece at hde
    rcases he' : inp.centreOf f.cells (Edge.sym (a, b)) with _ | v'
    · rw [he'] at hde
      exact Or.inl ⟨a, b, c, v, hT, hde, hp⟩
    · rw [he'] at hde
      obtain ⟨c', hT', hp'⟩ := selected_centre hv hsel hmax h he'
      exact Or.inr ⟨a, b, c, c', v, v', hT, hT', hde, hp, hp'⟩

/-- the bounds for a triangle that has been made by `i` flips, `j` splits into thirds after the last of them -/
def Graded (L : ℝ) (i j : Nat) (p q r : E) : Prop :=
  Sides ((2 / 3) ^ i * L) p q r ∧ triArea p q r * 3 ^ j ≤ ((2 / 3) ^ i * L) ^ 2 / 2

theorem Graded.rot {L : ℝ} {i j : Nat} {p q r : E} (h : Graded L i j p q r) : Graded L i j q r p :=
  ⟨h.1.rot, by rw [triArea_rotate]; exact h.2⟩

theorem Graded.of_sides {L : ℝ} {i : Nat} {p q r : E} (h : Sides ((2 / 3) ^ i * L) p q r) : Graded L i 0 p q r :=
  ⟨h, by rw [pow_zero, mul_one]; exact triArea_le_sides h⟩

theorem Graded.fan {L : ℝ} {i j : Nat} {p q r : E} (h : Graded L i j p q r) : Graded L i (j + 1) p q (mean3 p q r) := by
  refine ⟨sides_fan h.1, ?_⟩
  rw [area_mean3, pow_succ]
  linarith [h.2]

theorem Sides.mono {l l' : ℝ} {p q r : E} (h : Sides l p q r) (hl : l ≤ l') : Sides l' p q r :=
  ⟨h.1.trans hl, h.2.1.trans hl, h.2.2.trans hl⟩

theorem two_thirds_pow_anti {L : ℝ} (hL : 0 ≤ L) {i i' : Nat} (h : i ≤ i') : (2 / 3 : ℝ) ^ i' * L ≤ (2 / 3) ^ i * L :=
  mul_le_mul_of_nonneg_right (pow_le_pow_of_le_one (by norm_num) (by norm_num) h) hL

theorem Graded.flip {L : ℝ} (hL : 0 ≤ L) {i j i' j' : Nat} {p q r s : E} (h : Graded L i j p q r) (h' : Graded L i' j' q p s) :
    Graded L (min i i' + 1) 0 (mean3 p q r) (mean3 q p s) q := by
  refine Graded.of_sides ?_
  have := sides_flip (h.1.mono (two_thirds_pow_anti hL (Nat.min_le_left i i')))
    (h'.1.mono (two_thirds_pow_anti hL (Nat.min_le_right i i')))
  rw [pow_succ, mul_comm ((2 / 3 : ℝ) ^ min i i'), mul_assoc]
  exact this

/-- a triangle that is too large cannot be graded much -/
theorem Graded.small {L A : ℝ} (hA : 0 < A) {M N : Nat} (hN : L ^ 2 ≤ 2 * 3 ^ N * A)
    (hM : (4 / 9) ^ M * L ^ 2 ≤ 2 * A) {i j : Nat} {p q r : E} (h : Graded L i j p q r) (hp : A < triArea p q r) : i < M ∧ j < N := by
  obtain ⟨-, h⟩ := h
  have h3 : (1 : ℝ) ≤ 3 ^ j := one_le_pow₀ (by norm_num)
  have e : ((2 / 3 : ℝ) ^ i * L) ^ 2 = (4 / 9) ^ i * L ^ 2 := by
    rw [mul_pow, ← pow_mul, mul_comm i 2, pow_mul]; norm_num
  rw [e] at h
  have hL2 : 0 ≤ L ^ 2 := sq_nonneg L
  have h1 : A * 3 ^ j < triArea p q r * 3 ^ j := mul_lt_mul_of_pos_right hp (by positivity)
  constructor
  · by_contra hi
    have : (4 / 9 : ℝ) ^ i ≤ (4 / 9) ^ M := pow_le_pow_of_le_one (by norm_num) (by norm_num) (not_lt.1 hi)
    have := mul_le_mul_of_nonneg_right this hL2
    nlinarith
  · by_contra hj
    have k1 : (4 / 9 : ℝ) ^ i ≤ 1 := pow_le_one₀ (by norm_num) (by norm_num)
    have k2 : (3 : ℝ) ^ N ≤ 3 ^ j := pow_le_pow_right₀ (by norm_num) (not_lt.1 hj)
    have k3 := mul_le_mul_of_nonneg_right k1 hL2
    have k4 := mul_le_mul_of_nonneg_left k2 hA.le
    nlinarith

/-- the corners of a triangle as `HasTri` names them -/
theorem hasTri_graded {T : List Tri} {L : ℝ} {g : PId → E} {Q : Nat → Nat → Prop} (h : ∀ t ∈ T, ∃ i j, Q i j ∧ Graded L i j (g t.1) (g t.2.1) (g t.2.2))
    {a b c : PId} (hT : HasTri T a b c) : ∃ i j, Q i j ∧ Graded L i j (g a) (g b) (g c) := by
  rcases hT with hT | hT | hT
  · exact h _ hT
  · obtain ⟨i, j, h1, h2⟩ := h _ hT
    exact ⟨i, j, h1, h2.rot.rot⟩
  · obtain ⟨i, j, h1, h2⟩ := h _ hT
    exact ⟨i, j, h1, h2.rot⟩

/-- one iteration: each triangle that is too large is graded once more -/
theorem sqrt3_area_iteration (hv : inp.Valid) (hsel : inp.SelOK f.cells)
    (hmax : inp.points.length + (inp.selected f.cells).length ≤ idMax) (h : cellUpdate .sqrt3 lib cosn f inp = (.ok out, f'))
    {A L : ℝ} (hL : 0 ≤ L) {N k : Nat} (hbig : ∀ t ∈ inp.tris, t ∉ inp.selected f.cells → inp.areaOf t ≤ A)
    (hg : ∀ t ∈ inp.selected f.cells, ∃ i j, (k ≤ i * N + j ∧ j < N) ∧ Graded L i j (inp.place t.1) (inp.place t.2.1) (inp.place t.2.2)) :
    ∀ d ∈ out.tris, A < out.areaOf d → ∃ i j, k + 1 ≤ i * N + j ∧ Graded L i j (out.place d.1) (out.place d.2.1) (out.place d.2.2) := by
  intro d hd hA
  have hkept : ∀ {w}, w < inp.points.length → out.place w = inp.place w := fun hw =>
    place_of_pos (C06_original_points_kept (by decide) hv.points_dense h _ _ (hv.pos_place hw))
  have hlt : ∀ {a b c : PId}, HasTri (inp.selected f.cells) a b c → a < inp.points.length := by
    rintro a b c (hT | hT | hT)
    · exact hv.verts_lt (hv.selected_subset _ _ hT) (by simp [Tri.verts])
    · exact hv.verts_lt (hv.selected_subset _ _ hT) (by simp [Tri.verts])
    · exact hv.verts_lt (hv.selected_subset _ _ hT) (by simp [Tri.verts])
  rcases sqrt3_pieces hv hsel hmax h hd with ⟨h1, h2⟩ | ⟨a, b, c, v, hT, rfl, hp⟩ | ⟨a, b, c, c', v, v', hT, hT', rfl, hp, hp'⟩
  · exfalso
    have hw : ∀ w ∈ d.verts, out.place w = inp.place w := fun w hw => hkept (hv.verts_lt h1 hw)
    have : out.areaOf d = inp.areaOf d := by
      unfold Mesh.areaOf
      rw [hw d.1 (by simp [Tri.verts]), hw d.2.1 (by simp [Tri.verts]), hw d.2.2 (by simp [Tri.verts])]
    linarith [hbig d h1 h2]
  · obtain ⟨i, j, ⟨h1, -⟩, h2⟩ := hasTri_graded hg hT
    refine ⟨i, j + 1, by omega, ?_⟩
    dsimp only
    rw [hkept (hlt hT), hkept (hlt hT.rot), hp]
    exact h2.fan
  · obtain ⟨i, j, ⟨h1, h1'⟩, h2⟩ := hasTri_graded hg hT
    obtain ⟨i', j', ⟨h3, h3'⟩, h4⟩ := hasTri_graded hg hT'
    refine ⟨min i i' + 1, 0, ?_, ?_⟩
    · rcases Nat.le_total i i' with hi | hi
      · rw [Nat.min_eq_left hi, Nat.add_mul]; omega
      · rw [Nat.min_eq_right hi, Nat.add_mul]; omega
    · dsimp only
      rw [hkept (hlt hT'), hp, hp']
      exact h2.flip hL h4

end Verif
