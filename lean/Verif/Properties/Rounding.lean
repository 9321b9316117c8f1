import Verif.Proofs.RoundingLevels
import Verif.Properties.Superpose
import Verif.Properties.Edge
import Verif.Properties.Affine
import Verif.Properties.Shape
import Verif.Properties.Points
import Mathlib.Analysis.Normed.Group.Constructions
import Mathlib.Data.Int.Log
import Mathlib.Algebra.Order.Round
import Mathlib.Tactic.FinCases
/-
C66: a run in rounded arithmetic stays close to the run in exact arithmetic.
-/
namespace Verif
set_option linter.unusedSectionVars false
variable {P V D : Type} [Zero P] [Add P] [SMul ℝ P] [NormedAddCommGroup V] [NormedSpace ℝ V]
variable {ε η B M : ℝ} {val : P → V} {d : Nat} {lib : QELib} {cosn : Nat → ℝ} {inp out : Mesh P D} {f f' : Filt}

/-- the mesh with the machine positions and their exact values -/
def Mesh.both (m : Mesh P D) (val : P → V) : Mesh (P × V) D := m.mapPoints fun p => (p, val p)

theorem both_fst (m : Mesh P D) (val : P → V) : (m.both val).mapPoints Prod.fst = m := by
  unfold Mesh.both Mesh.mapPoints
  simp [List.map_map, Function.comp_def]

theorem both_snd (m : Mesh P D) (val : P → V) : (m.both val).mapPoints Prod.snd = m.mapPoints val := by
  unfold Mesh.both Mesh.mapPoints
  simp [List.map_map, Function.comp_def]

theorem posHom_one : PosHom ℝ (Prod.fst : P × V → P) := ⟨rfl, fun _ _ => rfl, fun _ _ => rfl⟩
theorem posHom_two : PosHom ℝ (Prod.snd : P × V → V) := ⟨rfl, fun _ _ => rfl, fun _ _ => rfl⟩

theorem both_shape (o : Mesh (P × V) D) : (o.mapPoints Prod.snd).shape = (o.mapPoints Prod.fst).shape := by
  unfold Mesh.shape Mesh.mapPoints
  simp [List.map_map, Function.comp_def]

theorem both_pos {o : Mesh (P × V) D} {v : PId} {p : P} {q : V} (hp : (o.mapPoints Prod.fst).pos v = some p)
    (hq : (o.mapPoints Prod.snd).pos v = some q) : o.pos v = some (p, q) := by
  unfold Mesh.pos Mesh.mapPoints at *
  simp only [AMap.find?_map, Option.map_eq_some_iff] at *
  obtain ⟨x, hx, rfl⟩ := hp
  obtain ⟨y, hy, rfl⟩ := hq
  rw [hx] at hy
  obtain rfl := Option.some.inj hy
  exact hx

theorem both_start (hη : 0 ≤ η) {sch : Scheme} (hb : ∀ v p, inp.pos v = some p → ‖val p‖ ≤ M) :
    ∀ v x, (inp.both val).pos v = some x →
      Fits ε val (0 * sch.roundings d) (sch.sizeAfter M 0) (sch.tinyAfter η 0) x := by
  intro v x hx
  have hx' : (inp.points.find? v).map (fun p => (p, val p)) = some x := by rw [← AMap.find?_map]; exact hx
  obtain ⟨p, hp, rfl⟩ := Option.map_eq_some_iff.1 hx'
  refine ⟨sch.tinyAfter_nonneg hη 0, ?_, ?_⟩
  · simpa [Scheme.sizeAfter] using hb v p hp
  · simp [Scheme.tinyAfter]

/-- C66 for the cell filters.  The run in machine arithmetic (on `inp`) and the run in exact arithmetic (on the same mesh, with
the exact values of the positions) give the same mesh up to positions, and no position differs by more than the bound of one
level.  For Loop: the boundary does not touch itself, at most `d` triangles meet at a point, and `|cosn| ≤ 1`. -/
theorem C66_cell {sch : Scheme} (hR : Rounded ε η B val) (hc : sch = .loop → ∀ n, -1 ≤ cosn n ∧ cosn n ≤ 1) (hM : 0 ≤ M)
    (hn : sch.Needs inp) (hsel : inp.SelOK f.cells)
    (hmax : sch = .sqrt3 → inp.points.length + (inp.selected f.cells).length ≤ idMax)
    (hsb : sch = .loop → inp.SimpleBoundary) (hd : sch = .loop → ∀ v, v < inp.points.length → inp.valence v ≤ d)
    (hb : ∀ v p, inp.pos v = some p → ‖val p‖ ≤ M) (hB : sch.InRange d ε η B M 1)
    (h : cellUpdate sch lib cosn f inp = (.ok out, f')) :
    ∃ outE, (cellUpdate sch lib cosn f (inp.mapPoints val)).1 = .ok outE ∧ outE.shape = out.shape ∧
      ∀ v p q, out.pos v = some p → outE.pos v = some q → ‖val p - q‖ ≤ sch.errorBound d ε η M 1 := by
  have h1 := (C64_positions_cell (posHom_one (P := P) (V := V)) sch lib cosn f (inp.both val)).1
  have h2 := (C64_positions_cell (posHom_two (P := P) (V := V)) sch lib cosn f (inp.both val)).1
  rw [both_fst, h] at h1
  rw [both_snd] at h2
  rcases hr : cellUpdate sch lib cosn f (inp.both val) with ⟨e | o, g⟩
  · rw [hr] at h1; cases h1
  · rw [hr] at h1 h2
    obtain rfl := Except.ok.inj h1
    refine ⟨_, h2, both_shape o, fun v p q hp hq => ?_⟩
    have hlen : (inp.both val).points.length = inp.points.length := mapPoints_length
    have := (hR.stable_level hc hM 0 hB).cell (inp := inp.both val) (f := f) hn.mapPoints hsel (by rw [hlen]; exact hmax) hsb
      (by rw [hlen]; exact hd) hr (both_start hR.eta hb) v _ (both_pos hp hq)
    exact this.near

/-- C66 for the edge filters, which do not move the points of the input. -/
theorem C66_edge {sch : EdgeScheme} (hR : Rounded ε η B val) (hc : sch.toScheme = .loop → ∀ n, -1 ≤ cosn n ∧ cosn n ≤ 1)
    (hM : 0 ≤ M) (hn : sch.toScheme.Needs inp) (hsel : inp.EdgeSelOK f.edgeSel)
    (hb : ∀ v p, inp.pos v = some p → ‖val p‖ ≤ M) (hB : sch.toScheme.InRange 0 ε η B M 1)
    (h : edgeUpdate sch lib cosn f inp = (.ok out, f')) :
    ∃ outE, (edgeUpdate sch lib cosn f (inp.mapPoints val)).1 = .ok outE ∧ outE.shape = out.shape ∧
      ∀ v p q, out.pos v = some p → outE.pos v = some q → ‖val p - q‖ ≤ sch.toScheme.errorBound 0 ε η M 1 := by
  have h1 := C64_positions_edge (posHom_one (P := P) (V := V)) sch lib cosn f (inp.both val)
  have h2 := C64_positions_edge (posHom_two (P := P) (V := V)) sch lib cosn f (inp.both val)
  rw [both_fst, h] at h1
  rw [both_snd] at h2
  rcases hr : edgeUpdate sch lib cosn f (inp.both val) with ⟨e | o, g⟩
  · rw [hr] at h1; cases h1
  · rw [hr] at h1 h2
    obtain rfl := Except.ok.inj h1
    refine ⟨_, h2, both_shape o, fun v p q hp hq => ?_⟩
    have := (hR.stable_level hc hM 0 hB).edge (inp := inp.both val) (f := f) hn.mapPoints hsel hr (both_start hR.eta hb) v _
      (both_pos hp hq)
    exact this.near

/-- C66 for any number of levels. -/
theorem C66_iterative {sch : Scheme} {f : Iter} (hR : Rounded ε η B val) (hc : sch = .loop → ∀ n, -1 ≤ cosn n ∧ cosn n ≤ 1)
    (hM : 0 ≤ M) (hl : sch = .loop ∨ sch = .butterfly → lib.Lawful) (hn : sch.Needs inp) (hsel : inp.SelOK f.cells)
    (hid : sch.IdsLeft (max 1 f.levels) inp f.cells) (hsb : sch = .loop → inp.SimpleBoundary)
    (hd : sch = .loop → inp.RoomFor f.cells (max 1 f.levels) d)
    (hb : ∀ v p, inp.pos v = some p → ‖val p‖ ≤ M) (hB : sch.InRange d ε η B M (max 1 f.levels))
    (h : (iterUpdate sch lib cosn f inp).1 = .ok out) :
    ∃ outE, (iterUpdate sch lib cosn f (inp.mapPoints val)).1 = .ok outE ∧ outE.shape = out.shape ∧
      ∀ v p q, out.pos v = some p → outE.pos v = some q → ‖val p - q‖ ≤ sch.errorBound d ε η M (max 1 f.levels) := by
  have h1 := C64_positions_iterative (posHom_one (P := P) (V := V)) sch lib cosn f (inp.both val)
  have h2 := C64_positions_iterative (posHom_two (P := P) (V := V)) sch lib cosn f (inp.both val)
  rw [both_fst, h] at h1
  rw [both_snd] at h2
  rcases hr : (iterUpdate sch lib cosn f (inp.both val)).1 with e | o
  · rw [hr] at h1; cases h1
  · rw [hr] at h1 h2
    obtain rfl := Except.ok.inj h1
    refine ⟨_, h2, both_shape o, fun v p q hp hq => ?_⟩
    have hlen : (inp.both val).points.length = inp.points.length := mapPoints_length
    rw [iterUpdate_eq] at hr
    rw [levelsOf_eq] at *
    rcases hm : manyLevels sch lib cosn (levelsOf f.levels) (inp.both val, f.cells) with e | ⟨o', s⟩
    · rw [hm] at hr; cases hr
    · rw [hm] at hr
      obtain rfl : o' = o := Except.ok.inj hr
      have := hR.manyLevels_fits (d := d) (M := M) hc hM hl (levelsOf f.levels) 0 (m := inp.both val) hn.mapPoints hsel
        (by unfold Scheme.IdsLeft at *; rw [hlen]; exact hid) hsb
        (by unfold Mesh.RoomFor at *; rw [hlen]; exact hd) hm (by rw [Nat.zero_add]; exact hB) (both_start hR.eta hb) v _
        (both_pos hp hq)
      rw [Nat.zero_add] at this
      exact this.near

section floating

/-- numbers of a machine that rounds with `fl` after every operation -/
structure Mach (fl : ℝ → ℝ) where
  val : ℝ

variable {fl : ℝ → ℝ}

instance : Zero (Mach fl) := ⟨⟨0⟩⟩
noncomputable instance : Add (Mach fl) := ⟨fun x y => ⟨fl (x.val + y.val)⟩⟩
/-- the weight is rounded too -/
noncomputable instance : SMul ℝ (Mach fl) := ⟨fun k x => ⟨fl (fl k * x.val)⟩⟩

/-- The standard model of floating-point arithmetic: if `fl` has relative error at most `u ≤ 1` on numbers up to `F`, machine
numbers up to `F / 2` meet the hypothesis of C66 with `ε = 2u + u²`. -/
theorem rounded_mach {u F : ℝ} (hu : 0 ≤ u) (hu1 : u ≤ 1) (hF : 1 ≤ F) (hfl : ∀ x, |x| ≤ F → |fl x - x| ≤ u * |x|) :
    Rounded (2 * u + u ^ 2) 0 (F / 2) (Mach.val : Mach fl → ℝ) where
  eps := by positivity
  eta := le_refl _
  zero := rfl
  add x y hx hy := by
    rw [Real.norm_eq_abs] at *
    rw [Real.norm_eq_abs]
    have h1 : |x.val + y.val| ≤ F := le_trans (abs_add_le _ _) (by linarith)
    have h2 := hfl _ h1
    refine le_trans h2 (mul_le_mul_of_nonneg_right ?_ (abs_nonneg _))
    nlinarith
  smul k x hk hx := by
    rw [Real.norm_eq_abs] at *
    rw [Real.norm_eq_abs, smul_eq_mul, add_zero]
    change |fl (fl k * x.val) - k * x.val| ≤ _
    have h1 := hfl k (le_trans hk hF)
    have h2 : |fl k| ≤ (1 + u) * |k| := by
      have : fl k = (fl k - k) + k := by ring
      rw [this]
      refine le_trans (abs_add_le _ _) (by linarith)
    have h3 : |fl k * x.val| ≤ (1 + u) * |k * x.val| := by
      rw [abs_mul, abs_mul, ← mul_assoc]
      exact mul_le_mul_of_nonneg_right h2 (abs_nonneg _)
    have h4 : |k * x.val| ≤ F / 2 := by
      rw [abs_mul]
      exact le_trans (mul_le_of_le_one_left (abs_nonneg _) hk) hx
    have h5 := hfl (fl k * x.val) (by nlinarith [abs_nonneg (k * x.val)])
    have h6 : |fl k * x.val - k * x.val| ≤ u * |k * x.val| := by
      rw [← sub_mul, abs_mul, abs_mul, ← mul_assoc]
      exact mul_le_mul_of_nonneg_right h1 (abs_nonneg _)
    have h7 := abs_sub_le (fl (fl k * x.val)) (fl k * x.val) (k * x.val)
    nlinarith [mul_le_mul_of_nonneg_left h3 hu]

/-- coordinates: with the largest coordinate as the size of a vector, vectors of rounded numbers are rounded alike -/
theorem rounded_pi {ι N : Type} [Fintype ι] [Zero N] [Add N] [SMul ℝ N] {val : N → ℝ} (h : Rounded ε η B val) :
    Rounded ε η B (fun (p : ι → N) i => val (p i)) where
  eps := h.eps
  eta := h.eta
  zero := funext fun _ => h.zero
  add p q hp hq := by
    rw [pi_norm_le_iff_of_nonneg (mul_nonneg h.eps (norm_nonneg _))]
    intro i
    exact le_trans (h.add _ _ (le_trans (norm_le_pi_norm (fun i => val (p i)) i) hp)
      (le_trans (norm_le_pi_norm (fun i => val (q i)) i) hq))
      (mul_le_mul_of_nonneg_left (norm_le_pi_norm ((fun i => val (p i)) + fun i => val (q i)) i) h.eps)
  smul k p hk hp := by
    rw [pi_norm_le_iff_of_nonneg (add_nonneg (mul_nonneg h.eps (norm_nonneg _)) h.eta)]
    intro i
    refine le_trans (h.smul k _ hk (le_trans (norm_le_pi_norm (fun i => val (p i)) i) hp)) (add_le_add_left ?_ _)
    exact mul_le_mul_of_nonneg_left (norm_le_pi_norm (k • fun i => val (p i)) i) h.eps

end floating

section double

/-- `x` rounded to `p` binary digits -/
noncomputable def toDigits (p : Nat) (x : ℝ) : ℝ :=
  round (x / (2 : ℝ) ^ (Int.log 2 |x| + 1 - p)) * (2 : ℝ) ^ (Int.log 2 |x| + 1 - p)

theorem toDigits_near (p : Nat) (x : ℝ) : |toDigits p x - x| ≤ (1 / 2) ^ p * |x| := by
  by_cases hx : x = 0
  · subst hx; simp [toDigits]
  have hs : (0 : ℝ) < (2 : ℝ) ^ (Int.log 2 |x| + 1 - p) := by positivity
  have h1 : (2 : ℝ) ^ Int.log 2 |x| ≤ |x| := by
    have := Int.zpow_log_le_self (b := 2) (by norm_num) (abs_pos.2 hx)
    simpa using this
  have h2 : (2 : ℝ) ^ (Int.log 2 |x| + 1 - p) = 2 * ((1 / 2) ^ p * (2 : ℝ) ^ Int.log 2 |x|) := by
    rw [zpow_sub₀ (by norm_num), zpow_add₀ (by norm_num), zpow_one, zpow_natCast, one_div, inv_pow]
    field_simp
  unfold toDigits
  generalize hS : (2 : ℝ) ^ (Int.log 2 |x| + 1 - p) = S at *
  have h3 : round (x / S) * S - x = -((x / S - round (x / S)) * S) := by field_simp; ring
  rw [h3, abs_neg, abs_mul, abs_of_pos hs]
  have h4 := abs_sub_round (x / S)
  have h5 : (1 / 2 : ℝ) ^ p * (2 : ℝ) ^ Int.log 2 |x| ≤ (1 / 2) ^ p * |x| := mul_le_mul_of_nonneg_left h1 (by positivity)
  nlinarith

/-- numbers with 53 binary digits, as `double` has -/
abbrev Double := Mach (toDigits 53)

/-- with `ε` a little more than `2⁻⁵²` -/
theorem rounded_double {F : ℝ} (hF : 1 ≤ F) :
    Rounded (2 * (1 / 2) ^ 53 + ((1 / 2) ^ 53) ^ 2) 0 (F / 2) (Mach.val : Double → ℝ) :=
  rounded_mach (by norm_num) (by norm_num) hF fun x _ => toDigits_near 53 x

end double

section examples

/-- machine positions in space -/
abbrev M3 := Fin 3 → Double

noncomputable def m3 (x y z : ℝ) : M3 := ![⟨x⟩, ⟨y⟩, ⟨z⟩]

noncomputable def patchM : Mesh M3 Nat :=
  mk [m3 0 0 0, m3 4 0 0, m3 0 4 0, m3 2 (-4) 0, m3 4 4 1, m3 (-4) 2 0] patch (some [(0, 7), (2, 9)])

theorem patchM_ok : patchM.Valid ∧ patchM.RingOK ∧ patchM.NoIsolated ∧ patchM.tris = patch := mk_ok _ (by decide)

theorem patchM_needs (sch : Scheme) : sch.Needs patchM :=
  ⟨patchM_ok.1, fun _ => patchM_ok.2.1, fun _ => patchM_ok.2.2.1⟩

theorem patchM_simple : patchM.SimpleBoundary := by
  rintro e e' ⟨h1, h2⟩ ⟨h3, h4⟩
  rw [patchM_ok.2.2.2] at h1 h2 h3 h4
  exact patch_simple e e' h1 h2 h3 h4

/-- the exact values -/
noncomputable def m3val (p : M3) : Fin 3 → ℝ := fun i => (p i).val

theorem m3_rounded : Rounded (2 * (1 / 2) ^ 53 + ((1 / 2) ^ 53) ^ 2) 0 ((2 : ℝ) ^ 200 / 2) m3val :=
  rounded_pi (rounded_double (one_le_pow₀ (by norm_num)))

theorem patchM_size (v : PId) (p : M3) (h : patchM.pos v = some p) : ‖m3val p‖ ≤ 4 := by
  have hm : p ∈ [m3 0 0 0, m3 4 0 0, m3 0 4 0, m3 2 (-4) 0, m3 4 4 1, m3 (-4) 2 0] :=
    in_of_dense (C := {p | p ∈ [m3 0 0 0, m3 4 0 0, m3 0 4 0, m3 2 (-4) 0, m3 4 4 1, m3 (-4) 2 0]}) (out := patchM) rfl
      (fun _ h => h) v p h
  rw [pi_norm_le_iff_of_nonneg (by norm_num)]
  intro i
  simp only [List.mem_cons, List.not_mem_nil, or_false] at hm
  rcases hm with rfl | rfl | rfl | rfl | rfl | rfl <;> fin_cases i <;> norm_num [m3val, m3]

theorem patchM_valence (v : PId) : patchM.valence v ≤ 6 := by
  unfold Mesh.valence
  rw [patchM_ok.2.2.2]
  exact le_trans List.countP_le_length (by decide)

theorem powers_le (n : Nat) : (1 + (2 * (1 / 2 : ℝ) ^ 53 + ((1 / 2) ^ 53) ^ 2)) ^ n ≤ 2 ^ n :=
  pow_le_pow_left₀ (by positivity) (by norm_num) n

/-- three levels of Loop in `double` -/
example : ∃ out outE, (iterUpdate .loop someLib realCos ⟨[], 3, []⟩ patchM).1 = .ok out ∧
    (iterUpdate .loop someLib realCos ⟨[], 3, []⟩ (patchM.mapPoints m3val)).1 = .ok outE ∧ outE.shape = out.shape ∧
    ∀ v p q, out.pos v = some p → outE.pos v = some q → ‖m3val p - q‖ ≤ 1 / 10 ^ 13 := by
  obtain ⟨m, s, h1, -⟩ := manyLevels_ok (K := ℝ) (sch := .loop) realCos (fun _ => someLib_lawful) 3 (patchM_needs .loop) (selOK_nil _)
    (fun h => by cases h)
  have h : (iterUpdate .loop someLib realCos ⟨[], 3, []⟩ patchM).1 = .ok m := by
    rw [iterUpdate_eq, ← levelsOf_eq]
    exact congrArg (Except.map Prod.fst) h1
  obtain ⟨oE, h2, h3, h4⟩ := C66_iterative (sch := .loop) (f := ⟨[], 3, []⟩) (d := 6) (M := 4) m3_rounded
    (fun _ _ => ⟨Real.neg_one_le_cos _, Real.cos_le_one _⟩) (by norm_num) (fun _ => someLib_lawful) (patchM_needs _)
    (selOK_nil _) (fun h => by cases h) (fun _ => patchM_simple)
    (fun _ => .inl ⟨rfl, .inr (le_refl _), fun v _ => patchM_valence v⟩) patchM_size (by
      unfold Scheme.InRange
      refine le_trans (mul_le_mul_of_nonneg_right (powers_le _) ?_) ?_ <;>
        norm_num [Scheme.sizeAfter, Scheme.tinyAfter, Scheme.growth, Scheme.multiples, Scheme.widest, Scheme.roundings]) h
  refine ⟨m, oE, h, h2, h3, fun v p q hp hq => le_trans (h4 v p q hp hq) ?_⟩
  norm_num [Scheme.errorBound, Scheme.sizeAfter, Scheme.tinyAfter, Scheme.growth, Scheme.multiples, Scheme.roundings]

/-- two levels of Loop on a selection -/
example (out : Mesh M3 Nat) (h : (iterUpdate .loop someLib realCos ⟨[1, 3], 2, []⟩ patchM).1 = .ok out) :
    ∃ outE, (iterUpdate .loop someLib realCos ⟨[1, 3], 2, []⟩ (patchM.mapPoints m3val)).1 = .ok outE ∧ outE.shape = out.shape ∧
    ∀ v p q, out.pos v = some p → outE.pos v = some q → ‖m3val p - q‖ ≤ Scheme.loop.errorBound 12
      (2 * (1 / 2) ^ 53 + ((1 / 2) ^ 53) ^ 2) 0 4 2 :=
  C66_iterative (sch := .loop) (f := ⟨[1, 3], 2, []⟩) (d := 12) (M := 4) m3_rounded
    (fun _ _ => ⟨Real.neg_one_le_cos _, Real.cos_le_one _⟩) (by norm_num) (fun _ => someLib_lawful) (patchM_needs _)
    patchMesh_sel (fun h => by cases h) (fun _ => patchM_simple)
    (fun _ => .inr ⟨6, by decide, by decide, fun v _ => patchM_valence v⟩) patchM_size (by
      unfold Scheme.InRange
      refine le_trans (mul_le_mul_of_nonneg_right (powers_le _) ?_) ?_ <;>
        norm_num [Scheme.sizeAfter, Scheme.tinyAfter, Scheme.growth, Scheme.multiples, Scheme.widest, Scheme.roundings]) h

/-- one run of SquareThree -/
example (out : Mesh M3 Nat) (f' : Filt) (h : cellUpdate .sqrt3 someLib realCos (usedFilt []) patchM = (.ok out, f')) :
    ∃ outE, (cellUpdate .sqrt3 someLib realCos (usedFilt []) (patchM.mapPoints m3val)).1 = .ok outE ∧ outE.shape = out.shape ∧
    ∀ v p q, out.pos v = some p → outE.pos v = some q → ‖m3val p - q‖ ≤ Scheme.sqrt3.errorBound 0
      (2 * (1 / 2) ^ 53 + ((1 / 2) ^ 53) ^ 2) 0 4 1 :=
  C66_cell (sch := .sqrt3) (f := usedFilt []) m3_rounded (fun h => by cases h) (by norm_num) (patchM_needs _) (selOK_nil _)
    (fun _ => by
      have : patchM.selected [] = patch := by rw [← patchM_ok.2.2.2]; rfl
      change patchM.points.length + (patchM.selected []).length ≤ idMax
      rw [this]; exact (by decide : 6 + patch.length ≤ idMax)) (fun h => by cases h) (fun h => by cases h) patchM_size (by
      unfold Scheme.InRange
      refine le_trans (mul_le_mul_of_nonneg_right (powers_le _) ?_) ?_ <;>
        norm_num [Scheme.sizeAfter, Scheme.tinyAfter, Scheme.growth, Scheme.multiples, Scheme.widest, Scheme.roundings]) h

/-- one run of the Butterfly edge filter -/
example (out : Mesh M3 Nat) (f' : Filt)
    (h : edgeUpdate .butterfly someLib realCos (Filt.new.setEdges [some (1, 0)]) patchM = (.ok out, f')) :
    ∃ outE, (edgeUpdate .butterfly someLib realCos (Filt.new.setEdges [some (1, 0)]) (patchM.mapPoints m3val)).1 = .ok outE ∧
    outE.shape = out.shape ∧ ∀ v p q, out.pos v = some p → outE.pos v = some q → ‖m3val p - q‖ ≤ 2 / 10 ^ 14 := by
  obtain ⟨oE, h2, h3, h4⟩ := C66_edge (sch := .butterfly) (f := Filt.new.setEdges [some (1, 0)]) m3_rounded (fun h => by cases h)
    (by norm_num) (patchM_needs .butterfly) (by
      intro e he
      simp only [Filt.setEdges, List.mem_cons, Option.some.injEq, List.not_mem_nil, or_false] at he
      subst he
      exact (patchM_ok.1.edges_iff _).2 (by rw [patchM_ok.2.2.2]; decide)) patchM_size (by
      unfold Scheme.InRange
      refine le_trans (mul_le_mul_of_nonneg_right (powers_le _) ?_) ?_ <;>
        norm_num [EdgeScheme.toScheme, Scheme.sizeAfter, Scheme.tinyAfter, Scheme.growth, Scheme.multiples, Scheme.widest, Scheme.roundings]) h
  refine ⟨oE, h2, h3, fun v p q hp hq => le_trans (h4 v p q hp hq) ?_⟩
  norm_num [EdgeScheme.toScheme, Scheme.errorBound, Scheme.sizeAfter, Scheme.tinyAfter, Scheme.growth, Scheme.multiples, Scheme.roundings]

end examples
end Verif
