import Verif.Proofs.Similar
import Verif.Spec.Grid
import Mathlib.Data.List.ProdSigma
import Mathlib.Tactic.Module
import Mathlib.Tactic.FieldSimp
/-
Cutting all triangles at the midpoints of their sides, n times over, makes regular grids.
-/
namespace Verif
set_option linter.unnecessarySeqFocus false
variable {K P : Type} [Field K] [AddCommGroup P] [Module K P]

theorem quarters_succ (n : Nat) (T : List (P × P × P)) : quarters K (n + 1) T = (quarters K n T).flatMap (quarter K) := by
  induction n generalizing T with
  | zero => rfl
  | succ n ih =>
    show quarters K (n + 1) (T.flatMap (quarter K)) = _
    rw [ih]
    rfl

/-- the four cells that a cell is cut into, in the order of `quarter` -/
def cellParts (c : Bool × Nat × Nat) : List (Bool × Nat × Nat) :=
  if c.1 then [(true, 2 * c.2.1, 2 * c.2.2), (true, 2 * c.2.1 + 1, 2 * c.2.2), (true, 2 * c.2.1, 2 * c.2.2 + 1),
    (false, 2 * c.2.1, 2 * c.2.2)]
  else [(false, 2 * c.2.1 + 1, 2 * c.2.2), (false, 2 * c.2.1 + 1, 2 * c.2.2 + 1), (false, 2 * c.2.1, 2 * c.2.2 + 1),
    (true, 2 * c.2.1 + 1, 2 * c.2.2 + 1)]

theorem mem_gridCells {N : Nat} {u : Bool} {i j : Nat} :
    (u, i, j) ∈ gridCells N ↔ (u = true ∧ i + j < N) ∨ (u = false ∧ i + j + 1 < N) := by
  unfold gridCells
  cases u <;> simp [List.mem_filter] <;> omega

theorem gridCells_nodup (N : Nat) : (gridCells N).Nodup :=
  List.Nodup.filter _ ((by decide : [true, false].Nodup).product (List.nodup_range.product List.nodup_range))

/-- the cell of the coarser grid that a cell lies in -/
def cellOf (c : Bool × Nat × Nat) : Bool × Nat × Nat :=
  if c.1 then (if c.2.1 % 2 = 1 ∧ c.2.2 % 2 = 1 then (false, c.2.1 / 2, c.2.2 / 2) else (true, c.2.1 / 2, c.2.2 / 2))
  else (if c.2.1 % 2 = 0 ∧ c.2.2 % 2 = 0 then (true, c.2.1 / 2, c.2.2 / 2) else (false, c.2.1 / 2, c.2.2 / 2))

theorem mem_cellParts {c d : Bool × Nat × Nat} : d ∈ cellParts c ↔ c = cellOf d := by
  obtain ⟨u, i, j⟩ := c
  obtain ⟨w, k, l⟩ := d
  unfold cellParts cellOf
  cases u <;> cases w <;> simp only [Bool.false_eq_true, if_false, if_true] <;> split <;> simp <;> omega

theorem cellParts_nodup (c : Bool × Nat × Nat) : (cellParts c).Nodup := by
  obtain ⟨u, i, j⟩ := c
  unfold cellParts
  cases u <;> simp

theorem gridCells_double (N : Nat) : (gridCells (2 * N)).Perm ((gridCells N).flatMap cellParts) := by
  refine (List.perm_ext_iff_of_nodup (gridCells_nodup _) ?_).2 ?_
  · rw [List.nodup_flatMap]
    refine ⟨fun c _ => cellParts_nodup c, (gridCells_nodup N).imp fun {c c'} hne => ?_⟩
    intro d hd hd'
    exact hne ((mem_cellParts.1 hd).trans (mem_cellParts.1 hd').symm)
  · rintro ⟨u, i, j⟩
    simp only [List.mem_flatMap, mem_cellParts, exists_eq_right]
    rw [mem_gridCells]
    unfold cellOf
    cases u <;> simp only [Bool.false_eq_true, if_false, if_true] <;> split <;> rw [mem_gridCells] <;> simp <;> omega

omit [AddCommGroup P] in
theorem turned_rot (a b c : P) : turned (a, b, c) = turned (b, c, a) := by
  unfold turned
  rw [Cycle.coe_eq_coe]
  exact ⟨1, rfl⟩

theorem gridTri_parts [CharZero K] {N : Nat} (hN : N ≠ 0) (t : P × P × P) (c : Bool × Nat × Nat) :
    ((cellParts c).map (gridTri K (2 * N) t)).map turned = (quarter K (gridTri K N t c)).map turned := by
  obtain ⟨u, i, j⟩ := c
  have hN' : (N : K) ≠ 0 := Nat.cast_ne_zero.2 hN
  have g0 : ∀ i j : Nat, gridPoint K (2 * N) t (2 * i) (2 * j) = gridPoint K N t i j := by
    intro i j
    unfold gridPoint
    push_cast
    rw [mul_div_mul_left _ _ two_ne_zero, mul_div_mul_left _ _ two_ne_zero]
  have hb : ∀ i j k l : Nat, ∀ {x y : Nat}, 2 * x = 2 * i + 2 * k → 2 * y = 2 * j + 2 * l →
      gridPoint K (2 * N) t x y = between K (gridPoint K N t i j) (gridPoint K N t k l) := by
    intro i j k l x y hx hy
    unfold gridPoint between
    have ex : (x : K) = i + k := by exact_mod_cast (show x = i + k by omega)
    have ey : (y : K) = j + l := by exact_mod_cast (show y = j + l by omega)
    push_cast
    rw [ex, ey]
    match_scalars <;> field_simp <;> ring
  have g1 : ∀ i j : Nat, ∀ {x y : Nat}, x = 2 * i → y = 2 * j → gridPoint K (2 * N) t x y = gridPoint K N t i j := by
    rintro i j x y rfl rfl
    exact g0 i j
  cases u
  · simp only [cellParts, gridTri, quarter, Bool.false_eq_true, if_false, if_true, List.map_cons, List.map_nil]
    rw [g1 (i + 1) j (x := 2 * i + 1 + 1) (by omega) rfl, g1 (i + 1) (j + 1) (x := 2 * i + 1 + 1) (y := 2 * j + 1 + 1) (by omega) (by omega),
      g1 i (j + 1) (y := 2 * j + 1 + 1) rfl (by omega),
      hb (i + 1) j (i + 1) (j + 1) (x := 2 * i + 1 + 1) (y := 2 * j + 1) (by omega) (by omega),
      hb (i + 1) (j + 1) i (j + 1) (x := 2 * i + 1) (y := 2 * j + 1 + 1) (by omega) (by omega),
      hb i (j + 1) (i + 1) j (x := 2 * i + 1) (y := 2 * j + 1) (by omega) (by omega)]
    congr 1
    congr 1
    congr 1
    · rw [turned_rot]
    · rw [turned_rot]
  · simp only [cellParts, gridTri, quarter, Bool.false_eq_true, if_false, if_true, List.map_cons, List.map_nil]
    rw [g1 i j (x := 2 * i) rfl rfl, g1 (i + 1) j (x := 2 * i + 1 + 1) (by omega) rfl,
      g1 i (j + 1) (y := 2 * j + 1 + 1) rfl (by omega),
      hb i j (i + 1) j (x := 2 * i + 1) (y := 2 * j) (by omega) (by omega),
      hb (i + 1) j i (j + 1) (x := 2 * i + 1) (y := 2 * j + 1) (by omega) (by omega),
      hb i (j + 1) i j (x := 2 * i) (y := 2 * j + 1) (by omega) (by omega)]
    congr 1
    congr 1
    congr 1
    rw [turned_rot]

open Classical in
/-- some way to list the corners -/
noncomputable def listed (c : Cycle P) : P × P × P := if h : ∃ t, turned t = c then h.choose else 0

theorem turned_listed (x : P × P × P) : turned (listed (turned x)) = turned x := by
  have h : ∃ t, turned t = turned x := ⟨x, rfl⟩
  unfold listed
  rw [dif_pos h]
  exact h.choose_spec

omit [AddCommGroup P] in
theorem turned_cases {a b c : P} {y : P × P × P} (h : turned (a, b, c) = turned y) :
    y = (a, b, c) ∨ y = (b, c, a) ∨ y = (c, a, b) := by
  obtain ⟨p, q, r⟩ := y
  unfold turned at h
  rw [Cycle.coe_eq_coe, List.isRotated_iff_mem_map_range] at h
  simp [List.range_succ] at h
  rcases h with h | h | h | h <;> simp_all

theorem quarter_turned {x y : P × P × P} (h : turned x = turned y) :
    ((quarter K x).map turned).Perm ((quarter K y).map turned) := by
  have rot : ∀ a b c : P, ((quarter K (a, b, c)).map turned).Perm ((quarter K (b, c, a)).map turned) := by
    intro a b c
    simp only [quarter, List.map_cons, List.map_nil]
    have e1 : turned (a, between K a b, between K c a) = turned (between K c a, a, between K a b) := (turned_rot _ _ _).symm
    have e2 : turned (between K a b, b, between K b c) = turned (b, between K b c, between K a b) := turned_rot _ _ _
    have e3 : turned (between K b c, c, between K c a) = turned (between K b c, c, between K c a) := rfl
    have e4 : turned (between K a b, between K b c, between K c a) = turned (between K b c, between K c a, between K a b) :=
      turned_rot _ _ _
    rw [e1, e2, e4]
    refine (List.Perm.swap _ _ _).trans (List.Perm.cons _ ?_)
    exact List.Perm.swap _ _ _
  obtain ⟨a, b, c⟩ := x
  rcases turned_cases h with rfl | rfl | rfl
  · exact List.Perm.refl _
  · exact rot a b c
  · exact (rot a b c).trans (rot b c a)

theorem quarters_grid [CharZero K] (n : Nat) (T : List (P × P × P)) :
    ((quarters K n T).map turned).Perm ((T.flatMap (gridOn K (2 ^ n))).map turned) := by
  induction n with
  | zero =>
    have h1 : ∀ t : P × P × P, gridOn K (2 ^ 0) t = [t] := by
      intro t
      show [gridTri K 1 t (true, 0, 0)] = [t]
      simp [gridTri, gridPoint]
    have h2 : T.flatMap (gridOn K (2 ^ 0)) = T := by
      rw [List.flatMap_congr fun t _ => h1 t]
      exact List.flatMap_singleton' T
    rw [h2]
    exact List.Perm.refl _
  | succ n ih =>
    have hq : ∀ {A B : List (P × P × P)}, (A.map turned).Perm (B.map turned) →
        ((A.flatMap (quarter K)).map turned).Perm ((B.flatMap (quarter K)).map turned) := by
      intro A B hAB
      have key : ∀ C : List (P × P × P), ((C.flatMap (quarter K)).map turned).Perm
          ((C.map turned).flatMap fun c => (quarter K (listed c)).map turned) := by
        intro C
        rw [List.map_flatMap, List.flatMap_map]
        exact List.Perm.flatMap_left _ fun x _ => (quarter_turned (turned_listed x)).symm
      exact (key A).trans ((hAB.flatMap_right _).trans (key B).symm)
    rw [quarters_succ]
    refine (hq ih).trans ?_
    rw [List.flatMap_assoc, List.map_flatMap, List.map_flatMap]
    refine List.Perm.flatMap_left _ fun t _ => ?_
    unfold gridOn
    rw [List.flatMap_map, List.map_flatMap, List.map_map]
    have h2 := ((gridCells_double (2 ^ n)).map (turned ∘ gridTri K (2 * 2 ^ n) t)).symm
    rw [List.map_flatMap] at h2
    rw [pow_succ', ]
    refine List.Perm.trans ?_ h2
    refine List.Perm.of_eq (List.flatMap_congr fun c _ => ?_)
    rw [← gridTri_parts (pow_ne_zero n two_ne_zero), List.map_map]

end Verif
