import Verif.Spec.Regular
import Mathlib.Tactic.Abel
import Mathlib.Tactic.Module
import Mathlib.Tactic.FieldSimp
import Mathlib.Tactic.Ring
/-
Identities of the stencils on polynomials.
-/
namespace Verif
set_option linter.unusedSectionVars false
set_option linter.unusedSimpArgs false
variable {K P : Type} [Field K] [CharZero K] [AddCommGroup P] [Module K P]

theorem polyMap3_eq (c : Nat → Nat → P) (x : K × K) : polyMap 3 c x = c 0 0 + x.2 • c 0 1 + (x.2 ^ 2) • c 0 2 + (x.2 ^ 3) • c 0 3 +
    x.1 • c 1 0 + (x.1 * x.2) • c 1 1 + (x.1 * x.2 ^ 2) • c 1 2 + (x.1 ^ 2) • c 2 0 + (x.1 ^ 2 * x.2) • c 2 1 + (x.1 ^ 3) • c 3 0 := by
  simp [polyMap, Finset.sum_range_succ]
  abel

theorem polyMap2_eq (c : Nat → Nat → P) (x : K × K) : polyMap 2 c x = c 0 0 + x.2 • c 0 1 + (x.2 ^ 2) • c 0 2 +
    x.1 • c 1 0 + (x.1 * x.2) • c 1 1 + (x.1 ^ 2) • c 2 0 := by
  simp [polyMap, Finset.sum_range_succ]
  abel

theorem butterfly_cubic (φ : Nat → Nat → P) (a b c : K × K) :
    (1 / 2 : K) • (polyMap 3 φ a + polyMap 3 φ b) + (1 / 8 : K) • (polyMap 3 φ c + polyMap 3 φ (a + b - c)) -
      (1 / 16 : K) • (polyMap 3 φ (c + b - a) + polyMap 3 φ (a + c - b) + polyMap 3 φ (a + a - c) + polyMap 3 φ (b + b - c)) =
    polyMap 3 φ ((1 / 2 : K) • (a + b)) := by
  obtain ⟨a1, a2⟩ := a
  obtain ⟨b1, b2⟩ := b
  obtain ⟨c1, c2⟩ := c
  simp only [polyMap3_eq, Prod.mk_add_mk, Prod.mk_sub_mk, Prod.smul_mk, smul_eq_mul]
  module

theorem loop_edge_quad (φ : Nat → Nat → P) (a b c : K × K) :
    (3 / 8 : K) • polyMap 2 φ a + (3 / 8 : K) • polyMap 2 φ b + (1 / 8 : K) • polyMap 2 φ c + (1 / 8 : K) • polyMap 2 φ (a + b - c) =
    polyMap 2 φ ((1 / 2 : K) • (a + b)) + sideQuad φ a b c := by
  obtain ⟨a1, a2⟩ := a
  obtain ⟨b1, b2⟩ := b
  obtain ⟨c1, c2⟩ := c
  simp only [polyMap2_eq, sideQuad, quadPart, Prod.mk_add_mk, Prod.mk_sub_mk, Prod.smul_mk, smul_eq_mul]
  module

theorem loop_point_quad (φ : Nat → Nat → P) (v x y : K × K) :
    (5 / 8 : K) • polyMap 2 φ v + (1 / 16 : K) • (polyMap 2 φ x + polyMap 2 φ y + polyMap 2 φ (v + y - x) +
      polyMap 2 φ (v + v - x) + polyMap 2 φ (v + v - y) + polyMap 2 φ (v + x - y)) =
    polyMap 2 φ v + sideQuad φ v x y := by
  obtain ⟨v1, v2⟩ := v
  obtain ⟨x1, x2⟩ := x
  obtain ⟨y1, y2⟩ := y
  simp only [polyMap2_eq, sideQuad, quadPart, Prod.mk_add_mk, Prod.mk_sub_mk, Prod.smul_mk, smul_eq_mul]
  module

/-- two triangles that form a parallelogram have the same sides -/
theorem sideQuad_eq (φ : Nat → Nat → P) {x y z w : K × K} (h : z + w = x + y) : sideQuad φ x y z = sideQuad φ y x w := by
  have : w = x + y - z := by rw [← h]; abel
  subst this
  obtain ⟨v1, v2⟩ := x
  obtain ⟨x1, x2⟩ := y
  obtain ⟨y1, y2⟩ := z
  simp only [sideQuad, quadPart, Prod.mk_add_mk, Prod.mk_sub_mk]
  module

end Verif
