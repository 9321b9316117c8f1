import Verif.Spec.Similar
import Mathlib.Data.List.Cycle
/-
The regular grid on a triangle.
-/
namespace Verif
variable {P : Type}

/-- a triangle in space, whichever corner is listed first -/
def turned (t : P × P × P) : Cycle P := ([t.1, t.2.1, t.2.2] : List P)

variable (K : Type) [Field K] [AddCommGroup P] [Module K P]

/-- the point of the triangle `t` that is `i` steps towards the second and `j` steps towards the third corner, `N` steps to a
side -/
def gridPoint (N : Nat) (t : P × P × P) (i j : Nat) : P :=
  t.1 + ((i : K) / N) • (t.2.1 - t.1) + ((j : K) / N) • (t.2.2 - t.1)

/-- the cells of the grid: `true` stands for those that lie like `t`, `false` for those turned by half a turn -/
def gridCells (N : Nat) : List (Bool × Nat × Nat) :=
  ([true, false] ×ˢ (List.range N ×ˢ List.range N)).filter fun c =>
    if c.1 then decide (c.2.1 + c.2.2 < N) else decide (c.2.1 + c.2.2 + 1 < N)

/-- the place of a cell -/
def gridTri (N : Nat) (t : P × P × P) (c : Bool × Nat × Nat) : P × P × P :=
  if c.1 then (gridPoint K N t c.2.1 c.2.2, gridPoint K N t (c.2.1 + 1) c.2.2, gridPoint K N t c.2.1 (c.2.2 + 1))
  else (gridPoint K N t (c.2.1 + 1) c.2.2, gridPoint K N t (c.2.1 + 1) (c.2.2 + 1), gridPoint K N t c.2.1 (c.2.2 + 1))

/-- the regular grid on `t` with `N` cells to a side -/
def gridOn (N : Nat) (t : P × P × P) : List (P × P × P) := (gridCells N).map (gridTri K N t)

end Verif
