import Verif.Spec.Coords
import Mathlib.Algebra.Module.Defs
import Mathlib.Algebra.Field.Defs
/-
Triangles in space: splitting at the midpoints of the sides, and scaled copies.
-/
namespace Verif
variable {P D : Type}

/-- the triangles of the mesh are at the places `T`, in container order -/
def Mesh.At (m : Mesh P D) (T : List (P × P × P)) : Prop :=
  m.coordTris = T.map fun t => (some t.1, some t.2.1, some t.2.2)

variable (K : Type) [Field K] [AddCommGroup P] [Module K P]

/-- the midpoint of two places -/
def between (p q : P) : P := (1 / 2 : K) • p + (1 / 2 : K) • q

/-- a triangle cut at the midpoints of its sides: the three corners and the middle -/
def quarter (t : P × P × P) : List (P × P × P) :=
  let ab := between K t.1 t.2.1
  let bc := between K t.2.1 t.2.2
  let ca := between K t.2.2 t.1
  [(t.1, ab, ca), (ab, t.2.1, bc), (bc, t.2.2, ca), (ab, bc, ca)]

/-- all triangles of a list cut, `n` times over -/
def quarters : Nat → List (P × P × P) → List (P × P × P)
  | 0, T => T
  | n + 1, T => quarters n (T.flatMap (quarter K))

variable {K}

/-- `x` is `t` scaled by `s` and moved by `v`; the corners may be listed from another one on, in the same sense -/
def ScaledCopy (s : K) (t x : P × P × P) : Prop :=
  ∃ v : P, x = (v + s • t.1, v + s • t.2.1, v + s • t.2.2) ∨ x = (v + s • t.2.1, v + s • t.2.2, v + s • t.1) ∨
    x = (v + s • t.2.2, v + s • t.1, v + s • t.2.1)

end Verif
