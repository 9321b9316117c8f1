import Verif.Spec.Surface
import Mathlib.Analysis.InnerProductSpace.PiL2
/-
An arrangement of ten triangles in the plane that ModifiedButterfly reproduces at the same place in the same size (C78).
-/
namespace Verif

/-- the point `(x, y)` differs from `(s, t)` by at most `r` in each coordinate -/
def Near (x y s t r : ℝ) : Prop := |x - s| ≤ r ∧ |y - t| ≤ r

/-- the area of a triangle in the plane -/
noncomputable def planeArea (x y x' y' x'' y'' : ℝ) : ℝ := |(x' - x) * (y'' - y) - (y' - y) * (x'' - x)| / 2

/-- A triangle `a b c` at the boundary point `a`, with the triangles around it:

     y
     | \ v
     |  c   e         (p far to the left of a,
     |  / \            q far below a)
     | /    b   u
     a ---------- x

`X` and `Y` are the coordinates of the points, which are near to given places.  The other triangles of the mesh are not larger
than 66 (`a b c` has an area of about 84). -/
structure Trap (T : List Tri) (X Y : PId → ℝ) (a b c x y p q u v e : PId) : Prop where
  abc : HasTri T a b c
  bax : HasTri T b a x
  xap : HasTri T x a p
  bxu : HasTri T b x u
  bue : HasTri T b u e
  cbe : HasTri T c b e
  cev : HasTri T c e v
  ycv : HasTri T y c v
  acy : HasTri T a c y
  ayq : HasTri T a y q
  pa : Near (X a) (Y a) 0 0 (1 / 4)
  px : Near (X x) (Y x) 21 0 (1 / 4)
  py : Near (X y) (Y y) 0 21 (1 / 4)
  pp : Near (X p) (Y p) (-80) 0 (1 / 4)
  pq : Near (X q) (Y q) 0 (-80) (1 / 4)
  pb : Near (X b) (Y b) 13 0 1
  pc : Near (X c) (Y c) 0 13 1
  pu : Near (X u) (Y u) 13 0 1
  pv : Near (X v) (Y v) 0 13 1
  pe : Near (X e) (Y e) 5 5 (3 / 2)
  small : ∀ t ∈ T, t ∉ ([(a, b, c), (b, c, a), (c, a, b)] : List Tri) →
    planeArea (X t.1) (Y t.1) (X t.2.1) (Y t.2.1) (X t.2.2) (Y t.2.2) ≤ 66

end Verif
