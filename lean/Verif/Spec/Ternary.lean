import Verif.Spec.Topology
import Verif.Spec.Sqrt3
import Mathlib.Algebra.Module.Defs
import Mathlib.Algebra.Field.Defs
/-
Specification of the ternary split: every edge of a triangle is cut into three parts by two points, and with a point in
the middle the triangle falls into nine.
-/
namespace Verif
variable {P D : Type}

/-- The three triangles at the edge from `x` to `y` of the triangle `x y z` with the middle point `mid (x, y)`; the
point of the edge between `x` and `y` that is the one nearer to `x` is `near (x, y)`.  An edge at the rim has one new
point only, which is off the edge: the edge itself stays. -/
def thirdAt (mid near : Edge → PId) (T : List Tri) (x y z : PId) : List Tri :=
  [(x, near (x, y), near (x, z)), (mid (x, y), near (x, z), near (x, y)),
    if (y, x) ∈ dartsOf T then (mid (x, y), near (x, y), near (y, x)) else (x, y, near (x, y))]

/-- the nine triangles made for a triangle -/
def Tri.ninths (mid near : Edge → PId) (T : List Tri) (t : Tri) : List Tri :=
  thirdAt mid near T t.1 t.2.1 t.2.2 ++ thirdAt mid near T t.2.1 t.2.2 t.1 ++ thirdAt mid near T t.2.2 t.1 t.2.1

/-- a directed edge with a triangle on one side only -/
def RimEdge (T : List Tri) (e : Edge) : Prop := e ∈ dartsOf T ∧ e.sym ∉ dartsOf T

/-- `out` is the ternary split of `inp`. -/
structure TernarySplit (K : Type) [Field K] [AddCommGroup P] [Module K P] (inp out : Mesh P D) (mid near : Edge → PId) :
    Prop where
  tris : ∀ p q r, HasTri out.tris p q r ↔ HasTri (inp.tris.flatMap (Tri.ninths mid near inp.tris)) p q r
  nine : out.tris.length = 9 * inp.tris.length
  points : out.points.length = inp.points.length + 4 * inp.tris.length
  /-- the middle points are the first new ones; each triangle has its own -/
  midNew : ∀ e ∈ dartsOf inp.tris, inp.points.length ≤ mid e ∧ mid e < inp.points.length + inp.tris.length
  midSame : ∀ t ∈ inp.tris, ∀ e ∈ t.darts, ∀ e' ∈ t.darts, mid e = mid e'
  midOwn : ∀ t ∈ inp.tris, ∀ t' ∈ inp.tris, ∀ e ∈ t.darts, ∀ e' ∈ t'.darts, mid e = mid e' → t = t'
  /-- the points at the edges come after them; each end of an inner edge has its own, the ends of an edge at the rim
  share one -/
  nearNew : ∀ e ∈ dartsOf inp.tris, inp.points.length + inp.tris.length ≤ near e ∧ near e < out.points.length ∧
    inp.points.length + inp.tris.length ≤ near e.sym ∧ near e.sym < out.points.length
  nearRim : ∀ e, RimEdge inp.tris e → near e = near e.sym
  nearOwn : ∀ e e' : Edge, (e ∈ dartsOf inp.tris ∨ e.sym ∈ dartsOf inp.tris) →
    (e' ∈ dartsOf inp.tris ∨ e'.sym ∈ dartsOf inp.tris) → near e = near e' →
    e = e' ∨ (e' = e.sym ∧ (RimEdge inp.tris e ∨ RimEdge inp.tris e.sym))
  /-- the old points stay, the middle points are the centroids -/
  kept : ∀ v p, inp.pos v = some p → out.pos v = some p
  midPos : ∀ a b c pa pb pc, HasTri inp.tris a b c → inp.pos a = some pa → inp.pos b = some pb → inp.pos c = some pc →
    out.pos (mid (a, b)) = some ((1 / 3 : K) • (pa + pb + pc))
  /-- the point near `a` of an inner edge: five parts of `a`, two of `b` and one of each of the opposite corners -/
  nearPos : ∀ a b c d pa pb pc pd, HasTri inp.tris a b c → HasTri inp.tris b a d → inp.pos a = some pa →
    inp.pos b = some pb → inp.pos c = some pc → inp.pos d = some pd →
    out.pos (near (a, b)) = some ((1 / 9 : K) • ((5 : K) • pa + (2 : K) • pb + pc + pd))
  /-- the new point at an edge at the rim: four parts of each end and one of the opposite corner -/
  rimPos : ∀ a b c pa pb pc, HasTri inp.tris a b c → (b, a) ∉ dartsOf inp.tris → inp.pos a = some pa →
    inp.pos b = some pb → inp.pos c = some pc →
    out.pos (near (a, b)) = some ((1 / 9 : K) • ((4 : K) • pa + (4 : K) • pb + pc))

/-- `k` ternary splits, one after the other -/
def TernaryLevels (K : Type) [Field K] [AddCommGroup P] [Module K P] : Nat → Mesh P D → Mesh P D → Prop
  | 0, inp, out => out = inp
  | k + 1, inp, out => ∃ m mid near, TernarySplit K inp m mid near ∧ TernaryLevels K k m out

end Verif
