import Verif.Spec.Surface
import Mathlib.Algebra.Order.Field.Basic
import Mathlib.Algebra.Module.Defs
/-
Surfaces that do not meet themselves.
-/
namespace Verif
variable {K P D : Type} [Field K] [LinearOrder K] [AddCommGroup P] [Module K P]

/-- shares of the three corners of a triangle; they describe a point of the filled triangle -/
structure Weights (t : Tri) (w : PId → K) : Prop where
  nonneg : ∀ v, 0 ≤ w v
  off : ∀ v, v ∉ Tri.verts t → w v = 0
  sum : w t.1 + w t.2.1 + w t.2.2 = 1

/-- the point of space with the shares `w` of the corners of `t` -/
def Mesh.blend (m : Mesh P D) (t : Tri) (w : PId → K) : P :=
  w t.1 • (m.pos t.1).getD 0 + w t.2.1 • (m.pos t.2.1).getD 0 + w t.2.2 • (m.pos t.2.2).getD 0

/-- The surface does not meet itself: a point of space lies on the surface in at most one way, i.e. filled triangles have in
common what is spanned by their common corners and nothing else, and no triangle is flat; and no two triangles have the same
corners. -/
structure Mesh.Embedded (K : Type) [Field K] [LinearOrder K] [Module K P] (m : Mesh P D) : Prop where
  once : ∀ t ∈ m.tris, ∀ t' ∈ m.tris, ∀ w w' : PId → K, Weights t w → Weights t' w' → m.blend t w = m.blend t' w' → w = w'
  single : ∀ t ∈ m.tris, ∀ t' ∈ m.tris, (∀ v ∈ Tri.verts t, v ∈ Tri.verts t') → t = t'

end Verif
