import Verif.Spec.Volume
/-
Triangles on the same side.
-/
namespace Verif
variable {E D : Type} [NormedAddCommGroup E] [InnerProductSpace ℝ E]

/-- The triangle with the corners `p' q' r'` lies in the triangle with the corners `p q r` and looks to the same side: its
vector area is `x` times the other one, `0 < x ≤ 1`, for every vector product. -/
structure LiesIn (p' q' r' p q r : E) : Prop where
  inside : p' ∈ convexHull ℝ {p, q, r} ∧ q' ∈ convexHull ℝ {p, q, r} ∧ r' ∈ convexHull ℝ {p, q, r}
  normal : ∃ x : ℝ, 0 < x ∧ x ≤ 1 ∧ ∀ (V : Type) [AddCommGroup V] [Module ℝ V] (ω : E [⋀^Fin 2]→ₗ[ℝ] V),
    vectorArea ω p' q' r' = x • vectorArea ω p q r

/-- every triangle of `out` lies in a triangle of `inp` and looks to the same side -/
def Mesh.SameSide (inp out : Mesh E D) : Prop := ∀ d ∈ out.tris, ∃ t ∈ inp.tris,
  LiesIn (out.place d.1) (out.place d.2.1) (out.place d.2.2) (inp.place t.1) (inp.place t.2.1) (inp.place t.2.2)

end Verif
