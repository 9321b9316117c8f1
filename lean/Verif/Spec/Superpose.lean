import Verif.Spec.Affine
/-
Maps of positions that the filters cannot tell from their own arithmetic.
-/
namespace Verif

/-- `φ` keeps the zero vector, sums and multiples.  No law of these operations is asked for: they may be rounded.  Linear
maps are examples; so is the projection to one coordinate, since the filters compute each coordinate by itself. -/
structure PosHom (K : Type) {P P' : Type} [Zero P] [Add P] [SMul K P] [Zero P'] [Add P'] [SMul K P'] (φ : P → P') : Prop where
  zero : φ 0 = 0
  add : ∀ a b, φ (a + b) = φ a + φ b
  smul : ∀ (k : K) a, φ (k • a) = k • φ a

/-- the mixture of two positions with weights `a` and `b` -/
def blend {K P : Type} [Add P] [SMul K P] (a b : K) (pq : P × P) : P := a • pq.1 + b • pq.2

end Verif
