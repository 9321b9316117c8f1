import Verif.Model.TwoTypes
import Verif.Spec.Affine
import Mathlib.Analysis.Normed.Module.Basic
/-
Filters whose output mesh type has other coordinates than the input mesh type.
-/
namespace Verif

/-- the same filter class with one mesh type -/
def TwoTypeScheme.toScheme : TwoTypeScheme → Scheme
  | .loop => .loop
  | .butterfly => .butterfly
  | .sqrt3 => .sqrt3

/-- `cast` converts between machine positions whose exact values are `val` and `valQ`, with relative error `δ` and absolute
error `δ₀`. -/
def CastNear {P Q V : Type} [NormedAddCommGroup V] (δ δ₀ : ℝ) (val : P → V) (valQ : Q → V) (cast : P → Q) : Prop :=
  ∀ p, ‖valQ (cast p) - val p‖ ≤ δ * ‖val p‖ + δ₀

end Verif
