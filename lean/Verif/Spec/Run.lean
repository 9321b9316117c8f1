import Verif.Spec.FaceSplit
import Verif.Model.EdgeFilters
/-
What a run of a filter asks of its input mesh.
-/
namespace Verif
variable {P D : Type}

/-- The input is a valid mesh; the schemes that navigate it (Loop, Butterfly) need the ring laws, and Loop needs every
point to have an edge. -/
structure Scheme.Needs (sch : Scheme) (inp : Mesh P D) : Prop where
  valid : inp.Valid
  ring : sch = .loop ∨ sch = .butterfly → inp.RingOK
  noIsolated : sch = .loop → inp.NoIsolated

/-- the cell scheme with the same edge points -/
def EdgeScheme.toScheme : EdgeScheme → Scheme
  | .linear => .linear
  | .loop => .loop
  | .butterfly => .butterfly

end Verif
