import Verif.Model.Tree
import Verif.Spec.Chain
/-
What the user of a pipeline that branches has asked for.
-/
namespace Verif

/-- The settings of the filters (as the members of objects that are never run) and the input mesh after some calls:
`Update()` is not a setting. -/
def askedTree {S M : Type} (s : List Nat → S) (m : M) (cs : List ((Nat → Nat) × ChainCall S M)) : (List Nat → S) × M :=
  cs.foldl (fun x c =>
    match c.2 with
    | .set k _ g => (fun l => if l = addr c.1 k then g (x.1 l) else x.1 l, x.2)
    | .input m => (x.1, m)
    | .update _ _ => x) (s, m)

/-- the calls that the `k`-th filter on the way `b` can be expected to notice: settings of filters on the way to it, and
changes of the input mesh -/
def Concerns {S M : Type} (b : Nat → Nat) (k : Nat) (c : (Nat → Nat) × ChainCall S M) : Prop :=
  match c.2 with
  | .set j _ _ => ∃ i ≤ k, addr b i = addr c.1 j
  | .input _ => True
  | .update _ _ => False

end Verif
