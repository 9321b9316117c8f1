import Verif.Model.Drivers
/-
itkConditionalSubdivisionQuadEdgeMeshFilter with a criterion of the user's own.

itkQuadEdgeMeshSubdivisionCriterion.h:61-62: `Compute` is a pure virtual member that is not `const`.  A class derived from it
may read and change its own members, read the list that is passed in, and throw.  The two criteria of the library
(Model/Drivers.lean) have constant members.  Not modelled: a `Compute` that changes the mesh it is given.
-/
namespace Verif
variable {P D : Type} [Zero P]

/-- `Compute` of a criterion object with members of type `T`: from the members, the mesh and the list to the outcome, the
list and the members afterwards. -/
abbrev CritObj (T P D ι : Type) := T → Mesh P D → List ι → (Except Fail Unit × List ι) × T

/-- The `while` loop of itkConditional….hxx:47-56 with such a criterion, at most `fuel` iterations (`none`: not finished). -/
def condLoopC {S T ι : Type} (upd : S → List ι → Mesh P D → Except Fail (Mesh P D) × S) (crit : CritObj T P D ι) :
    Nat → Cond S ι → T → Mesh P D → Option (Except Fail (Mesh P D) × Cond S ι × T)
  | n, c, t, cur =>
    if c.sel.isEmpty then some (.ok cur, c, t)
    else
      match n with
      | 0 => none
      | n + 1 =>
        match upd c.inner c.sel cur with
        | (.error e, s') => some (.error e, ⟨s', c.sel⟩, t)
        | (.ok m, s') =>
          match crit t m c.sel with
          | ((.error e, sel'), t') => some (.error e, ⟨s', sel'⟩, t')
          | ((.ok _, sel'), t') => condLoopC upd crit n ⟨s', sel'⟩ t' m

/-- `GenerateData`, itkConditional….hxx:42-57, with such a criterion. -/
def condGenerateC {S T ι : Type} (lib : QELib) (upd : S → List ι → Mesh P D → Except Fail (Mesh P D) × S)
    (crit : CritObj T P D ι) (fuel : Nat) (c : Cond S ι) (t : T) (inp : Mesh P D) :
    Option (Except Fail (Mesh P D) × Cond S ι × T) :=
  match crit t (copyGeometry lib inp) c.sel with
  | ((.error e, sel), t') => some (.error e, ⟨c.inner, sel⟩, t')
  | ((.ok _, sel), t') => condLoopC upd crit fuel ⟨c.inner, sel⟩ t' (copyGeometry lib inp)

end Verif
