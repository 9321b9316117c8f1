import Verif.Model.Drivers
/-
Specification of failing runs of the conditional filter: rounds that go through, and a round that does not.
-/
namespace Verif
variable {P D S ι : Type}

/-- `k` rounds of the conditional filter that go through: something is listed, the inner filter returns, the criterion
returns the next list. -/
inductive CondRounds (upd : S → List ι → Mesh P D → Except Fail (Mesh P D) × S) (crit : Mesh P D → Prog (List ι) Unit) :
    Nat → Cond S ι → Mesh P D → Cond S ι → Mesh P D → Prop
  | none (c : Cond S ι) (m : Mesh P D) : CondRounds upd crit 0 c m c m
  | more {k : Nat} {c c' : Cond S ι} {m m' m'' : Mesh P D} {s : S} {sel : List ι} :
    c.sel ≠ [] → upd c.inner c.sel m = (.ok m', s) → crit m' c.sel = (.ok (), sel) →
    CondRounds upd crit k ⟨s, sel⟩ m' c' m'' → CondRounds upd crit (k + 1) c m c' m''

/-- A round that fails with `e` and leaves the members `c'`: if the inner filter fails, the list is the one it was given; if
the criterion fails, the list is what that had filled in. -/
inductive RoundFails (upd : S → List ι → Mesh P D → Except Fail (Mesh P D) × S) (crit : Mesh P D → Prog (List ι) Unit)
    (c : Cond S ι) (m : Mesh P D) (e : Fail) : Cond S ι → Prop
  | inner {s : S} : c.sel ≠ [] → upd c.inner c.sel m = (.error e, s) → RoundFails upd crit c m e ⟨s, c.sel⟩
  | criterion {m' : Mesh P D} {s : S} {sel : List ι} :
    c.sel ≠ [] → upd c.inner c.sel m = (.ok m', s) → crit m' c.sel = (.error e, sel) → RoundFails upd crit c m e ⟨s, sel⟩

end Verif
