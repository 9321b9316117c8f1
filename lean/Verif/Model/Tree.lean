import Verif.Model.Chain
/-
Pipelines that branch: several filters read the input mesh, several filters read the output of the same filter.  Every filter
of the module has one input, so that such a pipeline is a tree.
-/
namespace Verif

/-- The input mesh and the filters.  A filter has as its address the way to it, from the last step to the first: `[i]` is the
`i`-th of the filters that read the input mesh, `i :: l` the `i`-th of those that read the output of the filter `l`.  (Nothing
has address `[]`.  There is no end of filters: who uses five looks at five of them.) -/
structure Tree (S M : Type) where
  clock : Nat
  source : M
  /-- `m_MTime` of the input mesh -/
  sourceMTime : Nat
  stage : List Nat → Stage S M

/-- the address of the `k`-th filter on the way `b` through the tree -/
def addr (b : Nat → Nat) : Nat → List Nat
  | 0 => [b 0]
  | k + 1 => b (k + 1) :: addr b k

namespace Tree
variable {S M : Type}

/-- new filter objects with members `s`, connected with `SetInput` -/
def new (s : List Nat → S) (source nothing : M) : Tree S M := ⟨2, source, 1, fun l => ⟨s l, 2, 0, 0, 0, 0, nothing⟩⟩

/-- the filters on one way through the tree: a row -/
def along (t : Tree S M) (b : Nat → Nat) : Chain S M := ⟨t.clock, t.source, t.sourceMTime, fun k => t.stage (addr b k)⟩

/-- the row on one way through the tree has changed -/
def back (t : Tree S M) (b : Nat → Nat) (c : Chain S M) : Tree S M :=
  ⟨c.clock, c.source, c.sourceMTime, fun l => if l = addr b (l.length - 1) then c.stage (l.length - 1) else t.stage l⟩

/-- A call, of the `k`-th filter on the way `b` (or a change of the input mesh).  `Update()` (ITK) asks the input for its data,
and the input its source, and so on; a filter or mesh does not know the filters that read it, so that only the filters on
the way take part, and only what they have is changed.  They do what they do in a row; the time is that of the whole
program. -/
def call (run : S → M → Option (Except Fail M × S)) (pulls : S → Bool) (nothing : M) (t : Tree S M) (b : Nat → Nat)
    (x : ChainCall S M) : Option (Tree S M) := ((t.along b).call run pulls nothing x).map (t.back b)

/-- a sequence of calls -/
def calls (run : S → M → Option (Except Fail M × S)) (pulls : S → Bool) (nothing : M) :
    List ((Nat → Nat) × ChainCall S M) → Tree S M → Option (Tree S M)
  | [], t => some t
  | (b, x) :: xs, t =>
    match t.call run pulls nothing b x with
    | some t => calls run pulls nothing xs t
    | none => none

end Tree
end Verif
