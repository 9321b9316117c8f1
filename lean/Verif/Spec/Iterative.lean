import Verif.Spec.Run
import Verif.Spec.Sqrt3
import Verif.Model.Drivers
/-
Specification of repeated subdivision.
-/
namespace Verif
variable {K P D : Type} [Field K] [Zero P] [Add P] [SMul K P]

/-- one level: a new filter object is given the selection and run; the next selection is what it holds afterwards -/
def oneLevel (sch : Scheme) (lib : QELib) (cosn : Nat → K) (x : Mesh P D × List CId) :
    Except Fail (Mesh P D × List CId) :=
  match cellUpdate sch lib cosn (Filt.new.setCells x.2) x.1 with
  | (.ok m, f) => .ok (m, f.cells)
  | (.error e, _) => .error e

/-- `n` levels, stopping at the first one that fails -/
def manyLevels (sch : Scheme) (lib : QELib) (cosn : Nat → K) : Nat → Mesh P D × List CId → Except Fail (Mesh P D × List CId)
  | 0, x => .ok x
  | n + 1, x => oneLevel sch lib cosn x >>= manyLevels sch lib cosn n

/-- the number of levels that are run: none counts as one -/
def levelsOf (n : Nat) : Nat := if n = 0 then 1 else n

/-- the number of cells that a uniform run makes of one cell -/
def Scheme.factor : Scheme → Nat
  | .sqrt3 => 3
  | _ => 4

/-- One level of selective refinement by a face split: the selected cells exist, there are some, all triangles are
replaced by their children, and the next selected cells are the children of the triangles that were split into four. -/
structure FaceSplitStep (m : Mesh P D) (sel : List CId) (m' : Mesh P D) (sel' : List CId) : Prop where
  some_selected : sel ≠ []
  selected_exist : m.SelOK sel
  valid : m'.Valid
  tris : m'.tris = m.tris.flatMap (Tri.children (m.edgePoint sel))
  next_exist : m'.SelOK sel'
  next_some : sel' ≠ []
  next : ∀ k (d : Tri), (k, some d.cell) ∈ m'.cells → (k ∈ sel' ↔
    ∃ t ∈ m.tris, d ∈ t.children (m.edgePoint sel) ∧ (t.children (m.edgePoint sel)).length = 4)

/-- One level of selective refinement by the √3 split: the next selected cells are those made from selected cells. -/
structure Sqrt3Step (m : Mesh P D) (sel : List CId) (m' : Mesh P D) (sel' : List CId) : Prop where
  some_selected : sel ≠ []
  selected_exist : m.SelOK sel
  valid : m'.Valid
  tris : m'.tris.Perm (m.tris.flatMap (Tri.sq3 (m.centreOf sel)))
  next_exist : m'.SelOK sel'
  next_some : sel' ≠ []
  next : ∀ k (d : Tri), (k, some d.cell) ∈ m'.cells → (k ∈ sel' ↔
    ∃ j ∈ sel, ∃ t : Tri, (j, some t.cell) ∈ m.cells ∧ MadeFrom (m.centreOf sel) t d)

def Scheme.Step : Scheme → Mesh P D → List CId → Mesh P D → List CId → Prop
  | .sqrt3 => Sqrt3Step
  | _ => FaceSplitStep

/-- `n` levels of selective refinement -/
inductive Refined (sch : Scheme) : Nat → Mesh P D → List CId → Mesh P D → List CId → Prop
  | refl (m : Mesh P D) (sel : List CId) : Refined sch 0 m sel m sel
  | step {n : Nat} {m m' m'' : Mesh P D} {sel sel' sel'' : List CId} :
      sch.Step m sel m' sel' → Refined sch n m' sel' m'' sel'' → Refined sch (n + 1) m sel m'' sel''

/-- SquareThree uses the largest identifier as a mark.  `L` levels with `s` cells subdivided by the first one make at
most `s + 3 s + … + 3^(L-1) s` new points; this many identifiers are available. -/
def Scheme.IdsLeft (sch : Scheme) (L : Nat) (m : Mesh P D) (sel : List CId) : Prop :=
  sch = .sqrt3 → m.points.length + (m.selected sel).length * ((3 ^ L - 1) / 2) ≤ idMax

/-- a call on an iterative filter -/
inductive IterCall (P D : Type) where
  /-- `SetCellsToBeSubdivided(l)` -/
  | set (l : List CId)
  /-- `AddSubdividedCellId(c)` -/
  | add (c : CId)
  /-- `SetResolutionLevels(n)` -/
  | levels (n : Nat)
  /-- `SetInput(m); Update()`; it need not return normally -/
  | run (m : Mesh P D)

/-- an iterative filter object after some calls on a new object -/
def afterIterCalls (sch : Scheme) (lib : QELib) (cosn : Nat → K) (calls : List (IterCall P D)) : Iter :=
  calls.foldl (fun f c =>
    match c with
    | .set l => f.setCells l
    | .add k => f.addCell k
    | .levels n => f.setLevels n
    | .run m => (iterUpdate sch lib cosn f m).2) Iter.new

/-- the selection and the level count that the user asked for, runs being ignored -/
def requested (calls : List (IterCall P D)) : List CId × Nat :=
  calls.foldl (fun r c =>
    match c with
    | .set l => (l, r.2)
    | .add k => (r.1 ++ [k], r.2)
    | .levels n => (r.1, n)
    | .run _ => r) ([], 1)

end Verif
