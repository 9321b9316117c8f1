import Verif.Model.Criterion
import Verif.Spec.Surface
import Verif.Spec.FaceSplit
/-
What a criterion of the user's own has to do, and some such criteria.
-/
namespace Verif
variable {T P D : Type}

/-- On a valid mesh the criterion makes a list as described by `G`, or throws. -/
def CritLists {ι : Type} (G : Mesh P D → List ι → Prop) (crit : CritObj T P D ι) : Prop :=
  ∀ t m old, m.Valid → match crit t m old with
    | ((.ok _, l), _) => G m l
    | ((.error e, _), _) => ∃ x, e = .exc x

/-- The criterion lists ids of existing cells; with SquareThree (`once`) it lists no cell twice. -/
def CellCrit (once : Prop) (crit : CritObj T P D CId) : Prop := CritLists (fun m l => m.SelOK l ∧ (once → l.Nodup)) crit

/-- The criterion lists edges of the mesh, none of them twice. -/
def EdgeCrit (crit : CritObj T P D (Option Edge)) : Prop :=
  CritLists (fun m sel => ∃ l : List Edge, sel = l.map some ∧ (∀ e ∈ l, m.IsEdge e) ∧ DistinctEdges l) crit

/-- How a run with the criterion `crit` may end: not yet; normally, with a mesh as described by `I` in which the criterion has
just found nothing, and an empty list; or with an exception that the criterion has thrown for a valid mesh. -/
def OwnOutcome {S ι : Type} (crit : CritObj T P D ι) (I : Mesh P D → Prop) :
    Option (Except Fail (Mesh P D) × Cond S ι × T) → Prop
  | none => True
  | some (.ok out, c', t') => I out ∧ c'.sel = [] ∧ ∃ t old, crit t out old = ((.ok (), []), t')
  | some (.error e, c', t') => (∃ x, e = .exc x) ∧ ∃ t m old, m.Valid ∧ crit t m old = ((.error e, c'.sel), t')

/-- a criterion without members of its own -/
def plainCrit {ι : Type} (crit : Mesh P D → Prog (List ι) Unit) : CritObj Unit P D ι := fun _ m old => (crit m old, ())

/-- the cells for which some test succeeds that may depend on the mesh and on the criterion's members in any way (a comparison
with a NaN, a curvature, a random number, …) -/
def pickCrit (test : T → Mesh P D → CId → Bool) (next : T → Mesh P D → T) : CritObj T P D CId := fun t m _ =>
  ((.ok (), (m.cells.map Prod.fst).filter (test t m)), next t m)

/-- the same for edges -/
def pickEdges (test : T → Mesh P D → Edge → Bool) (next : T → Mesh P D → T) : CritObj T P D (Option Edge) := fun t m _ =>
  ((.ok (), (m.edges.filter (test t m)).map some), next t m)

/-- all cells in the first `t` calls, none afterwards -/
def timesCrit : CritObj Nat P D CId := fun t m _ =>
  match t with
  | 0 => ((.ok (), []), 0)
  | t + 1 => ((.ok (), m.cells.map Prod.fst), t)

/-- a criterion that forgets to clear the list: it adds what it finds to what is there -/
def appendCrit {ι : Type} (find : T → Mesh P D → List ι × T) : CritObj T P D ι := fun t m old =>
  ((.ok (), old ++ (find t m).1), (find t m).2)

end Verif
