/-
Outcomes of a C++ run, a small state-and-failure monad, and `std::map` as a sorted association list.
-/
namespace Verif

/-- Exceptions thrown with `itkExceptionMacro` in /repo/include.
`notTriangle`: itkLinearTriangleCellSubdivisionQuadEdgeMeshFilter.hxx:28-31, itkLoopTriangleCell….hxx:30-33,
itkModifiedButterflyTriangleCell….hxx:30-33, itkSquareThreeTriangleCell….hxx:28-31.
`wireEdge`: itkLoopTriangleCell….hxx:117-120, itkLoopTriangleEdgeCell….hxx:96-99.
`noEdges`: itkTriangleEdgeCell….hxx:61-64, itkEdgeLengthTriangleEdgeCellSubdivisionCriterion.hxx:31-34.
`outOfRange`: `std::out_of_range` of `vector::at`, itkIterativeTriangleCell….hxx:61-71.
The "not cells" exception of itkCellAreaTriangleCellSubdivisionCriterion.hxx:32-35 is not modelled: a mesh of
the model always has a cells container.  The "unusual large number of points" exception of
itkSquareThreeTriangleCell….hxx:55-58 is not modelled: after the guard of lines 28-31 the divisor is 3. -/
inductive Exc where
  | notTriangle
  | wireEdge
  | noEdges
  | outOfRange
  deriving DecidableEq, Repr

/-- Undefined behaviour of the C++ program, kept as a distinct outcome. -/
inductive UB where
  /-- dereference of a null pointer -/
  | nullDeref
  /-- `itk::MapContainer::GetElement` / const `ElementAt` on an absent key (`find(id)->second` on `end()`) -/
  | missingKey
  /-- use of a point that `GetPoint` did not fill in, or of an array slot never written -/
  | uninitRead
  deriving DecidableEq, Repr

/-- Ways in which a call does not return normally. -/
inductive Fail where
  | exc (e : Exc)
  | ub (u : UB)
  /-- the call never returns -/
  | hang
  deriving DecidableEq, Repr

/-- A C++ member function: reads and writes the object state `σ`, and returns or fails.  The state is kept when
an exception leaves the function, as members of the C++ object are. -/
def Prog (σ : Type) (α : Type) := σ → Except Fail α × σ

namespace Prog
variable {σ α β : Type}

def pure (a : α) : Prog σ α := fun s => (.ok a, s)

def bind (p : Prog σ α) (f : α → Prog σ β) : Prog σ β := fun s =>
  match p s with
  | (.ok a, s') => f a s'
  | (.error e, s') => (.error e, s')

instance : Monad (Prog σ) where
  pure := Prog.pure
  bind := Prog.bind

def fail (e : Fail) : Prog σ α := fun s => (.error e, s)
def get : Prog σ σ := fun s => (.ok s, s)
def modify (f : σ → σ) : Prog σ Unit := fun s => (.ok (), f s)
/-- lift a computation that only reads -/
def lift (r : Except Fail α) : Prog σ α := fun s => (r, s)

/-- `for (it = begin; it != end; ++it) body(*it);` -/
def forEach (body : α → Prog σ Unit) : List α → Prog σ Unit
  | [] => Prog.pure ()
  | x :: xs => Prog.bind (body x) (fun _ => forEach body xs)

end Prog

/-- A `while (it != end)` loop over a container in which some elements reach `continue;` *before* the `++it`
statement.  `skip x` says that `x` takes that branch, `act x` is the rest of the body for the other elements.
This is the literal reading of the loops at itkTriangleCell….hxx:98-160, itkSquareThreeTriangleCell….hxx:98-185
and itkCellAreaTriangleCellSubdivisionCriterion.hxx:38-64, one loop test per unit of fuel; `none` means that the
loop has not ended within that many tests. -/
def cursorLoop {σ α : Type} (skip : α → Bool) (act : α → Prog σ Unit) :
    Nat → List α → σ → Option (Except Fail Unit × σ)
  | 0, _, _ => none
  | _ + 1, [], s => some (.ok (), s)
  | n + 1, x :: xs, s =>
    if skip x then cursorLoop skip act n (x :: xs) s
    else
      match act x s with
      | (.ok _, s') => cursorLoop skip act n xs s'
      | (.error e, s') => some (.error e, s')

/-- The same loop as a total function: the non-advancing `continue` is the outcome `hang`.
`Verif.Proofs.CursorLoop` proves that this agrees with `cursorLoop`. -/
def loopOrHang {σ α : Type} (skip : α → Bool) (act : α → Prog σ Unit) : List α → Prog σ Unit :=
  Prog.forEach (fun x => if skip x then Prog.fail .hang else act x)

/-- `itk::MapContainer<Nat-like id, α>` (a `std::map`): key/value pairs in increasing key order. -/
abbrev AMap (α : Type) := List (Nat × α)

namespace AMap
variable {α : Type}

/-- `find(id)`: `IndexExists` / `GetElementIfIndexExists`. -/
def find? : AMap α → Nat → Option α
  | [], _ => none
  | (k', v) :: m, k => if k = k' then some v else find? m k

/-- `InsertElement` / `SetElement` / `operator[]` assignment: replace, or insert in key order. -/
def set : AMap α → Nat → α → AMap α
  | [], k, v => [(k, v)]
  | (k', v') :: m, k, v =>
    if k = k' then (k, v) :: m
    else if k < k' then (k, v) :: (k', v') :: m
    else (k', v') :: set m k v

/-- `MapContainer::Reserve(sz)`: `CreateElementAt(id)` for `id = 0 … sz-1`, which (re)sets them to a default. -/
def reserve (m : AMap α) (sz : Nat) (dflt : α) : AMap α :=
  (List.range sz).foldl (fun m i => m.set i dflt) m

/-- one more than the last key, or `0` -/
def nextKey (m : AMap α) : Nat :=
  match m.getLast? with
  | none => 0
  | some (k, _) => k + 1

end AMap
end Verif
