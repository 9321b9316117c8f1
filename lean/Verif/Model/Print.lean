import Verif.Model.Drivers
/-
`PrintSelf` of the filters: `Print(os)` of an ITK object calls it.
-/
namespace Verif

/-- where a line goes: to the stream `os` that `Print` was given, or to `std::cout` -/
inductive Sink
  | given
  | console
deriving DecidableEq, Repr

/-- the lines written, in order; `sup` below stands for the lines of the ITK base classes, which go to `os` -/
abbrev Printed := List (Sink × String)

/-- `os << b` for a `bool` -/
def showBool (b : Bool) : String := if b then "1" else "0"

/-- `TriangleCellSubdivisionQuadEdgeMeshFilter::PrintSelf`, itkTriangleCell….hxx:287-293, after
`SubdivisionQuadEdgeMeshFilter::PrintSelf`, itkSubdivision….hxx:41-46.  The four cell filters do not override it. -/
def printCell (sup : List String) (indent : String) (f : Filt) : Printed :=
  sup.map (Sink.given, ·) ++ [(.given, indent ++ ("Is Uniform Subdivision: " ++ showBool f.uniform))]

/-- `TriangleEdgeCellSubdivisionQuadEdgeMeshFilter::PrintSelf`, itkTriangleEdgeCell….hxx:93-99: that of the cell filters,
from which the class is derived.  The three edge filters do not override it. -/
def printEdge (sup : List String) (indent : String) (f : Filt) : Printed := printCell sup indent f

/-- `IterativeTriangleCell…::PrintSelf`, itkIterativeTriangleCell….hxx:75-82: the number of levels goes to `std::cout`. -/
def printIter (sup : List String) (indent : String) (f : Iter) : Printed :=
  sup.map (Sink.given, ·) ++ [(.console, indent ++ ("Subdivision Resolution Levels: " ++ Nat.repr f.levels))]

/-- `ConditionalSubdivisionQuadEdgeMeshFilter::PrintSelf`, itkConditional….hxx:59-65 -/
def printCond {S ι : Type} (sup : List String) (_indent : String) (_c : Cond S ι) : Printed := sup.map (Sink.given, ·)

end Verif
