import Verif.Model.Print
/-
What a reader of the stream sees.
-/
namespace Verif

/-- the lines on the stream that `Print` was given -/
def Printed.onStream (p : Printed) : List String := p.filterMap fun l => if l.1 = .given then some l.2 else none

/-- the last line on the stream ends with "1" (with "0") -/
def Printed.SaysUniform (p : Printed) (sup : List String) (indent : String) : Prop :=
  p.onStream = sup ++ [indent ++ "Is Uniform Subdivision: 1"]

def Printed.SaysSelective (p : Printed) (sup : List String) (indent : String) : Prop :=
  p.onStream = sup ++ [indent ++ "Is Uniform Subdivision: 0"]

end Verif
