import Verif.Model.ErrorVal

/-!
# Numbers among error values
-/

namespace Spta

variable {K : Type} [Field K] [LinearOrder K]

/-- A number as an error value. -/
def numVal (x : K) : ErrorVal K := some (WithTop.some x)

/-- The number of an error value, if it is one. -/
def numberOf : ErrorVal K → Option K
  | some (WithTop.some x) => some x
  | _ => none

end Spta
