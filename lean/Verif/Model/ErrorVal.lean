import Mathlib.Algebra.Order.Monoid.WithTop
import Verif.Model.Util

/-!
# Values of forecast errors

An error is a number, `+inf` (`⊤`, after a division by 0) or NaN (`none`). `-inf` does not occur: the error
functions of spta/util/error.py take absolute values or squares.
-/

namespace Spta

variable {K : Type} [Field K] [LinearOrder K]

/-- The value of an error: NaN is `none`, `+inf` is `⊤`. -/
abbrev ErrorVal (K : Type) := Option (WithTop K)

/-- A float without infinities as an error value. -/
def toErrorVal (a : Option K) : ErrorVal K := a.map WithTop.some

/-- `np.sum` of error values -/
def errorSum : List (ErrorVal K) → ErrorVal K
  | [] => some 0
  | a :: l =>
    match a, errorSum l with
    | some x, some y => some (x + y)
    | _, _ => none

/-- `np.mean` of error values: NaN for an empty array. -/
def errorMean (l : List (ErrorVal K)) : ErrorVal K :=
  if l = [] then none else (errorSum l).map fun t => t.map (· / (l.length : K))

/-- The square of an error value -/
def errorSquare (a : ErrorVal K) : ErrorVal K := a.map fun t => t.map fun x => x * x

/-- `mean_squared(array)` of error values — spta/util/arrays.py:86-96. -/
def errorMeanSquared (l : List (ErrorVal K)) : ErrorVal K :=
  errorMean ((l.map errorSquare).filter (·.isSome))

end Spta
