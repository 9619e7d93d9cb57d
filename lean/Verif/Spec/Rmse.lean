import Mathlib.Algebra.Order.Field.Basic
import Mathlib.Data.List.Forall2
import Mathlib.Data.List.Lex
import Verif.Model.Rmse
import Verif.Spec.Forecast

/-!
# Specifications for distances by root mean squared error and extremes of arrays
-/

namespace Spta

variable {K : Type} [Field K] [LinearOrder K]

/-- The index has one coordinate per axis, each of them less than the length of the axis. -/
def InShape (shape index : List Nat) : Prop := List.Forall₂ (· < ·) index shape

/-- The value is found at the index, no number of the array is better, and the index is the first one in
lexicographic order with the value. -/
structure IsExtreme (better : K → K → Prop) (a : NdArray K) (v : K) (i : List Nat) : Prop where
  inside : InShape a.shape i
  value : a.elem i = some v
  best : ∀ j w, InShape a.shape j → a.elem j = some w → ¬ better w v
  first : ∀ j, InShape a.shape j → j < i → a.elem j ≠ some v

end Spta
