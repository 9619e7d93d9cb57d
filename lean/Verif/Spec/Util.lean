import Mathlib.Algebra.BigOperators.Group.Finset.Basic
import Mathlib.Algebra.Order.Ring.Int

/-!
# Specifications for the utilities
-/

namespace Spta

/-- `w` is the part of length `len` of the list that starts at position `start`. -/
def IsSlice {A : Type} (w l : List A) (start len : Nat) : Prop :=
  start + len ≤ l.length ∧ w.length = len ∧ ∀ j < len, w[j]? = l[start + j]?

/-- Leap years of the Gregorian calendar. -/
def IsLeapYear (y : Int) : Prop := (4 ∣ y ∧ ¬ 100 ∣ y) ∨ 400 ∣ y

instance (y : Int) : Decidable (IsLeapYear y) := inferInstanceAs (Decidable (_ ∨ _))

/-- Days of a year. -/
def daysInYear (y : Int) : Int := if IsLeapYear y then 366 else 365

/-- Days of `n` years, from year `y` on. -/
def daysOfYears (y : Int) (n : Nat) : Int := ∑ i ∈ Finset.range n, daysInYear (y + i)

end Spta
