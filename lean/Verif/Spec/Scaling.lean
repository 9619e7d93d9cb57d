import Mathlib.Algebra.Order.Field.Basic

/-!
# What it means for a series to be a scaled version of another one
-/

namespace Spta

variable {K : Type} [Field K] [LinearOrder K]

/-- `out` is `s` scaled to the interval `[0, 1]` (`none` is NaN). -/
structure ScaledSeries (s out : List (Option K)) : Prop where
  /-- same number of samples -/
  len : out.length = s.length
  /-- every number lies in `[0, 1]` -/
  range : ∀ (i : Nat) (w : K), out[i]? = some (some w) → 0 ≤ w ∧ w ≤ 1
  /-- numbers stay numbers and keep their order -/
  order : ∀ (i j : Nat) (a b : K), s[i]? = some (some a) → s[j]? = some (some b) →
    ∃ a' b' : K, out[i]? = some (some a') ∧ out[j]? = some (some b') ∧ (a ≤ b ↔ a' ≤ b')
  /-- a series with two different values attains both ends -/
  ends : ∀ a b : K, some a ∈ s → some b ∈ s → a ≠ b → some 0 ∈ out ∧ some 1 ∈ out
  /-- a constant series becomes all 0 -/
  const : ∀ a : K, (∀ v ∈ s, v = some a) → ∀ w ∈ out, w = some 0
  /-- a series of NaN stays a series of NaN -/
  nan : (∀ v ∈ s, v = none) → ∀ w ∈ out, w = none

/-- A series whose content survives scaling: no NaN, only NaN, or at least two different values. -/
def Recoverable (s : List (Option K)) : Prop :=
  (∀ v ∈ s, v ≠ none) ∨ (∀ v ∈ s, v = none) ∨ ∃ a b : K, some a ∈ s ∧ some b ∈ s ∧ a ≠ b

end Spta
