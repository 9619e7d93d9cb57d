import Mathlib.Algebra.BigOperators.Group.List.Basic
import Mathlib.Algebra.Order.Field.Basic
import Verif.Model.Basic

/-!
# Specification of the intra-cluster cost and of the best silhouette
-/

namespace Spta

variable {A K : Type} [Field K] [LinearOrder K]

/-- `c` is the sum over `n` samples of the square of the distance to the nearest of the samples `ms`. -/
def NearestSquares (d : Nat → Nat → K) (n : Nat) (ms : List Nat) (c : K) : Prop :=
  ∃ near : Nat → K, (∀ i < n, (∃ m ∈ ms, near i = d m i) ∧ ∀ m ∈ ms, near i ≤ d m i) ∧
    c = ((List.range n).map fun i => near i ^ 2).sum

/-- The outcome of looking for the best of some scores (NaN, `none`, does not count) which must be above
-1: the first of the highest ones, or nothing if there is none above -1. -/
def BestScore (scores : List (A × Option K)) : K × Option A → Prop
  | (v, none) => v = -1 ∧ ∀ e ∈ scores, ∀ s, e.2 = some s → s ≤ -1
  | (v, some a) => -1 < v ∧ ∃ pre post, scores = pre ++ (a, some v) :: post ∧
      (∀ e ∈ pre, ∀ s, e.2 = some s → s < v) ∧ ∀ e ∈ post, ∀ s, e.2 = some s → s ≤ v

end Spta
