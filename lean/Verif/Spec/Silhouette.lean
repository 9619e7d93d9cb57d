import Mathlib.Algebra.BigOperators.Group.Finset.Basic
import Mathlib.Algebra.Order.Field.Basic
import Mathlib.Data.Finset.Card
import Mathlib.Data.List.Sort
import Verif.Model.Basic

/-!
# Specification of silhouettes and of their plot
-/

namespace Spta

variable {K : Type} [Field K] [LinearOrder K]

/-- The samples of a cluster. -/
def members (labels : List Nat) (c : Nat) : Finset Nat :=
  (Finset.range labels.length).filter fun j => labels[j]? = some c

/-- The mean distance of a sample to some samples. -/
def meanDistance (d : Nat → Nat → K) (i : Nat) (S : Finset Nat) : K := (∑ j ∈ S, d i j) / (S.card : K)

/-- The silhouette of sample `i` (Rousseeuw, 1987): with the mean distance `a` to the other samples of its own
cluster and the least mean distance `b` to the samples of another cluster it is `(b - a) / max a b`; it is 0
for a sample that is alone in its cluster, and when both distances are 0. -/
def IsSilhouette (d : Nat → Nat → K) (labels : List Nat) (i : Nat) (s : K) : Prop :=
  ∃ c, labels[i]? = some c ∧ (members labels c = {i} → s = 0) ∧
    (members labels c ≠ {i} → ∃ a b, a = meanDistance d i ((members labels c).erase i) ∧
      (∃ c' ∈ labels, c' ≠ c ∧ b = meanDistance d i (members labels c')) ∧
      (∀ c' ∈ labels, c' ≠ c → b ≤ meanDistance d i (members labels c')) ∧
      (max a b ≠ 0 → s = (b - a) / max a b) ∧ (max a b = 0 → s = 0))

/-- The mean of the silhouettes of all samples. -/
def IsScore (d : Nat → Nat → K) (labels : List Nat) (s : K) : Prop :=
  ∃ f : Nat → K, (∀ i < labels.length, IsSilhouette d labels i (f i)) ∧
    s = (∑ i ∈ Finset.range labels.length, f i) / (labels.length : K)

/-- Distances for which being at distance 0 is transitive (as it is for every metric, and for DTW). -/
structure ZeroTransitive (d : Nat → Nat → K) (n : Nat) : Prop where
  self : ∀ i < n, d i i = 0
  nonneg : ∀ i < n, ∀ j < n, 0 ≤ d i j
  symm : ∀ i < n, ∀ j < n, d i j = d j i
  trans : ∀ i < n, ∀ j < n, ∀ l < n, d i j = 0 → d j l = 0 → d i l = 0

/-- The labels are 0, 1, ..., k - 1. -/
def Contiguous (labels : List Nat) (k : Nat) : Prop := ∀ c, c ∈ labels ↔ c < k

end Spta
