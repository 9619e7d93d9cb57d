import Mathlib.Algebra.BigOperators.Group.List.Basic
import Mathlib.Algebra.Field.Defs
import Mathlib.Order.Defs.LinearOrder
import Verif.Spec.KMedoids

/-!
# Specification of fuzzy memberships

`d m i` is the distance between the medoid (sample index) `m` and sample `i`; `pw x` is the power
`x ^ (1 / (m - 1))` of the fuzzifier; `ms` is the list of medoids, `n` the number of samples.
-/

namespace Spta

variable {K : Type} [Field K] [LinearOrder K]

/-- What is used of the power: it is positive and monotone on positive numbers. -/
structure PowOK (pw : K → K) : Prop where
  pos : ∀ x, 0 < x → 0 < pw x
  mono : ∀ x y, 0 < x → x ≤ y → pw x ≤ pw y

/-- Distances that are positive, except from a sample to itself. -/
def Separated (d : Nat → Nat → K) (n : Nat) : Prop :=
  ∀ a < n, ∀ i < n, 0 ≤ d a i ∧ (d a i = 0 ↔ a = i)

/-- The degree of membership of sample `p` in the cluster of medoid `m`: the FCM formula, all or
nothing for the medoids themselves. -/
def fcmU (pw : K → K) (d : Nat → Nat → K) (ms : List Nat) (p m : Nat) : K :=
  if p ∈ ms then (if p = m then 1 else 0)
  else pw (1 / d m p) / (ms.map fun m' => pw (1 / d m' p)).sum

/-- The sum of the distances of all samples to medoid `m`, weighted by their membership. -/
def fcmCost (pw : K → K) (d : Nat → Nat → K) (n : Nat) (ms : List Nat) (m : Nat) : K :=
  ((List.range n).map fun p => fcmU pw d ms p m * d m p).sum

/-- The sum of the costs of all clusters. -/
def fcmTotal (pw : K → K) (d : Nat → Nat → K) (n : Nat) (ms : List Nat) : K :=
  (ms.map fun m => fcmCost pw d n ms m).sum

end Spta
