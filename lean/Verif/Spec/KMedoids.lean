import Mathlib.Algebra.BigOperators.Group.List.Basic
import Mathlib.Data.List.Chain
import Mathlib.Order.Defs.LinearOrder
import Verif.Model.KMedoids

/-!
# Specification of a k-medoids clustering

`d m i` is the distance between the medoid (sample index) `m` and sample `i`; `ms` is the list of
medoids, `n` the number of samples.
-/

namespace Spta

variable {S K : Type} [AddCommGroup K] [LinearOrder K]

/-- The medoid at position `j` is the first one closest to sample `i`. -/
def FirstNearest (d : Nat → Nat → K) (ms : List Nat) (i j : Nat) : Prop :=
  ∃ m, ms[j]? = some m ∧ ∀ j' m', ms[j']? = some m' → d m i ≤ d m' i ∧ (j' < j → d m i < d m' i)

/-- `c` is the sum over all samples of the distance to the nearest medoid. -/
def TotalCost (d : Nat → Nat → K) (n : Nat) (ms : List Nat) (c : K) : Prop :=
  ∃ near : Nat → K, (∀ i < n, (∃ m ∈ ms, near i = d m i) ∧ ∀ m ∈ ms, near i ≤ d m i) ∧
    c = ((List.range n).map near).sum

/-- The properties of labels, costs and total cost for the medoids `ms` and `n` samples. -/
structure CostSpec (d : Nat → Nat → K) (n : Nat) (ms : List Nat) (labels : List Nat)
    (costs : List K) (total : K) : Prop where
  /-- one label per sample, its first nearest medoid -/
  labels_len : labels.length = n
  nearest : ∀ (i j : Nat), labels[i]? = some j → FirstNearest d ms i j
  /-- one cost per medoid, the sum of the distances of the members of its cluster to it -/
  costs_len : costs.length = ms.length
  cost : ∀ (j m : Nat), ms[j]? = some m → costs[j]? =
    some ((((List.range n).filter fun i => labels[i]? == some j).map fun i => d m i).sum)
  /-- the total is the sum of the costs, and of the distances to the nearest medoids -/
  total_costs : total = costs.sum
  total_near : TotalCost d n ms total

/-- The distances `d` between the samples of `X`, as provided by a distance measure: the entries of
an n x n matrix (row: medoid, column: sample), or the measure of the two series, zero from a sample
to itself. -/
def Realises (dm : Measure S K) (X : List S) (d : Nat → Nat → K) : Prop :=
  match dm with
  | .matrix m => m.xLen = X.length ∧ m.yLen = X.length ∧
      ∀ a < X.length, ∀ i < X.length, m.get ⟨a, i⟩ = .ok (d a i)
  | .function f => ∀ (a i : Nat) (x y : S), X[a]? = some x → X[i]? = some y →
      d a i = if i = a then 0 else f y x

/-- The initial medoids of a run: those given, or else the random outcome. -/
def initialIndices (initial : Option (List Nat)) (outcome : List Nat) : List Nat :=
  match initial with
  | some (i :: is) => i :: is
  | _ => outcome

/-- One accepted swap, from `old` to `new` (medoids with total cost): a single medoid is replaced by
a sample that is not a medoid, and the total cost drops by more than `tol`. -/
def SwapStep (n : Nat) (tol : K) (new old : List Nat × K) : Prop :=
  old.2 - new.2 > tol ∧
    ∃ j i, j < old.1.length ∧ i < n ∧ i ∉ old.1 ∧ new.1 = old.1.set j i

end Spta
