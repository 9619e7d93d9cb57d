import Mathlib.Algebra.BigOperators.Group.Finset.Basic
import Mathlib.Algebra.Order.AbsoluteValue.Basic
import Mathlib.Algebra.Order.Field.Basic
import Mathlib.Data.List.Forall2
import Mathlib.Algebra.BigOperators.Intervals

/-!
# Specification of the k-medoids script on the iris data
-/

namespace Spta

variable {K : Type} [Field K] [LinearOrder K]

/-- The `p`-th power of the distance in `p`-norm of two points. -/
def powerDistance (p : Nat) (x y : List K) : K :=
  ∑ i ∈ Finset.range x.length, |x.getD i 0 - y.getD i 0| ^ p

/-- The sum of the distances of all points to one. -/
def totalDistance (p : Nat) (points : List (List K)) (m : List K) : K :=
  (points.map fun x => powerDistance p x m).sum

/-- `j` is the first of the nearest medoids to `x`. -/
def NearestFirst (p : Nat) (medoids : List (List K)) (x : List K) (j : Nat) : Prop :=
  ∃ m, medoids[j]? = some m ∧ ∀ (j' : Nat) (m' : List K), medoids[j']? = some m' →
    powerDistance p x m ≤ powerDistance p x m' ∧ (j' < j → powerDistance p x m < powerDistance p x m')

/-- A result at which the algorithm has nothing to improve: every point has the label of its nearest medoid,
and no point with the label of a medoid is nearer to the whole data than the medoid. -/
structure Settled (p : Nat) (points medoids : List (List K)) (labels : List Nat) : Prop where
  nearest : List.Forall₂ (NearestFirst p medoids) points labels
  best : ∀ (i j : Nat) (x m : List K), points[i]? = some x → labels[i]? = some j → medoids[j]? = some m →
    totalDistance p points m ≤ totalDistance p points x

/-- The cost of medoids within their clusters: the sum over the points with the label of the medoid. -/
def withinCost (p : Nat) (points : List (List K)) (labels : List Nat) (j : Nat) (m : List K) : K :=
  (((points.zip labels).filter fun xl => xl.2 == j).map fun xl => powerDistance p xl.1 m).sum

/-- The cost that k-medoids minimizes: the sum of the distances of all points to the medoid of their label. -/
def labelCost (p : Nat) (points medoids : List (List K)) (labels : List Nat) : K :=
  ((points.zip labels).map fun xl => powerDistance p xl.1 (medoids.getD xl.2 [])).sum

/-- The order in which python iterates the set of the elements of a list: every element once. -/
structure SetOrder (order : List Nat → List Nat) : Prop where
  nodup : ∀ l, (order l).Nodup
  mem : ∀ l i, i ∈ order l ↔ i ∈ l

/-- The number of positions at which `b` has the label that `f` gives to the label of `a`. -/
def agreement (f : Nat → Nat) (a b : List Nat) : Nat :=
  ((a.zip b).filter fun ab => f ab.1 == ab.2).length

end Spta
