import Mathlib.Algebra.BigOperators.Group.List.Basic
import Mathlib.Order.Defs.LinearOrder
import Verif.Model.KMedoids

/-!
# What a clustering by medoids should satisfy

These do not refer to the algorithm of kmedoids_bad.
-/

namespace Spta

variable {S K : Type} [LinearOrder K]

/-- Every medoid is the series of the data at its index. -/
def MedoidsOf (X : List S) (ms : List (Medoid S)) : Prop := ∀ m ∈ ms, X[m.index]? = some m.series

/-- Every series is labelled with the position of its nearest medoid; the first one when there are several. -/
def NearestLabels (measure : S → S → K) (X : List S) (ms : List (Medoid S)) (labels : List Nat) : Prop :=
  labels.length = X.length ∧ ∀ (idx : Nat) (x : S) (l : Nat), X[idx]? = some x → labels[idx]? = some l →
    ∃ m, ms[l]? = some m ∧ ∀ (j : Nat) (m' : Medoid S), ms[j]? = some m' →
      measure x m.series ≤ measure x m'.series ∧ (j < l → measure x m.series < measure x m'.series)

/-- No series of a cluster has a smaller dissimilarity `D` than the medoid of the cluster. -/
def BestOfCluster (D : S → K) (X : List S) (ms : List (Medoid S)) (labels : List Nat) : Prop :=
  ∀ (idx : Nat) (x : S) (l : Nat) (m : Medoid S), X[idx]? = some x → labels[idx]? = some l →
    ms[l]? = some m → D m.series ≤ D x

/-- The dissimilarity of no medoid is greater than before. -/
def NotWorse (D : S → K) (before after : List (Medoid S)) : Prop :=
  after.length = before.length ∧ ∀ (j : Nat) (m m' : Medoid S), before[j]? = some m → after[j]? = some m' →
    D m'.series ≤ D m.series

/-- The sum over a list of series of the distances to the nearest medoids, at the labels given. -/
def labelledCost [AddCommMonoid K] (measure : S → S → K) (X : List S) (ms : List (Medoid S))
    (labels : List Nat) : K :=
  ((X.zip labels).map fun xl => match ms[xl.2]? with
    | some m => measure xl.1 m.series
    | none => 0).sum

end Spta
