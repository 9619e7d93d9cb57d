import Mathlib.Algebra.BigOperators.Group.List.Basic
import Mathlib.Algebra.Order.Field.Basic
import Verif.Model.Basic

/-!
# Specification of the analysis of a suite
-/

namespace Spta

variable {K : Type} [Field K]

/-- `c` is the sum, over the samples with the labels `labels`, of the distance from the medoid of the cluster
of the sample. -/
def OwnDistances (d : Nat → Nat → K) (labels medoids : List Nat) (c : K) : Prop :=
  ∃ own : Nat → K,
    (∀ i < labels.length, ∃ l a, labels[i]? = some l ∧ medoids[l]? = some a ∧ own i = d a i) ∧
    c = ((List.range labels.length).map own).sum

/-- The coordinates in the dataset of points of the rectangle `r`. -/
def datasetPoints (r : Region) (ps : List Point) : List (Int × Int) :=
  ps.map fun p => (((r.x1 + p.x : Nat) : Int), ((r.y1 + p.y : Nat) : Int))

end Spta
