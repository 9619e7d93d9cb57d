import Mathlib.Data.List.Basic

/-!
# Specification of the labels of DBSCAN
-/

namespace Spta

/-- What scikit-learn returns: the groups are numbered from 0 without gaps, -1 is noise. -/
structure GroupLabels (groups : Nat) (labels : List Int) : Prop where
  range : ∀ l ∈ labels, -1 ≤ l ∧ l < groups
  all : ∀ g < groups, (g : Int) ∈ labels

end Spta
