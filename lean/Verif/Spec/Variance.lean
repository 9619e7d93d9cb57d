import Verif.Model.Region
import Mathlib.Order.Defs.LinearOrder
import Mathlib.Algebra.Field.Defs

/-!
# Specifications for the histograms of distances, independent of the modelled functions
-/

namespace Spta

/-- `is` are different positions of the membership matrix, none of them with label `i`. -/
structure OutsidePositions (labels : List Nat) (i : Nat) (is : List Nat) : Prop where
  nodup : is.Nodup
  outside : ∀ j ∈ is, ∃ l, labels[j]? = some l ∧ l ≠ i

variable {K : Type}

/-- `v` is the largest element. -/
def IsMaxOf [LE K] (l : List K) (v : K) : Prop := v ∈ l ∧ ∀ x ∈ l, x ≤ v

/-- `v` is the smallest element when the one at position `p` is left out. -/
def IsMinExcept [LE K] (l : List K) (p : Nat) (v : K) : Prop :=
  (∃ q, q ≠ p ∧ l[q]? = some v) ∧ ∀ q x, q ≠ p → l[q]? = some x → v ≤ x

/-- `v` is the median: with the elements in increasing order, the middle one or the point halfway between
the two in the middle. -/
def IsMedianOf [Field K] [LE K] (l : List K) (v : K) : Prop :=
  ∃ s : List K, s.Perm l ∧ s.Pairwise (· ≤ ·) ∧
    ((∃ h, l.length = 2 * h + 1 ∧ s[h]? = some v) ∨
      ∃ h a b, l.length = 2 * (h + 1) ∧ s[h]? = some a ∧ s[h + 1]? = some b ∧ 2 * v = a + b)

end Spta
