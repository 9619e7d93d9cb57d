import Verif.Model.Examples

/-!
# Specifications for the k-medoids examples
-/

namespace Spta

/-- Line `i` of the figure shows series `i` in the colour of its label. -/
structure DrawnBy {K : Type} (group : List (List K)) (labels : List Nat) (lines : List (List K × Char)) : Prop where
  length : lines.length = group.length
  series : ∀ (i : Nat) l, lines[i]? = some l → group[i]? = some l.1
  colour : ∀ (i : Nat) l, lines[i]? = some l → ∃ c, labels[i]? = some c ∧ ['b', 'g', 'r', 'c', 'm', 'y', 'k'][c]? = some l.2

/-- The distances between the series of a list. -/
def distancesIn {K : Type} (measure : List K → List K → K) (X : List (List K)) (i j : Nat) : K :=
  measure (X[i]?.getD []) (X[j]?.getD [])

end Spta
