import Verif.Model.FuzzyReport
import Verif.Spec.Fuzzy

/-!
# Specifications for the report of fuzzy k-medoids
-/

namespace Spta

variable {K : Type} [LE K]

/-- Medoid `m` is at least as near to sample `p` as every other medoid. -/
def NearestTo (d : Nat → Nat → K) (ms : List Nat) (m p : Nat) : Prop := ∀ m' ∈ ms, d m p ≤ d m' p

end Spta
