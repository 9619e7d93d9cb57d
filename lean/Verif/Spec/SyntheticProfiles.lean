import Verif.Model.SyntheticProfiles

/-!
# Specifications for the synthetic series of the k-medoids examples
-/

namespace Spta

variable {K : Type} [Field K]

/-- The series shows the profile with `padding` samples less than the series, `delay` samples late, zeros before and
after it, and noise of 2 percent added to every sample. -/
structure IsDelayed (profile : Nat → Nat → K) (seriesLen padding delay : Nat) (z : Nat → K) (s : List K) : Prop where
  length : s.length = seriesLen
  before : ∀ j, j < delay → s[j]? = some (2 / 100 * z j)
  shown : ∀ j, j < seriesLen - padding → s[delay + j]? =
    some (profile j (seriesLen - padding) + 2 / 100 * z (delay + j))
  after : ∀ j, delay + (seriesLen - padding) ≤ j → j < seriesLen → s[j]? = some (2 / 100 * z j)

end Spta
