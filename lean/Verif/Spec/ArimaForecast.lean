import Verif.Spec.TrainingErrors
import Verif.Spec.Centroid
import Verif.Spec.DistanceFiles
import Verif.Model.ArimaForecast

/-!
# Specification of ARIMA forecasts for a whole region
-/

namespace Spta

variable {K A M V : Type} [Field K] [LinearOrder K]

/-- The errors that are reported for a region whose models are `want past` for the series without the last `n`
samples: each one is compared with the last `n` samples, in the units of the original data. -/
def RegionReport (forecast : M → Nat → Except PyErr (List (Option K))) (f : ErrorFun K) (s : Stack K) (n : Nat)
    (want : List (Option K) → Option M) (centroid : Option Point) (errors : ForecastErrors K) : Prop :=
  ∃ (predicted : Point → List (Option K)) (own whole : List (Point × ErrorVal K)),
    (∀ p past, PastOf s n p past → RawForecast forecast n (want past) (predicted p)) ∧
    ErrorsOf f s n predicted own ∧ WholeErrors f s n predicted whole ∧ Reports own whole centroid errors

/-- What the program needs from a region: it was created from its metadata, and the series are long enough for a
test with eight samples and for the errors of naive forecasts. -/
structure ForecastSetup (md : RegionMeta) (s : Stack K) : Prop where
  created : CreatedRegion md.scaled s
  fits : RegionFits s.data.grid md
  x : 0 < s.data.grid.xLen
  y : 0 < s.data.grid.yLen
  enough : 8 ≤ s.data.tLen
  mase : s.data.tLen ≠ 9

end Spta
