import Verif.Spec.SolverTrain
import Verif.Spec.Forecast
import Verif.Lemmas.Scaling
import Verif.Model.Strings

/-!
# Specification of the errors of the models of medoids
-/

namespace Spta

variable {K : Type} [Field K] [LinearOrder K]

/-- What is needed to train models at the points `medoids` of the region or cluster `s`, leaving the last `n`
samples for the test. -/
structure MedoidTraining {P M : Type} (t : Trainer K P M) (s : Stack K) (n : Nat) (medoids : List Point) :
    Prop where
  ok : s.OK
  one : s.OneScaling
  enough : n ≤ s.data.tLen
  inside : ∀ m ∈ medoids, ∃ v, s.seriesAt m = .ok v
  params : t.params.WF ∧ t.params.xLen = s.data.grid.xLen ∧ t.params.yLen = s.data.grid.yLen
  trains : ∀ m ∈ medoids, ∀ q v, t.params.get m = .ok q → s.seriesAt m = .ok v →
    ∃ x, t.train q (v.take (v.length - n)) = .ok x

/-- `raw` is the forecast, in the representation of the region, of the model trained with the series of the
point `m` without its last `n` samples. -/
def ForecastFrom {P M : Type} (t : Trainer K P M) (forecast : M → Nat → Except PyErr (List (Option K)))
    (s : Stack K) (n : Nat) (m : Point) (raw : List (Option K)) : Prop :=
  ∃ past future q model, s.seriesAt m = .ok (past ++ future) ∧ future.length = n ∧ t.params.get m = .ok q ∧
    t.train q past = .ok model ∧ RawForecast forecast n model raw

/-- `e` is the error at the point `p` of the forecast made with the data of the point `m`: the forecast is
brought to the units of `p` and compared with the last `n` samples of `p`. -/
def CrossError {P M : Type} (t : Trainer K P M) (forecast : M → Nat → Except PyErr (List (Option K)))
    (f : ErrorFun K) (s : Stack K) (n : Nat) (m p : Point) (e : ErrorVal K) : Prop :=
  ∃ raw shown test, ForecastFrom t forecast s n m raw ∧ InUnits s p raw shown ∧ ErrorOf f s n p shown test e

/-- The contents of the file of one cluster: one line for each of the `members`, with its absolute position, its
distance from the medoid and the error at this point of the forecast made with the data of the medoid. -/
structure ClusterFile {P M : Type} (t : Trainer K P M) (forecast : M → Nat → Except PyErr (List (Option K)))
    (f : ErrorFun K) (showDistance : Option K → Str) (showError : ErrorVal K → Str) (r : Region) (s : Stack K)
    (n : Nat) (medoid : Point) (distance : Point → Option K) (members : Point → Prop) (lines : List Str) :
    Prop where
  header : ∃ header, lines[0]? = some header ∧
    csvReadRow header = .ok ["position".toList, "distance_dtw".toList, "forecast_error".toList]
  body : ∃ points : List Point, points.Nodup ∧ (∀ p, p ∈ points ↔ members p) ∧
    lines.length = points.length + 1 ∧
    ∀ (j : Nat) (p : Point), points[j]? = some p → ∃ line e, lines[j + 1]? = some line ∧
      csvReadRow line = .ok ["Point(x=".toList ++ (natStr (r.x1 + p.x) ++ (", y=".toList ++
        (natStr (r.y1 + p.y) ++ [')']))), showDistance (distance p), showError e] ∧
      CrossError t forecast f s n medoid p e

end Spta
