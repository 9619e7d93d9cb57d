import Verif.Model.Result
import Verif.Model.Classifier

/-!
# Model of the result objects that the solvers return

The ends of `predict` in spta/solver/model.py and spta/classifier/model.py: the prediction becomes a result,
whose rows are written to the CSV file.
-/

namespace Spta

variable {K : Type} [Field K] [LinearOrder K]

/-- `predict(prediction_region, forecast_len)` with its result object — spta/solver/model.py:45-131,
spta/solver/result.py:684-727. `mdRegion` is the rectangle of the region metadata. Out of sample, the test
region is None, and not used. -/
def Solver.queryResult {M : Type} (sv : Solver K M) (forecast : M → Nat → Except PyErr (List (Option K)))
    (mdRegion : Region) (pt : Partition) (medoids : Option (List Point)) (clustering : ClusterMeta)
    (r : Region) (forecastLen : Int) : Except PyErr (Result K) :=
  match sv.predict forecast r forecastLen with
  | .error e => .error e
  | .ok pr =>
    .ok (.withPartition (Result.build ⟨mdRegion, sv.testLen, pr.forecast, pr.errors, r, sv.spt⟩
      (pr.test.getD pr.forecast) (decide (0 < forecastLen))) pt medoids clustering)

/-- The result object of `create_prediction_query_result` — spta/classifier/model.py:251-267; `spt` is the
region of the solver. -/
def ClassifierPrediction.result (pr : ClassifierPrediction K) (mdRegion : Region) (testLen : Nat)
    (spt : Stack K) (suite : Str) (r : Region) : Result K :=
  .fromClassifier (Result.build ⟨mdRegion, testLen, pr.forecast, pr.errors, r, spt⟩ pr.test false) suite
    pr.labels

end Spta
