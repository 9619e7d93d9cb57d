import Verif.Model.Forecast

/-!
# Sequences of calls on one `ForecastAnalysis`

Modelled: the methods that change the object (spta/model/forecast.py:41-280), called in any order, any number of
times, whether or not they raise. A caller that catches the exceptions keeps the object.
-/

namespace Spta

variable {K : Type} [Field K] [LinearOrder K]

/-- A call of a method of the object. `junk` is the content of `np.empty`; the first
argument of the trainings is `trainer.apply_to`, which may
answer differently each time (the trainer is an object of its own). -/
inductive AnalysisCall (K M : Type) where
  /-- `train_models(spt_region, test_len)` — spta/model/forecast.py:41-64. -/
  | train (train : Stack K → Except PyErr (Grid (Option M))) (s : Stack K) (testLen : Nat)
  /-- `forecast_at_each_point(forecast_len, error_type)` — spta/model/forecast.py:66-107. -/
  | each (junk : Option K) (n : Nat) (errorType : String)
  /-- `forecast_whole_region_with_single_model(point, forecast_len, error_type)` — spta/model/forecast.py:109-142. -/
  | single (junk : Option K) (p : Point) (n : Nat) (errorType : String)
  /-- `forecast_whole_region_with_all_models(forecast_len, error_type)` — spta/model/forecast.py:144-170. -/
  | all (junk : Option K) (n : Nat) (errorType : String)
  /-- `analyze_errors(spt_region, error_type, forecast_len)` — spta/model/forecast.py:172-280. -/
  | analyze (train : Stack K → Except PyErr (Grid (Option M))) (junk : Option K) (s : Stack K) (centroid : Option Point)
      (errorType : String) (n : Nat)

/-- The object after a call; the exception, if any, is caught. -/
def AnalysisCall.after {M : Type} (root : K → K) (forecast : M → Nat → Except PyErr (List (Option K)))
    (a : Analysis K M) : AnalysisCall K M → Analysis K M
  | .train fit s n => (a.trainModels fit s n).2
  | .each junk n errorType => (a.forecastAtEach forecast junk n errorType).2
  | .single junk p n errorType => (a.withSingleModel forecast junk p n errorType).2
  | .all junk n errorType => (a.withAllModels root forecast junk n errorType).2
  | .analyze fit junk s centroid errorType n => (a.analyze root fit forecast junk s centroid errorType n).2

/-- A new object after the calls, in this order. -/
def afterCalls {M : Type} (root : K → K) (forecast : M → Nat → Except PyErr (List (Option K)))
    (calls : List (AnalysisCall K M)) : Analysis K M :=
  calls.foldl (AnalysisCall.after root forecast) (Analysis.new K M)

end Spta
