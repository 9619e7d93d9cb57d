import Verif.Model.Classifier
import Verif.Model.Result

/-!
# Model of the solvers with a model at each point

experiments/auto_arima/solver_each.py, experiments/baseline/solver_knn_each.py: `process_request` from the
region on, up to the result object; the rows of its file are in Model/Result. Not
modelled: the command line, logging and printing.
-/

namespace Spta

variable {K : Type} [Field K] [LinearOrder K]

/-- `descale_subregion` of a region if the metadata says that the data is scaled
— experiments/auto_arima/solver_each.py:122-127, 161-171,
experiments/baseline/solver_knn_each.py:114-119, 153-163. -/
def descaleIf (scaled : Bool) (subregion predictionSpt : Stack K) : Except PyErr (Stack K) :=
  if scaled then descaleSubregion subregion predictionSpt else .ok subregion

/-- `process_request` — experiments/auto_arima/solver_each.py:97-140,
experiments/baseline/solver_knn_each.py:94-132. `trainer xLen yLen` creates the trainer, `mdRegion` and
`scaled` come from the region metadata, `s` is the region of `create_instance()`, `n` the argument `--tf`,
`r` the prediction region, `zero` and `junk` the content of new arrays. -/
def solverEach {P M : Type} (trainer : Nat → Nat → Trainer K P M)
    (forecast : M → Nat → Except PyErr (List (Option K))) (errorType : String) (mdRegion : Region)
    (scaled : Bool) (s : Stack K) (n : Nat) (r : Region) (zero : Option M) (junk : Option K) :
    Except PyErr (Result K) :=
  match s.regionSubset r with
  | .error e => .error e
  | .ok sub =>
    let t := trainer sub.data.grid.xLen sub.data.grid.yLen
    match (Analysis.new K M).trainModels (fun tr => (t.applyTo zero tr).map Prod.fst) sub n with
    | (.error e, _) => .error e
    | (.ok _, a) =>
      match (a.forecastAtEach forecast junk n errorType).1 with
      | .error e => .error e
      | .ok (region, errors) =>
        match descaleIf scaled region sub with
        | .error e => .error e
        | .ok region' =>
          match descaleIf scaled (splitLast sub n).2 sub with
          | .error e => .error e
          | .ok test => .ok (.build ⟨mdRegion, n, region', errors, r, s⟩ test false)

/-- `TrainerKNN` with the parameter `k` — spta/model/knn.py:75-98: the model is the parameter and the training
series. -/
def knnTrainer (k xLen yLen : Nat) : Trainer K Nat (Nat × List (Option K)) :=
  Trainer.constant k xLen yLen fun k series => .ok (some (k, series))

/-- `forecast_from_model` of `ModelRegionKNN` — spta/model/knn.py:57-69. -/
def knnForecast {V : Type} (measure : List (Option K) → List (Option K) → V)
    (argpartition : List V → Nat → List Nat) (model : Nat × List (Option K)) (n : Nat) :
    Except PyErr (List (Option K)) :=
  predictKnn measure argpartition model.2 model.1 n

end Spta
