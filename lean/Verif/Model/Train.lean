import Verif.Model.Scaling
import Verif.Model.Util
import Verif.Model.Extrema

/-!
# Model of the training of forecasting models

spta/model/train.py, spta/model/base.py, spta/model/mean.py, spta/model/knn.py and the training
part of spta/solver/train.py. A model is an element of any type `M`, "no model" (python's `None`)
is `none`. Training and forecasting functions of third-party models (ARIMA) are parameters.
-/

namespace Spta

variable {K : Type} [Field K] [LinearOrder K]

/-! ### Training and test data -/

/-- `TimeInterval(t1, t2)` used as a python slice of an axis of length `n`: negative bounds count
from the end. -/
def sliceInterval (n : Nat) (t1 t2 : Int) : TimeInterval := ⟨pyBound n t1, pyBound n t2⟩

/-- `SplitTrainingAndTestLast(test_len).split(spt_region)` — spta/model/train.py:214-247: the
training subset and the test subset. -/
def splitLast (s : Stack K) (testLen : Nat) : Stack K × Stack K :=
  let seriesLen := s.data.tLen
  let trainingSize : Int := (seriesLen : Int) - testLen
  (s.intervalSubset (sliceInterval seriesLen 0 trainingSize),
    s.intervalSubset (sliceInterval seriesLen trainingSize seriesLen))

/-! ### Trainers -/

/-- A `ModelTrainer` — spta/model/train.py:25-72: the parameters of each point (constant or a region
of parameters) and `training_function(model_params, training_series)`. The 2d array of functions
built by the constructor holds `partial(training_function, params at the point)`. -/
structure Trainer (K P M : Type) where
  params : Grid P
  train : P → List (Option K) → Except PyErr (Option M)

/-- `ModelTrainer(model_params_and_shape=(params, x_len, y_len))` — spta/model/train.py:42-50. -/
def Trainer.constant {K P M : Type} (params : P) (xLen yLen : Nat)
    (train : P → List (Option K) → Except PyErr (Option M)) : Trainer K P M :=
  ⟨Grid.const xLen yLen params, train⟩

/-- `function_at(point)(series)` of a trainer — spta/region/function.py:23-34 with the function
array of spta/model/train.py:50, 62. -/
def Trainer.functionAt {P M : Type} (t : Trainer K P M) (p : Point) (series : List (Option K)) :
    Except PyErr (Option M) :=
  match t.params.get p with
  | .error e => .error e
  | .ok params => t.train params series

/-- `function_at(point)(series)` of `TrainAtRepresentatives` — spta/model/train.py:168-180. -/
def Trainer.functionAtRepresentatives {P M : Type} (t : Trainer K P M) (reps : List Point) (p : Point)
    (series : List (Option K)) : Except PyErr (Option M) :=
  if p ∈ reps then t.functionAt p series else .ok none

/-- The items of a complete loop over a spatial region — spta/region/spatial.py:109-120, 375-397. -/
def SpStack.items {V : Type} : SpStack V → Except PyErr (List (Point × V))
  | .plain g => Stack.itemsAt g.get (Stack.allPoints g.xLen g.yLen)
  | .cluster inner part i =>
    match Stack.membersOf part i (Stack.allPoints inner.data.xLen inner.data.yLen) with
    | .error e => .error e
    | .ok ps => Stack.itemsAt (SpStack.cluster inner part i).valueAt ps

/-- `apply_function_scalar` with results of any type (`dtype=object`)
— spta/region/spatial.py:32-65. `zero` is the 0 of `np.zeros`. -/
def Stack.applyObjects {B : Type} (s : Stack K) (fxLen fyLen : Nat)
    (f : Point → List (Option K) → Except PyErr B) (zero : B) : Except PyErr (SpStack B) :=
  if s.data.grid.xLen = fxLen ∧ s.data.grid.yLen = fyLen then
    match s.items with
    | .error e => .error e
    | .ok items =>
      match applyWith f items (Grid.const s.data.grid.xLen s.data.grid.yLen zero) with
      | .error e => .error e
      | .ok g => .ok (s.newSpatial g)
  else .error .assertionError

/-- `ModelTrainer.apply_to(training_region)` — spta/model/train.py:74-100: the models of each point
(the dataset of the model region) and `missing_count`. -/
def trainApply {M : Type} (fxLen fyLen : Nat)
    (f : Point → List (Option K) → Except PyErr (Option M)) (zero : Option M) (s : Stack K) :
    Except PyErr (Grid (Option M) × Nat) :=
  match s.applyObjects fxLen fyLen f zero with
  | .error e => .error e
  | .ok models =>
    match models.items with
    | .error e => .error e
    | .ok items => .ok (models.data, items.countP fun it => it.2.isNone)

/-- `trainer.apply_to(region)`. -/
def Trainer.applyTo {P M : Type} (t : Trainer K P M) (zero : Option M) (s : Stack K) :
    Except PyErr (Grid (Option M) × Nat) :=
  trainApply t.params.xLen t.params.yLen t.functionAt zero s

/-- `TrainAtRepresentatives(trainer, representatives).apply_to(region)`
— spta/model/train.py:149-195. -/
def Trainer.applyAtRepresentatives {P M : Type} (t : Trainer K P M) (reps : List Point)
    (zero : Option M) (s : Stack K) : Except PyErr (Grid (Option M) × Nat) :=
  trainApply t.params.xLen t.params.yLen (t.functionAtRepresentatives reps) zero s

/-! ### Training of the solver -/

/-- `replicate_representative_models(medoid_model_region, partition, medoids)`
— spta/solver/train.py:155-169. `junk` is the content of `np.empty`. -/
def replicateModels {M : Type} (models : Grid (Option M)) (pt : Partition) (medoids : List Point)
    (junk : Option M) : Except PyErr (Grid (Option M)) :=
  match pt.createAllClusters models with
  | .error e => .error e
  | .ok clusters =>
    match pt.mergeWithRepresentatives clusters medoids junk with
    | .error e => .error e
    | .ok merged => .ok merged.1

/-- `SolverTrainer.train` from the partition on — spta/solver/train.py:78-139 without the
generalization errors (lines 112-116): the model regions obtained from the training data and from
the whole data. `refitter` is `create_refitter` of the trainer. -/
def trainSolver {P Q M : Type} (t : Trainer K P M) (refitter : Grid (Option M) → Trainer K Q M)
    (s : Stack K) (testLen : Nat) (pt : Partition) (medoids : List Point) (zero junk : Option M) :
    Except PyErr (Grid (Option M) × Grid (Option M)) :=
  match t.applyAtRepresentatives medoids zero (splitLast s testLen).1 with
  | .error e => .error e
  | .ok atMedoids =>
    match replicateModels atMedoids.1 pt medoids junk with
    | .error e => .error e
    | .ok training =>
      match (refitter atMedoids.1).applyTo zero s with
      | .error e => .error e
      | .ok refitted =>
        match replicateModels refitted.1 pt medoids junk with
        | .error e => .error e
        | .ok whole => .ok (training, whole)

/-- The default `create_refitter`: the trainer itself — spta/model/train.py:118-130. -/
def Trainer.sameRefitter {P M : Type} (t : Trainer K P M) : Grid (Option M) → Trainer K P M := fun _ => t

/-- `TrainerAutoArima.create_refitter` — spta/arima/train.py:189-242: the parameters of each point
are the order of its model (`None` where there is no model) and a point without parameters gets no
model. `order` is `model.order`, `fit` the fitting of an ARIMA model with given order. -/
def arimaRefitter {O M : Type} (order : M → O) (fit : O → List (Option K) → Option M)
    (models : Grid (Option M)) : Trainer K (Option O) M :=
  ⟨⟨models.xLen, models.yLen, models.data.map fun m => m.map order⟩,
    fun params series => match params with
      | none => .ok none
      | some o => .ok (fit o series)⟩

/-! ### Forecasts -/

/-- `result_np[:, x, y] = values` for a result with `n` samples — spta/region/spatial.py:91 (numpy
broadcasting: the right length, or a single value). -/
def assignSeries {A : Type} (n : Nat) (values : List A) : Except PyErr (List A) :=
  if values.length = n then .ok values
  else match values with
    | [v] => .ok (List.replicate n v)
    | _ => .error .valueError

/-- `do_forecast_from_model` — spta/model/base.py:32-41. `forecast` is `forecast_from_model`: for
the models in the repository it does not look at the value at the point nor at the point
(spta/arima/model.py:12-25, spta/model/knn.py:63-69, spta/model/mean.py:32-35). -/
def forecastOf {M : Type} (forecast : M → Nat → Except PyErr (List (Option K))) (n : Nat)
    (model : Option M) : Except PyErr (List (Option K)) :=
  match model with
  | none => .ok (List.replicate n none)
  | some m => forecast m n

/-- `function_at(point)` of a model region followed by the assignment to the result
— spta/model/base.py:19-43, spta/region/spatial.py:85-91. -/
def forecastAt {M : Type} (forecast : M → Nat → Except PyErr (List (Option K))) (n : Nat)
    (models : Grid (Option M)) (p : Point) : Except PyErr (List (Option K)) :=
  match models.get p with
  | .error e => .error e
  | .ok model =>
    match forecastOf forecast n model with
    | .error e => .error e
    | .ok series => assignSeries n series

/-! ### Mean of the past -/

/-- `TrainerMeanOfPast.training_function` — spta/model/mean.py:51-65: the mean of
`training_series[-past:]`. -/
def meanOfPast (past : Nat) (series : List (Option K)) : Except PyErr (Option (Option K)) :=
  .ok (some (floatMean (pySlice series (-(past : Int)) series.length)))

/-- `ModelRegionMeanOfPast.forecast_from_model` — spta/model/mean.py:32-35. -/
def repeatMean (model : Option K) (n : Nat) : Except PyErr (List (Option K)) :=
  .ok (List.replicate n model)

/-! ### k nearest neighbours -/

/-- `find_k_nearest_neighbors(array, k, possible_neighbors, distance_measure)`
— spta/model/knn.py:128-158. `argpartition` stands for `np.argpartition(distances, k)`. -/
def findKNearest {A V : Type} (measure : List A → List A → V)
    (argpartition : List V → Nat → List Nat) (array : List A) (k : Nat)
    (possible : List (List A)) : Except PyErr (List Nat) :=
  if possible.any (fun n => n.length != array.length) then .error .valueError
  else if possible.length < k then .error .valueError
  else if possible.length = k then .ok (List.range k)
  else
    let distances := possible.map fun n => measure array n
    .ok ((argpartition distances k).take k)

/-- The mean of each column of a list of rows (`np.mean(rows, axis=0)`, rows of length `n`). -/
def columnMeans (n : Nat) (rows : List (List (Option K))) : List (Option K) :=
  (List.range n).map fun j => floatMean (rows.map fun r => (r[j]?).join)

/-- One row of `rows.take(indices, axis=0)` (non-negative index). -/
def takeRow {A : Type} (rows : List A) (i : Nat) : Except PyErr A :=
  match rows[i]? with
  | some r => .ok r
  | none => .error .indexError

/-- `predict_future_values_with_knn(time_series, k, forecast_len, distance_measure)`
— spta/model/knn.py:101-125. -/
def predictKnn {V : Type} (measure : List (Option K) → List (Option K) → V)
    (argpartition : List V → Nat → List Nat) (series : List (Option K)) (k forecastLen : Nat) :
    Except PyErr (List (Option K)) :=
  match slidingWindow series forecastLen 1 with
  | .error e => .error e
  | .ok windows =>
    match windows.getLast? with
    | none => .error .indexError
    | some last =>
      let possible := windows.dropLast
      match findKNearest measure argpartition last k possible with
      | .error e => .error e
      | .ok indices =>
        match indices.mapM (takeRow possible) with
        | .error e => .error e
        | .ok neighbors => .ok (columnMeans forecastLen neighbors)

end Spta
