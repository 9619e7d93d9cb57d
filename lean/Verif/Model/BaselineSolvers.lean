import Verif.Model.SolverSession
import Verif.Model.SolverEach

/-!
# Model of the forecasting models of the solver programs

`SolverWorld` has the trainers and the forecasts of the three solver programs as parameters. Here the two of the baselines,
the mean of the past (experiments/baseline/solver_mean_past.py, spta/model/mean.py) and k nearest neighbours
(experiments/baseline/solver_knn_medoids.py, spta/model/knn.py), are the ones of the repository; those of auto ARIMA remain
parameters. Negative numbers of neighbours are not modelled (`toNat`).
-/

namespace Spta

variable {K : Type} [Field K] [LinearOrder K] {P Q M V : Type}

/-- The parameters of a point, of any of the programs: what auto ARIMA is trained and refitted with,
`MeanOfPastParams(past)`, `KNNParams(k, distance_measure)` — spta/model/mean.py:8-20, spta/model/knn.py:14-29. -/
inductive ProgParams (P Q : Type) where
  | arima (p : P)
  | order (q : Q)
  | mean (past : Int)
  | knn (k : Int)
  deriving DecidableEq

/-- The model of a point: that of auto ARIMA, the mean, or `KNNModel(model_params, training_series)` — spta/model/mean.py:65,
spta/model/knn.py:95. -/
inductive ProgModel (K M : Type) where
  | arima (m : M)
  | mean (v : Option K)
  | knn (k : Int) (series : List (Option K))
  deriving DecidableEq

/-- The model of auto ARIMA, if it is one. -/
def ProgModel.arima? : ProgModel K M → Option M
  | .arima m => some m
  | _ => none

/-- `training_function(model_params, training_series)` of the three trainers — spta/model/mean.py:51-65,
spta/model/knn.py:89-95; that of auto ARIMA is given. -/
def progTrain (arima : P → List (Option K) → Except PyErr (Option M))
    (refit : Q → List (Option K) → Except PyErr (Option M)) :
    ProgParams P Q → List (Option K) → Except PyErr (Option (ProgModel K M))
  | .arima p, series => (arima p series).map (Option.map .arima)
  | .order q, series => (refit q series).map (Option.map .arima)
  | .mean past, series => .ok (some (.mean (floatMean (pySlice series (-past) series.length))))
  | .knn k, series => .ok (some (.knn k series))

/-- `forecast_from_model(model_at_point, forecast_len, ...)` of the three model regions — spta/model/mean.py:32-35,
spta/model/knn.py:63-69. -/
def progForecast (arima : M → Nat → Except PyErr (List (Option K))) (measure : List (Option K) → List (Option K) → V)
    (argpartition : List V → Nat → List Nat) : ProgModel K M → Nat → Except PyErr (List (Option K))
  | .arima m, n => arima m n
  | .mean v, n => .ok (List.replicate n v)
  | .knn k series, n => predictKnn measure argpartition series k.toNat n

/-- `x_len`, `y_len` of the metadata of a region — spta/region/metadata.py:63-64. -/
def RegionMeta.xLen (md : RegionMeta) : Nat := md.region.x2 - md.region.x1

def RegionMeta.yLen (md : RegionMeta) : Nat := md.region.y2 - md.region.y1

/-- The trainers of the programs — experiments/baseline/solver_mean_past.py:162, experiments/baseline/solver_knn_medoids.py:157,
experiments/auto_arima/solver.py:160-165. -/
def SolverWorld.progTrainer (w : SolverWorld K P Q M) (params : ModelParams) (md : RegionMeta) :
    Trainer K (ProgParams P Q) (ProgModel K M) :=
  let t := w.trainer params md
  let train := progTrain t.train fun _ _ => .error .typeError
  match params with
  | .mean past => Trainer.constant (.mean past) md.xLen md.yLen train
  | .knn k _ => Trainer.constant (.knn k) md.xLen md.yLen train
  | _ => ⟨⟨t.params.xLen, t.params.yLen, t.params.data.map .arima⟩, train⟩

/-- `create_refitter(model_region)`: the trainer itself (spta/model/train.py:118-129), except for auto ARIMA
(spta/arima/train.py:189-200). -/
def SolverWorld.progRefitter (w : SolverWorld K P Q M) (params : ModelParams) (md : RegionMeta)
    (models : Grid (Option (ProgModel K M))) : Trainer K (ProgParams P Q) (ProgModel K M) :=
  match params with
  | .mean _ => w.progTrainer params md
  | .knn _ _ => w.progTrainer params md
  | _ =>
    let t := w.refitter params md ⟨models.xLen, models.yLen, models.data.map fun m => m.bind ProgModel.arima?⟩
    ⟨⟨t.params.xLen, t.params.yLen, t.params.data.map .order⟩, progTrain (fun _ _ => .error .typeError) t.train⟩

/-- The world of the three programs; `measure` is the distance of k nearest neighbours (DTW), `argpartition` is
`np.argpartition`. -/
def SolverWorld.programs (w : SolverWorld K P Q M) (measure : List (Option K) → List (Option K) → V)
    (argpartition : List V → Nat → List Nat) :
    SolverWorld K (ProgParams P Q) (ProgParams P Q) (ProgModel K M) where
  region := w.region
  matrix := w.matrix
  partition := w.partition
  trainer := w.progTrainer
  refitter := w.progRefitter
  forecast := progForecast w.forecast measure argpartition
  zero := w.zero.map .arima
  junk := w.junk.map .arima

end Spta
