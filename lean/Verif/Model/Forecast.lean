import Verif.Model.Solver

/-!
# Model of forecast errors over regions and of the forecast analysis

spta/model/error.py, spta/model/error_parallel.py, spta/model/forecast.py. Timing, logging and plots
are dropped. `root` stands for `x ** 0.5` on numbers.
-/

namespace Spta

variable {K : Type} [Field K] [LinearOrder K]

/-! ### Error functions -/

/-- `|a / b|`: `x / 0` is infinite, `0 / 0` is NaN. -/
def absDiv (a b : Option K) : ErrorVal K :=
  match a, b with
  | some x, some y =>
    if y = 0 then (if x = 0 then none else some ⊤) else some ((if x / y < 0 then -(x / y) else x / y : K))
  | _, _ => none

/-- `200 * (a / b)` for `a ≥ 0`: infinite for `b = 0`, unless `a = 0`. -/
def percentDiv (a b : Option K) : ErrorVal K :=
  match a, b with
  | some x, some y =>
    if y = 0 then (if x = 0 then none else some ⊤) else some ((200 * (x / y) : K))
  | _, _ => none

/-- `error_func(forecast_series, observation_series, training_series)`; the training series may be
`None`. -/
abbrev ErrorFun (K : Type) :=
  List (Option K) → List (Option K) → Option (List (Option K)) → Except PyErr (ErrorVal K)

/-- `mase` — spta/util/error.py:6-22, see `Spta.mase` for the divisions; `len(None)` raises TypeError
after the subtraction of line 15. -/
def maseFun : ErrorFun K := fun forecast observation training =>
  match broadcastOp (liftOp (· - ·)) forecast observation with
  | .error e => .error e
  | .ok et =>
    match training with
    | none => .error .typeError
    | some t =>
      if t.length = 1 then .error .zeroDivisionError
      else
        let scale := floatDiv (sumSteps t) (some ((t.length : K) - 1))
        .ok (errorMean (et.map fun e => absDiv e scale))

/-- `smape` — spta/util/error.py:25-36. -/
def smapeFun : ErrorFun K := fun forecast observation _ =>
  match broadcastOp (liftOp (· - ·)) forecast observation,
      broadcastOp (liftOp (· + ·)) forecast observation with
  | .ok et, .ok total => .ok (errorMean (List.zipWith percentDiv (et.map floatAbs) total))
  | .error e, _ => .error e
  | _, .error e => .error e

/-- `mse` — spta/util/error.py:39-46: no division by 0. -/
def mseFun : ErrorFun K := fun forecast observation _ =>
  match mse forecast observation with
  | .error e => .error e
  | .ok v => .ok (toErrorVal v)

/-- `get_error_func(error_type)` — spta/model/error.py:16-35. -/
def getErrorFunc (errorType : String) : Except PyErr (ErrorFun K) :=
  if errorType = "MASE" then .ok maseFun
  else if errorType = "sMAPE" then .ok smapeFun
  else if errorType = "MSE" then .ok mseFun
  else .error .valueError

/-- `get_overall_error_func(error_type)` — spta/model/error.py:328-377. Each of the three functions of the table calls
`overall_error_generic` with the error function of the name that is written in it; the model gives that error function. -/
def getOverallErrorFunc (errorType : String) : Except PyErr (ErrorFun K) :=
  if errorType = "MASE" then getErrorFunc "MASE"
  else if errorType = "sMAPE" then getErrorFunc "sMAPE"
  else if errorType = "MSE" then getErrorFunc "MSE"
  else .error .valueError

/-! ### Errors over a region -/

/-- `region.series_at(point)` for a region that may be `None` — spta/model/error.py:129-131. -/
def optSeriesAt (s : Option (Stack K)) (p : Point) : Except PyErr (Option (List (Option K))) :=
  match s with
  | none => .ok none
  | some s =>
    match s.seriesAt p with
    | .error e => .error e
    | .ok v => .ok (some v)

/-- `function_at(point)(forecast_series)` of `MeasureForecastingError` — spta/model/error.py:116-140. -/
def errorAt (f : ErrorFun K) (observation : Stack K) (training : Option (Stack K)) (p : Point)
    (forecast : List (Option K)) : Except PyErr (ErrorVal K) :=
  match observation.seriesAt p with
  | .error e => .error e
  | .ok o =>
    match optSeriesAt training p with
    | .error e => .error e
    | .ok t => f forecast o t

/-- The observation and training regions that `MeasureForecastingError` keeps: descaled if the
observation is scaled; `None.descale()` raises AttributeError — spta/model/error.py:102-111. -/
def prepareRegions (observation : Stack K) (training : Option (Stack K)) :
    Except PyErr (Stack K × Option (Stack K)) :=
  if observation.hasScaling then
    match observation.descale with
    | .error e => .error e
    | .ok o =>
      match training with
      | none => .error .attributeError
      | some t =>
        match t.descale with
        | .error e => .error e
        | .ok t' => .ok (o, some t')
  else .ok (observation, training)

/-- `MeasureForecastingError(f, observation, training).apply_to(forecast_region)`
— spta/model/error.py:78-155 with spta/region/spatial.py:46-47 for the shapes. -/
def measureError (f : ErrorFun K) (observation : Stack K) (training : Option (Stack K))
    (forecast : Stack K) : Except PyErr (SpStack (ErrorVal K)) :=
  match prepareRegions observation training with
  | .error e => .error e
  | .ok regions =>
    match (if forecast.hasScaling then forecast.descale else .ok forecast) with
    | .error e => .error e
    | .ok fc =>
      fc.applyObjects observation.data.grid.xLen observation.data.grid.yLen
        (errorAt f regions.1 regions.2) (some 0)

/-- `root_mean_squared(array)` of error values — spta/util/arrays.py:98-110. -/
def errorRms (root : K → K) (l : List (ErrorVal K)) : ErrorVal K :=
  (errorMean ((l.map errorSquare).filter (·.isSome))).map fun t => t.map root

/-- `ErrorRegion.overall_error` with the default `root_mean_squared` — spta/model/error.py:54-68. -/
def overallError (root : K → K) (errors : SpStack (ErrorVal K)) : Except PyErr (ErrorVal K) :=
  match errors.items with
  | .error e => .error e
  | .ok items => .ok (errorRms root (items.map Prod.snd))

/-- `ErrorAnalysis.with_repeated_forecast` with the error function instead of its name
— spta/model/error.py:287-312. -/
def repeatedForecastError (f : ErrorFun K) (observation : Stack K) (training : Option (Stack K))
    (series : List (Option K)) : Except PyErr (SpStack (ErrorVal K)) :=
  match observation.repeatSeries series with
  | .error e => .error e
  | .ok repeated => measureError f observation training repeated

/-- `overall_error_generic` — spta/model/error.py:380-403. -/
def overallErrorGeneric (root : K → K) (f : ErrorFun K) (observation : Stack K)
    (training : Option (Stack K)) (series : List (Option K)) : Except PyErr (ErrorVal K) :=
  if series.all (·.isNone) then .ok none
  else
    match repeatedForecastError f observation training series with
    | .error e => .error e
    | .ok errors => overallError root errors

/-- `OverallErrorForEachForecast.apply_to(forecast_region)` without workers
— spta/model/error.py:158-242. -/
def overallEach (root : K → K) (f : ErrorFun K) (observation : Stack K) (training : Option (Stack K))
    (forecast : Stack K) : Except PyErr (SpStack (ErrorVal K)) :=
  forecast.applyObjects observation.data.grid.xLen observation.data.grid.yLen
    (fun _ series => overallErrorGeneric root f observation training series) (some 0)

/-- One task of the pool: the error of one point, written to the shared array under its lock
— spta/model/error_parallel.py:44-82. -/
def errorTask (g : List (Option K) → Except PyErr (ErrorVal K)) (forecast : Stack K)
    (out : Grid (ErrorVal K)) (p : Point) : Except PyErr (Grid (ErrorVal K)) :=
  match forecast.seriesAt p with
  | .error e => .error e
  | .ok series =>
    match g series with
    | .error e => .error e
    | .ok v => out.set p v

/-- `ParallelForecastError.operate` when the workers finish the points in the order `order`
— spta/model/error_parallel.py:117-154: the shared array is initialised with zeros. -/
def overallEachParallel (root : K → K) (f : ErrorFun K) (observation : Stack K)
    (training : Option (Stack K)) (forecast : Stack K) (order : List Point) :
    Except PyErr (SpStack (ErrorVal K)) :=
  match order.foldlM (errorTask (overallErrorGeneric root f observation training)
      forecast) (Grid.const forecast.data.grid.xLen forecast.data.grid.yLen (some 0)) with
  | .error e => .error e
  | .ok g => .ok (forecast.newSpatial g)

/-! ### Forecast analysis -/

/-- The spatio-temporal region that a spatial region creates for a dataset
— spta/region/spatial.py:24-30, 332-344. -/
def SpStack.newTemporal {V : Type} : SpStack V → Cube (Option K) → Stack K
  | .plain _, c => .plain c
  | .cluster inner part i, c => .cluster (inner.newTemporal c) part i

/-- `model_region.apply_to(domain, output_len)` for any spatial domain — spta/model/base.py:51-56,
spta/region/spatial.py:67-95. -/
def applyModelsTo {M V : Type} (forecast : M → Nat → Except PyErr (List (Option K)))
    (models : Grid (Option M)) (n : Nat) (domain : SpStack V) : Except PyErr (Stack K) :=
  if domain.data.xLen = models.xLen ∧ domain.data.yLen = models.yLen then
    match domain.items with
    | .error e => .error e
    | .ok items =>
      match applyWith (fun p _ => forecastAt forecast n models p) items
          (Grid.const domain.data.xLen domain.data.yLen (List.replicate n (some 0))) with
      | .error e => .error e
      | .ok g => .ok (domain.newTemporal ⟨n, g⟩)
  else .error .assertionError

/-- What `train_models` remembers — spta/model/forecast.py:41-64. -/
structure Trained (K M : Type) where
  spt : Stack K
  training : Stack K
  test : Stack K
  testLen : Nat

/-- The state of a `ForecastAnalysis` — spta/model/forecast.py:28-39: `trained` is `none` before the
first call of `train_models`. -/
structure Analysis (K M : Type) where
  trained : Option (Trained K M)
  models : Option (Grid (Option M))
  each : Option (Stack K)

/-- `ForecastAnalysis(trainer)` -/
def Analysis.new (K M : Type) : Analysis K M := ⟨none, none, none⟩

/-- `train_models(spt_region, test_len)` — spta/model/forecast.py:41-64. The regions are assigned
before the trainer is called; `forecast_region_each` is left as it is. `train` is
`trainer.apply_to`. -/
def Analysis.trainModels {M : Type} (a : Analysis K M) (train : Stack K → Except PyErr (Grid (Option M)))
    (s : Stack K) (testLen : Nat) : Except PyErr (Grid (Option M)) × Analysis K M :=
  let a1 := { a with trained := some ⟨s, (splitLast s testLen).1, (splitLast s testLen).2, testLen⟩ }
  match train (splitLast s testLen).1 with
  | .error e => (.error e, a1)
  | .ok models => (.ok models, { a1 with models := some models })

/-- `check_forecast_request(forecast_len)` — spta/model/forecast.py:344-358: `self.test_len` does not
exist before `train_models`. Gives the regions and models that the callers use. -/
def Analysis.check {M : Type} (a : Analysis K M) (forecastLen : Nat) :
    Except PyErr (Trained K M × Grid (Option M)) :=
  match a.trained with
  | none => .error .attributeError
  | some t =>
    if forecastLen = t.testLen then
      match a.models with
      | none => .error .valueError
      | some m => .ok (t, m)
    else .error .assertionError

/-- The forecast region of `forecast_at_each_point` — spta/model/forecast.py:78-99; `junk` is the
content of `np.empty`. -/
def forecastEach {M : Type} (forecast : M → Nat → Except PyErr (List (Option K))) (junk : Option K)
    (t : Trained K M) (models : Grid (Option M)) (n : Nat) : Except PyErr (Stack K) :=
  let empty := t.training.newSpatial (Grid.const t.training.data.grid.xLen t.training.data.grid.yLen junk)
  match applyModelsTo forecast models n empty with
  | .error e => .error e
  | .ok f => .ok (if t.spt.hasScaling then t.spt.new f.data else f)

/-- `forecast_at_each_point(forecast_len, error_type)` — spta/model/forecast.py:66-107. -/
def Analysis.forecastAtEach {M : Type} (a : Analysis K M)
    (forecast : M → Nat → Except PyErr (List (Option K))) (junk : Option K) (forecastLen : Nat)
    (errorType : String) : Except PyErr (Stack K × SpStack (ErrorVal K)) × Analysis K M :=
  match a.check forecastLen with
  | .error e => (.error e, a)
  | .ok (t, models) =>
    match forecastEach forecast junk t models forecastLen with
    | .error e => (.error e, a)
    | .ok region =>
      let a' := { a with each := some region }
      match getErrorFunc errorType with
      | .error e => (.error e, a')
      | .ok f =>
        match measureError f t.test (some t.training) region with
        | .error e => (.error e, a')
        | .ok errors => (.ok (region, errors), a')

/-- The forecast region used by the whole-region forecasts: the saved one, or a new one
— spta/model/forecast.py:129-135, 158-164. -/
def Analysis.reuse {M : Type} (a : Analysis K M) (forecast : M → Nat → Except PyErr (List (Option K)))
    (junk : Option K) (forecastLen : Nat) (errorType : String) :
    Except PyErr (Stack K) × Analysis K M :=
  match a.each with
  | some region => (.ok region, a)
  | none =>
    match a.forecastAtEach forecast junk forecastLen errorType with
    | (.error e, a') => (.error e, a')
    | (.ok (region, _), a') => (.ok region, a')

/-- `forecast_whole_region_with_single_model(point, forecast_len, error_type)`
— spta/model/forecast.py:109-142. -/
def Analysis.withSingleModel {M : Type} (a : Analysis K M)
    (forecast : M → Nat → Except PyErr (List (Option K))) (junk : Option K) (p : Point)
    (forecastLen : Nat) (errorType : String) : Except PyErr (SpStack (ErrorVal K)) × Analysis K M :=
  match a.check forecastLen with
  | .error e => (.error e, a)
  | .ok (t, _) =>
    match a.reuse forecast junk forecastLen errorType with
    | (.error e, a') => (.error e, a')
    | (.ok region, a') =>
      match region.seriesAt p with
      | .error e => (.error e, a')
      | .ok series =>
        match getErrorFunc errorType with
        | .error e => (.error e, a')
        | .ok f => (repeatedForecastError f t.test (some t.training) series, a')

/-- `forecast_whole_region_with_all_models(forecast_len, error_type)`
— spta/model/forecast.py:144-170, without workers, with spta/model/error.py:314-325. -/
def Analysis.withAllModels {M : Type} (root : K → K) (a : Analysis K M)
    (forecast : M → Nat → Except PyErr (List (Option K))) (junk : Option K)
    (forecastLen : Nat) (errorType : String) : Except PyErr (SpStack (ErrorVal K)) × Analysis K M :=
  match a.check forecastLen with
  | .error e => (.error e, a)
  | .ok (t, _) =>
    match a.reuse forecast junk forecastLen errorType with
    | (.error e, a') => (.error e, a')
    | (.ok region, a') =>
      match getOverallErrorFunc errorType with
      | .error e => (.error e, a')
      | .ok f => (overallEach root f t.test (some t.training) region, a')

/-- `value_at(point)` for a point that may be `None`: NaN — spta/region/spatial.py:134-139, 353-360
(the error region asks the region it decorates, lines 252-253). -/
def SpStack.valueAtOpt (s : SpStack (ErrorVal K)) (p : Option Point) : Except PyErr (ErrorVal K) :=
  match p with
  | none => .ok none
  | some p => s.valueAt p

/-- `ForecastErrors` — spta/model/forecast.py:11. The maximum is `-inf` (`⊥`) when every value is
NaN. -/
structure ForecastErrors (K : Type) where
  each : ErrorVal K
  minimum : WithTop K
  minLocal : ErrorVal K
  centroid : ErrorVal K
  maximum : WithBot (WithTop K)
  deriving DecidableEq

/-- `find_minimum()` — spta/region/spatial.py:141-157. -/
def SpStack.findMin (s : SpStack (ErrorVal K)) : Except PyErr (Option Point × WithTop K) :=
  match s.items with
  | .error e => .error e
  | .ok items => .ok (strictBest (· < ·) items (none, ⊤))

/-- `find_maximum()` — spta/region/spatial.py:159-175. -/
def SpStack.findMax (s : SpStack (ErrorVal K)) : Except PyErr (Option Point × WithBot (WithTop K)) :=
  match s.items with
  | .error e => .error e
  | .ok items => .ok (strictBest (V := WithBot (WithTop K)) (· > ·)
      (items.map fun it => (it.1, it.2.map WithBot.some)) (none, ⊥))

/-- The last part of `analyze_errors` — spta/model/forecast.py:232-280. `spt_region.has_centroid` is a
bound method there, hence true: the centroid may be `None`. -/
def gatherErrors (each : ErrorVal K) (errorsEach overall : SpStack (ErrorVal K))
    (centroid : Option Point) : Except PyErr (ForecastErrors K) :=
  match overall.findMin with
  | .error e => .error e
  | .ok (_, minimum) =>
    match errorsEach.findMin with
    | .error e => .error e
    | .ok (pLocal, _) =>
      match overall.valueAtOpt pLocal with
      | .error e => .error e
      | .ok minLocal =>
        match overall.valueAtOpt centroid with
        | .error e => .error e
        | .ok atCentroid =>
          match overall.findMax with
          | .error e => .error e
          | .ok (_, maximum) => .ok ⟨each, minimum, minLocal, atCentroid, maximum⟩

/-- `analyze_errors(spt_region, error_type, forecast_len)` — spta/model/forecast.py:172-280;
`centroid` is `spt_region.centroid`. -/
def Analysis.analyze {M : Type} (root : K → K) (a : Analysis K M)
    (train : Stack K → Except PyErr (Grid (Option M)))
    (forecast : M → Nat → Except PyErr (List (Option K))) (junk : Option K) (s : Stack K)
    (centroid : Option Point) (errorType : String) (forecastLen : Nat) :
    Except PyErr (ForecastErrors K) × Analysis K M :=
  match a.trainModels train s forecastLen with
  | (.error e, a1) => (.error e, a1)
  | (.ok _, a1) =>
    match a1.forecastAtEach forecast junk forecastLen errorType with
    | (.error e, a2) => (.error e, a2)
    | (.ok (_, errorsEach), a2) =>
      match overallError root errorsEach with
      | .error e => (.error e, a2)
      | .ok each =>
        match errorsEach.valueAtOpt centroid with
        | .error e => (.error e, a2)
        | .ok _ =>
          match a2.withAllModels root forecast junk forecastLen errorType with
          | (.error e, a3) => (.error e, a3)
          | (.ok overall, a3) => (gatherErrors each errorsEach overall centroid, a3)

end Spta
