import Verif.Model.Train
import Verif.Model.ErrorVal

/-!
# Model of the predictions of a solver

spta/solver/model.py. Plots and file names are not modelled.
-/

namespace Spta

variable {K : Type} [Field K] [LinearOrder K]

/-- The data of a `SolverWithMedoids` used by `predict`: the two replicated model regions, the
generalization errors, the number of test samples, the flag `region_metadata.scaled` and the region
`region_metadata.create_instance()` — spta/solver/model.py:24-43, 142. -/
structure Solver (K M : Type) where
  training : Grid (Option M)
  whole : Grid (Option M)
  errors : SpStack (ErrorVal K)
  testLen : Nat
  scaled : Bool
  spt : Stack K

/-- `scale_min` and `scale_max` of a region: only `SpatioTemporalScaled` has these attributes
— spta/region/scaling.py:107-118. -/
def Stack.scaleData : Stack K → Except PyErr (SpStack (Option K) × SpStack (Option K))
  | .scaled _ smin smax => .ok (smin, smax)
  | _ => .error .attributeError

/-- `model_region.apply_to(domain, output_len)` for a spatial domain — spta/model/base.py:51-56,
spta/region/function.py:93-110, spta/region/spatial.py:67-95. The result is plain when the domain is;
domains that are clusters do not occur here (region_subset of a cluster raises). -/
def applyModels {M : Type} (forecast : M → Nat → Except PyErr (List (Option K)))
    (models : Grid (Option M)) (n : Nat) (domain : SpStack (ErrorVal K)) : Except PyErr (Stack K) :=
  if domain.data.xLen = models.xLen ∧ domain.data.yLen = models.yLen then
    match domain.items with
    | .error e => .error e
    | .ok items =>
      match applyWith (fun p _ => forecastAt forecast n models p) items
          (Grid.const domain.data.xLen domain.data.yLen (List.replicate n (some 0))) with
      | .error e => .error e
      | .ok g => .ok (.plain ⟨n, g⟩)
  else .error .assertionError

/-- The result of a query: forecast, test data (in-sample only) and error of each point of the
prediction region. -/
structure Prediction (K : Type) where
  forecast : Stack K
  test : Option (Stack K)
  errors : SpStack (ErrorVal K)

/-- The test region prepared for predictions — spta/solver/model.py:133-150. -/
def Solver.testRegion {M : Type} (sv : Solver K M) : Except PyErr (Stack K) :=
  let test := (splitLast sv.spt sv.testLen).2
  if test.hasScaling then test.descale else .ok test

/-- The manual descaling of the forecast — spta/solver/model.py:101-113. -/
def Solver.descaleForecast {M : Type} (sv : Solver K M) (r : Region) (forecast : Stack K) :
    Except PyErr (Stack K) :=
  if sv.scaled then
    match sv.spt.regionSubset r with
    | .error e => .error e
    | .ok sub =>
      match sub.scaleData with
      | .error e => .error e
      | .ok scale => (Stack.scaled forecast scale.1 scale.2).descale
  else .ok forecast

/-- `predict(prediction_region, forecast_len)` — spta/solver/model.py:45-131 up to the construction
of the result object. -/
def Solver.predict {M : Type} (sv : Solver K M) (forecast : M → Nat → Except PyErr (List (Option K)))
    (r : Region) (forecastLen : Int) : Except PyErr (Prediction K) :=
  match sv.testRegion with
  | .error e => .error e
  | .ok testRegion =>
    match sv.errors.regionSubset r with
    | .error e => .error e
    | .ok errorSub =>
      if 0 < forecastLen then
        match applyModels forecast (sv.whole.slice r) forecastLen.toNat errorSub with
        | .error e => .error e
        | .ok f =>
          match sv.descaleForecast r f with
          | .error e => .error e
          | .ok f' => .ok ⟨f', none, errorSub⟩
      else
        match testRegion.regionSubset r with
        | .error e => .error e
        | .ok testSub =>
          match applyModels forecast (sv.training.slice r) sv.testLen errorSub with
          | .error e => .error e
          | .ok f =>
            match sv.descaleForecast r f with
            | .error e => .error e
            | .ok f' => .ok ⟨f', some testSub, errorSub⟩

end Spta
