import Mathlib.Algebra.Field.Defs
import Mathlib.Algebra.Order.Ring.Defs
import Verif.Model.Basic

/-!
# Model of spta/arima/optimize.py

`oapackage.ParetoDoubleLong` is a parameter: a function from the points that were added to the indices that
`allindices()` returns. Numbers are exact; division by zero and NaN (of models that could not be trained) are
not modelled. Plots are dropped; what is logged is the result.
-/

namespace Spta

/-- A row of the results: the ARIMA parameters, then computation time and prediction error
— spta/arima/performance.py:54, spta/arima/optimize.py:22-23. -/
structure PerfRow (B K : Type) where
  params : B
  time : K
  error : K
  deriving DecidableEq

/-- What is logged for one value of gamma — spta/arima/optimize.py:101-118: the factors, the cost of each
model, the best models and "their" cost. -/
structure SweepEntry (B K : Type) where
  alpha : K
  beta : K
  costs : List (PerfRow B K × K)
  best : List (PerfRow B K)
  bestCost : K
  deriving DecidableEq

section

variable {B K : Type} [Field K] [LinearOrder K]

/-- `find_best_models(results_data)` — spta/arima/optimize.py:13-69; `pareto` stands for adding the points with
indices 0, 1, ... and `allindices()`. -/
def findBestModels (pareto : List (K × K) → List Nat) (rows : List (PerfRow B K)) :
    Except PyErr (List (PerfRow B K)) :=
  (pareto (rows.map fun r => (1 / r.time, 1 / r.error))).mapM fun i =>
    match rows[i]? with
    | some r => .ok r
    | none => .error .indexError

/-- `np.max` of a column; ValueError when it is empty. -/
def maxOf : List K → Except PyErr K
  | [] => .error .valueError
  | x :: xs => .ok (xs.foldl max x)

/-- `np.min` of a column; ValueError when it is empty. -/
def minOf : List K → Except PyErr K
  | [] => .error .valueError
  | x :: xs => .ok (xs.foldl min x)

/-- One step of `sweep_cost_factors` — spta/arima/optimize.py:101-118. The variable `cost` of line 118 is still
that of the last model (UnboundLocalError cannot happen: without models `np.max` has failed before). -/
def sweepStep (rows : List (PerfRow B K)) (maxTime maxError gamma : K) : Except PyErr (SweepEntry B K) :=
  let costs := rows.map fun r => gamma * (r.time / maxTime) + (1 - gamma) * (r.error / maxError)
  match minOf costs with
  | .error e => .error e
  | .ok low =>
    match costs.getLast? with
    | none => .error .unboundLocalError
    | some cost => .ok ⟨gamma / maxTime, (1 - gamma) / maxError, rows.zip costs,
        (rows.zip costs).filterMap fun rc => if rc.2 = low then some rc.1 else none, cost⟩

/-- `sweep_cost_factors(optimal_results)` — spta/arima/optimize.py:84-118 with `scale_perf_values` (72-81) and
`COST_STEPS = 10`. -/
def sweepCostFactors (rows : List (PerfRow B K)) : Except PyErr (List (SweepEntry B K)) :=
  match maxOf (rows.map PerfRow.time) with
  | .error e => .error e
  | .ok maxTime =>
    match maxOf (rows.map PerfRow.error) with
    | .error e => .error e
    | .ok maxError => (List.range 10).mapM fun step : Nat => sweepStep rows maxTime maxError ((step : K) / 10)

end

end Spta
