import Verif.Spec.MedoidErrors
import Verif.Spec.Arima
import Verif.Spec.Classifier
import Verif.Model.TrainingErrors

/-!
# Specification of the experiments on the errors of ARIMA models in clusters
-/

namespace Spta

variable {K A M : Type} [Field K] [LinearOrder K]

/-- A region with a partition into `pt.k` clusters with one medoid each, long enough to leave `n` samples for the
test of models that are measured with `f`. -/
structure ErrorSetup (scaled : Bool) (s : Stack K) (n : Nat) (pt : Partition) (medoids : List Point)
    (errorType : String) (f : ErrorFun K) : Prop where
  created : CreatedRegion scaled s
  enough : n ≤ s.data.tLen
  func : getErrorFunc errorType = .ok f
  mase : errorType = "MASE" → s.data.tLen ≠ n + 1
  labels : pt.labels.WF
  shape : pt.labels.xLen = s.data.grid.xLen ∧ pt.labels.yLen = s.data.grid.yLen
  count : medoids.length = pt.k
  member : ∀ (i : Nat) m, medoids[i]? = some m → pt.labels.get m = .ok i

/-- `past` is the series of `p` without the last `n` samples. -/
def PastOf (s : Stack K) (n : Nat) (p : Point) (past : List (Option K)) : Prop :=
  ∃ future, s.seriesAt p = .ok (past ++ future) ∧ future.length = n

/-- What plots need: a model at each medoid, and the distances. -/
def CanPlot (mat : Grid (Option K)) (s : Stack K) (pt : Partition) (medoids : List Point)
    (want : List (Option K) → Option M) : Prop :=
  (∀ (i : Nat) m past, medoids[i]? = some m → PastOf s 8 m past → want past ≠ none) ∧
  ∀ (i : Nat) m p, medoids[i]? = some m → pt.labels.get p = .ok i →
    ∃ d, mat.get ⟨m.x * s.data.grid.yLen + m.y, p.x * s.data.grid.yLen + p.y⟩ = .ok d

/-- What is reported for the cluster `i`, when `want past` is the model for a series: the number of points, the
number of points without model, and the errors of the models inside of the cluster. -/
structure ClusterReport (forecast : M → Nat → Except PyErr (List (Option K))) (f : ErrorFun K) (s : Stack K)
    (n : Nat) (pt : Partition) (want : List (Option K) → Option M) (i : Nat) (medoid : Point)
    (size failed : Nat) (errors : ForecastErrors K) : Prop where
  size : ∃ points : List Point, points.Nodup ∧ (∀ p, p ∈ points ↔ pt.labels.get p = .ok i) ∧
    size = points.length
  failed : ∃ points : List Point, points.Nodup ∧ failed = points.length ∧
    ∀ p, p ∈ points ↔ pt.labels.get p = .ok i ∧ ∃ past, PastOf s n p past ∧ want past = none
  errors : ∃ (predicted : Point → List (Option K)) (own whole : List (Point × ErrorVal K)),
    (∀ p past, pt.labels.get p = .ok i → PastOf s n p past →
      RawForecast forecast n (want past) (predicted p)) ∧
    ErrorsOf f (.cluster s pt i) n predicted own ∧ WholeErrors f (.cluster s pt i) n predicted whole ∧
    Reports own whole (some medoid) errors

/-- The data of a plot for the cluster `i`: one entry for each of its points in both lists, with the distance
to the medoid and the error of the forecast made with the data of the medoid. -/
structure PlotOf (forecast : M → Nat → Except PyErr (List (Option K))) (f : ErrorFun K) (s : Stack K)
    (n : Nat) (pt : Partition) (want : List (Option K) → Option M) (i : Nat) (medoid : Point)
    (distance : Point → Option K) (distances : List (Option K)) (errors : List (ErrorVal K)) : Prop where
  body : ∃ points : List Point, points.Nodup ∧ (∀ p, p ∈ points ↔ pt.labels.get p = .ok i) ∧
    distances = points.map distance ∧ errors.length = points.length ∧
    ∀ (j : Nat) p e, points[j]? = some p → errors[j]? = some e → ∃ past raw shown test,
      PastOf s n medoid past ∧ RawForecast forecast n (want past) raw ∧ InUnits s p raw shown ∧
      ErrorOf f s n p shown test e

/-- The cell of a row in the column with a given name. -/
def cellAt (header cells : List Str) (name : Str) : Option Str :=
  ((header.zip cells).find? fun hc => hc.1 == name).map Prod.snd

end Spta
