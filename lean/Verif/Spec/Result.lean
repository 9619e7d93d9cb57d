import Verif.Model.Result
import Verif.Spec.ErrorVal

/-!
# Specifications for the results of prediction queries
-/

namespace Spta

variable {K : Type} [Field K] [LinearOrder K]

/-- The partitions that a result was decorated with. -/
def Result.partitions : Result K → List Partition
  | .inSample _ _ => []
  | .outOfSample _ => []
  | .withPartition d pt _ _ => pt :: d.partitions
  | .fromClassifier d _ _ => d.partitions

/-- The classifier labels that a result was decorated with. -/
def Result.labelings : Result K → List (List (Point × Str))
  | .inSample _ _ => []
  | .outOfSample _ => []
  | .withPartition d _ _ _ => d.labelings
  | .fromClassifier d _ labels => labels :: d.labelings

/-- The test region of an in-sample result. -/
def Result.testRegion : Result K → Option (Stack K)
  | .inSample _ test => some test
  | .outOfSample _ => none
  | .withPartition d _ _ _ => d.testRegion
  | .fromClassifier d _ _ => d.testRegion

/-- A result whose parts fit together: forecasts, errors and test series have one entry per point of
the prediction region, every partition covers the prediction region, and every labelling has a label
for each of its points. -/
structure Result.Fits (r : Result K) (forecast : Cube (Option K)) (errors : Grid (ErrorVal K)) : Prop where
  forecastIs : r.base.forecast = .plain forecast
  errorsIs : r.base.errors = .plain errors
  forecastWF : forecast.WF
  errorsWF : errors.WF
  forecastShape : forecast.grid.xLen = r.base.prediction.x2 - r.base.prediction.x1 ∧
    forecast.grid.yLen = r.base.prediction.y2 - r.base.prediction.y1
  errorsShape : errors.xLen = r.base.prediction.x2 - r.base.prediction.x1 ∧
    errors.yLen = r.base.prediction.y2 - r.base.prediction.y1
  test : ∀ t, r.testRegion = some t → ∃ c : Cube (Option K), t = .plain c ∧ c.WF ∧
    c.grid.xLen = r.base.prediction.x2 - r.base.prediction.x1 ∧
    c.grid.yLen = r.base.prediction.y2 - r.base.prediction.y1
  parts : ∀ pt ∈ r.partitions, pt.labels.WF ∧ r.base.prediction.x2 ≤ pt.labels.xLen ∧
    r.base.prediction.y2 ≤ pt.labels.yLen
  labels : ∀ ls ∈ r.labelings, ∀ x y : Nat, x < r.base.prediction.x2 - r.base.prediction.x1 →
    y < r.base.prediction.y2 - r.base.prediction.y1 → ∃ l, ((⟨x, y⟩ : Point), l) ∈ ls

/-- The meaning of the columns of the output, for the point `p` of the prediction region (with (0, 0)
at its corner): what stands under each name. -/
inductive ColumnOK (r : Result K) (p : Point) : String → Cell K → Prop
  | point : ColumnOK r p "Point" (.coords
      ⟨p.x + r.base.prediction.x1 + r.base.mdRegion.x1, p.y + r.base.prediction.y1 + r.base.mdRegion.y1⟩)
  | error (v : ErrorVal K) (h : r.base.errors.valueAt p = .ok v) : ColumnOK r p "error" (.errorValue v)
  | forecast (s : List (Option K)) (h : r.base.forecast.seriesAt p = .ok s) :
      ColumnOK r p "forecast_series" (.series s)
  | test (t : Stack K) (s : List (Option K)) (ht : r.testRegion = some t) (h : t.seriesAt p = .ok s) :
      ColumnOK r p "test_series" (.series s)
  | cluster (pt : Partition) (i : Nat) (hpt : pt ∈ r.partitions)
      (h : pt.labels.get ⟨p.x + r.base.prediction.x1, p.y + r.base.prediction.y1⟩ = .ok i) :
      ColumnOK r p "cluster_index" (.index i)
  | label (ls : List (Point × Str)) (l : Str) (hls : ls ∈ r.labelings) (h : (p, l) ∈ ls) :
      ColumnOK r p "label" (.text l)

/-- The mean of the squares of the numbers in a list, NaN ignored; NaN if there are none. -/
def meanOfSquares (l : List (Option K)) : Option K :=
  if l.filterMap id = [] then none
  else some (((l.filterMap id).map fun x => x * x).sum / ((l.filterMap id).length : K))

/-- The mean of the squares of errors, NaN ignored: infinite if one of the errors is. -/
def meanOfSquaredErrors (l : List (ErrorVal K)) : ErrorVal K :=
  if some ⊤ ∈ l then some ⊤ else (meanOfSquares (l.map numberOf)).map WithTop.some

/-- The clusterings behind a result, outermost first. -/
def Result.clusterings : Result K → List ClusterMeta
  | .inSample _ _ => []
  | .outOfSample _ => []
  | .withPartition d _ _ cl => cl :: d.clusterings
  | .fromClassifier d _ _ => d.clusterings

/-- The suites behind a result, outermost first. -/
def Result.suites : Result K → List Str
  | .inSample _ _ => []
  | .outOfSample _ => []
  | .withPartition d _ _ _ => d.suites
  | .fromClassifier d s _ => s :: d.suites

/-- What the summary may show under a name: the parameters of the clustering, the number of different clusters in the
prediction region, a distance, the number of test samples, the mean of the squares of the errors, the suite. -/
inductive SummaryOK (r : Result K) : String → Cell K → Prop
  | kmedoids (m : KmMeta) (h : .kmedoids m ∈ r.clusterings) : SummaryOK r "type" (.text "kmedoids".toList)
  | regular (k : Int) (h : .regular k ∈ r.clusterings) : SummaryOK r "type" (.text "regular".toList)
  | k (cl : ClusterMeta) (h : cl ∈ r.clusterings) (k : Int)
      (hk : cl = .regular k ∨ ∃ m : KmMeta, cl = .kmedoids m ∧ k = m.k) : SummaryOK r "k" (.index k)
  | seed (m : KmMeta) (h : .kmedoids m ∈ r.clusterings) : SummaryOK r "seed" (.index m.seed)
  | mode (m : KmMeta) (h : .kmedoids m ∈ r.clusterings) : SummaryOK r "mode" (.text m.mode)
  | clusters (pt : Partition) (hpt : pt ∈ r.partitions) (ls : List Nat)
      (h : pt.clustersIntersecting r.base.prediction = .ok ls) : SummaryOK r "clusters" (.index ls.length)
  | distance (v : Option K) : SummaryOK r "dtw_r_m" (.number v)
  | testLen : SummaryOK r "tp" (.index r.base.testLen)
  | mse (errs : List (ErrorVal K)) (h : List.Forall₂ (fun p e => r.base.errors.valueAt p = .ok e) r.points errs) :
      SummaryOK r "mse" (.errorValue (meanOfSquaredErrors errs))
  | suite (s : Str) (h : s ∈ r.suites) : SummaryOK r "suite" (.text s)

/-- The regions that `create_instance` makes: plain, or scaled with the scaling data of each point
(spta/region/metadata.py:137-166). -/
def IsDomain (s : Stack K) (cube : Cube (Option K)) : Prop :=
  s = .plain cube ∨ ∃ gmin gmax, s = .scaled (.plain cube) (.plain gmin) (.plain gmax)

end Spta
