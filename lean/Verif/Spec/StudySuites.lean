import Verif.Model.StudySuites
import Verif.Spec.ErrorSuites
import Verif.Spec.TrainingErrors
import Verif.Spec.PartitionAnalysis
import Verif.Spec.SuiteFiles

/-!
# Specification of the other programs that work on suites of clusterings (C144)
-/

namespace Spta

variable {K : Type} [Field K] [LinearOrder K] {P Q M A L : Type}

/-! ### Arguments -/

/-- The arguments that the programs with tables accept; the name of a suite of orders is a file name. -/
def TableArgs.Accepted (regions : List RegionMeta) (a : TableArgs) : Prop :=
  a.region ∈ regions ∧ a.errorType ∈ ["MASE".toList, "sMAPE".toList, "MSE".toList] ∧
    (∀ c ∈ a.suite, PlainClustering c) ∧ ∀ name orders, a.kind = .orders name orders → '/' ∉ name

/-- A region of the catalogue and a suite of clusterings. -/
def SuiteAccepted (regions : List RegionMeta) (md : RegionMeta) (suite : List ClusterMeta) : Prop :=
  md ∈ regions ∧ ∀ c ∈ suite, PlainClustering c

/-- The arguments that the programs accept. -/
def StudyRun.Accepted (regions : List RegionMeta) : StudyRun → Prop
  | .lab r => r.Accepted regions
  | .table a => a.Accepted regions
  | .analysis a => SuiteAccepted regions a.region a.suite
  | .medoids md suite => SuiteAccepted regions md suite
  | .elbows md suite => SuiteAccepted regions md suite

/-- The arguments of a run that trains a solver. -/
def StudyRun.trains : StudyRun → Option SolverArgs
  | .lab r => r.trains
  | _ => none

/-! ### What is needed -/

/-- The region `s` and its distances can be loaded; the region is not huge. -/
structure StudyReady (w : SolverWorld K P Q M) (tools : ErrorTools K M) (md : RegionMeta) (s : Stack K) : Prop where
  region : w.region md = .ok s
  matrix : w.matrix md = .ok ()
  created : CreatedRegion md.scaled s
  small : s.data.grid.xLen * s.data.grid.yLen < 10 ^ 9
  one : ∀ v, Readable (tools.show1 v)

/-- The clustering gives a partition of the region `s` with as many clusters as asked for and one medoid in each of
them. -/
structure PartitionReady (w : SolverWorld K P Q M) (md : RegionMeta) (s : Stack K) (c : ClusterMeta) (pt : Partition)
    (medoids : List Point) : Prop where
  partition : w.partition md .dtw c = .ok (pt, medoids)
  valid : pt.Valid
  shape : pt.labels.xLen = s.data.grid.xLen ∧ pt.labels.yLen = s.data.grid.yLen
  count : medoids.length = pt.k
  member : ∀ i m, medoids[i]? = some m → pt.labels.get m = .ok i
  clusters : (pt.k : Int) = c.k

/-- The models that are trained, as functions of the training series. -/
def StudyKind.models (st : StudyTools K A L) : StudyKind → List (List (Option K) → Option L)
  | .orders _ os => os.map (pdqModel st.lib)
  | .auto => [autoModel st.lib st.simple]

/-- What the programs with tables need besides: a region with at least 8 samples, the error `f`, and a library that fails
only in the way the code expects, with forecasts of the right length. -/
structure TableReady (st : StudyTools K A L) (a : TableArgs) (s : Stack K) (f : ErrorFun K) : Prop where
  enough : 8 ≤ s.data.tLen
  error : getErrorFunc (String.ofList a.errorType) = .ok f
  mase : String.ofList a.errorType = "MASE" → s.data.tLen ≠ 9
  root : IsRoot st.root
  fit : ∀ o v, Expected (st.lib.fit o v)
  auto : ∀ v, Expected (st.lib.auto st.simple v)
  forecasts : ∀ want ∈ a.kind.models st, ∀ v m, want v = some m → ∃ u, st.forecast m 8 = .ok u ∧ u.length = 8
  small : ∀ v m, autoModel st.lib st.simple v = some m → SmallOrder (st.lib.order m)

/-- The texts of the numbers can be read by the csv module. -/
structure StudyTools.GoodTexts (st : StudyTools K A L) (a : TableArgs) : Prop where
  val : ∀ v, Readable (st.show3.val v)
  min : ∀ v, Readable (st.show3.min v)
  max : ∀ v, Readable (st.show3.max v)
  aic : ∀ v, Readable (st.showAic v)
  time : ∀ c n, Readable (st.time c n).1 ∧ Readable (st.time c n).2
  orders : ∀ name orders, a.kind = .orders name orders → ∀ o ∈ orders,
    o.p.natAbs < 10 ^ 9 ∧ o.d.natAbs < 10 ^ 9 ∧ o.q.natAbs < 10 ^ 9

/-- What the analysis of a suite needs besides: the distances `d`, texts that can be read by the csv module, coordinates
below ten thousand and no more clusters than that. -/
structure AnalysisReady (tools : ErrorTools K M) (st : StudyTools K A L) (a : AnalysisArgs) (s : Stack K)
    (d : Nat → Nat → K) : Prop where
  suite : a.id.Good
  distances : ∀ p q, p < s.data.grid.xLen * s.data.grid.yLen → q < s.data.grid.xLen * s.data.grid.yLen →
    (tools.distances a.region).get ⟨p, q⟩ = .ok (some (d p q))
  cost : ∀ v, Readable (st.showCost v)
  names : ∀ c ∈ a.suite, Readable c.repr ∧ c.k ≤ 10000
  x : a.region.region.x1 + s.data.grid.xLen ≤ 10000
  y : a.region.region.y1 + s.data.grid.yLen ≤ 10000

/-! ### Files -/

/-- The last cells of a row. -/
def errorCells (sh : ShowErrors K) (e : ForecastErrors K) : List Str :=
  [sh.val e.each, sh.min e.minimum, sh.val e.minLocal, sh.val e.centroid, sh.max e.maximum]

/-- The table for a suite of orders: for each cluster and each order, in this order, a row with what is reported. -/
def OrdersText (st : StudyTools K A L) (f : ErrorFun K) (s : Stack K) (c : ClusterMeta) (pt : Partition)
    (medoids : List Point) (orders : List PDQ) (text : Str) : Prop :=
  ∃ rows : List (List Str), csvReadText text = ((["cluster".toList, "size".toList, ['p'], ['d'], ['q'], "failed".toList,
      "t_forecast".toList, "t_elapsed".toList, "error_each".toList, "error_min".toList, "error_min_local".toList,
      "error_medoid".toList, "error_max".toList] :: rows), none) ∧
    rows.length = pt.k * orders.length ∧
    ∀ (i : Nat) m (n : Nat) o, medoids[i]? = some m → orders[n]? = some o → ∃ size failed errors,
      rows[i * orders.length + n]? = some ([natStr i, natStr size, intStr o.p, intStr o.d, intStr o.q, natStr failed,
        (st.time c (i * orders.length + n)).1, (st.time c (i * orders.length + n)).2] ++ errorCells st.show3 errors) ∧
      ClusterReport st.forecast f s 8 pt (pdqModel st.lib o) i m size failed errors

/-- The table of auto-ARIMA: for each cluster a row with what is reported, with order and AIC of the model of the
medoid. -/
def AutoText (st : StudyTools K A L) (f : ErrorFun K) (s : Stack K) (c : ClusterMeta) (pt : Partition)
    (medoids : List Point) (text : Str) : Prop :=
  ∃ rows : List (List Str), csvReadText text = ((["cluster".toList, "size".toList, "p_medoid".toList, "d_medoid".toList,
      "q_medoid".toList, "aic_medoid".toList, "failed".toList, "t_forecast".toList, "t_elapsed".toList,
      "error_each".toList, "error_min".toList, "error_min_local".toList, "error_medoid".toList, "error_max".toList] ::
      rows), none) ∧
    rows.length = pt.k ∧
    ∀ (i : Nat) m, medoids[i]? = some m → ∃ (p d q : Int) (aic : Option K) (size failed : Nat) (errors : ForecastErrors K),
      rows[i]? = some ([natStr i, natStr size, intStr p, intStr d, intStr q, st.showAic aic, natStr failed,
        (st.time c i).1, (st.time c i).2] ++ errorCells st.show3 errors) ∧
      ClusterReport st.forecast f s 8 pt (autoModel st.lib st.simple) i m size failed errors ∧
      ∀ past, PastOf s 8 m past → match autoModel st.lib st.simple past with
        | none => (p, d, q) = (-1, -1, -1) ∧ aic = none
        | some model => (⟨p, d, q⟩ : PDQ) = st.lib.order model ∧ aic = st.lib.aic model

/-- The table of a clustering. -/
def TableText (st : StudyTools K A L) (f : ErrorFun K) (s : Stack K) (c : ClusterMeta) (pt : Partition)
    (medoids : List Point) (kind : StudyKind) (text : Str) : Prop :=
  match kind with
  | .orders _ orders => OrdersText st f s c pt medoids orders text
  | .auto => AutoText st f s c pt medoids text

/-- The paths of the files for a clustering of the suite. -/
def TablePath (a : TableArgs) (c : ClusterMeta) (path : Str) : Prop :=
  path = (a.error.metadata c).reportPath "outputs".toList ∨
    path = ErrorRun.tablePath ⟨a.region, .dtw, c, a.kind.run, a.errorType⟩ "outputs".toList

/-- The files for a clustering of the suite. -/
structure TableFiles (tools : ErrorTools K M) (st : StudyTools K A L) (a : TableArgs) (s : Stack K) (f : ErrorFun K)
    (c : ClusterMeta) (pt : Partition) (medoids : List Point) (files : Str → Option Str) : Prop where
  report : ∃ text, files ((a.error.metadata c).reportPath "outputs".toList) = some text ∧ ReportText tools.show1 pt text
  table : ∃ text, files (ErrorRun.tablePath ⟨a.region, .dtw, c, a.kind.run, a.errorType⟩ "outputs".toList) =
    some text ∧ TableText st f s c pt medoids a.kind text

/-- The file of the distances between medoids: in the row of a cluster, the distances of its medoid from all medoids. -/
def MedoidText (showDistance : Option K → Str) (d : Point → Point → Option K) (medoids : List Point) (text : Str) : Prop :=
  csvReadText text = ((['k'] :: (List.range medoids.length).map natStr) ::
    medoids.mapIdx (fun i p => natStr i :: medoids.map fun q => showDistance (d p q)), none)

/-- The analysis of a suite, with the sums of distances from the medoids of the clusters. -/
def AnalysisText (w : SolverWorld K P Q M) (showCost : Option K → Str) (md : RegionMeta) (s : Stack K)
    (d : Nat → Nat → K) (suite : List ClusterMeta) (text : Str) : Prop :=
  ∃ (total : ClusterMeta → K) (points : ClusterMeta → Str),
    csvReadText text = (["clustering".toList, "total_cost".toList, "medoids".toList] ::
      suite.map (fun c => [c.repr, showCost (some (total c)), points c]), none) ∧
    ∀ c ∈ suite, ∀ pt medoids, w.partition md .dtw c = .ok (pt, medoids) →
      OwnDistances d pt.labels.data (medoids.map fun p => p.x * s.data.grid.yLen + p.y) (total c) ∧
      parseMedoids (points c) = .ok (datasetPoints md.region medoids)

end Spta
