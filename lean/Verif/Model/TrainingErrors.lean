import Verif.Model.MedoidErrors
import Verif.Model.Arima
import Verif.Model.Cost

/-!
# Model of the experiments on the errors of ARIMA models in clusters

experiments/arima/training_error_analysis.py, experiments/auto_arima/training_error_analysis.py and
`plot_distances_vs_errors` of spta/model/forecast.py, for one clustering: the partition with its medoids is a
parameter, the distance matrix is loaded before. Without parallel workers (see C66). Not modelled: logging,
timing (the two columns are parameters), creation of directories, what matplotlib draws from the data.
-/

namespace Spta

variable {K A M : Type} [Field K] [LinearOrder K]

/-- `forecast_from_model(model_at_point, forecast_len, ...)` of a region of ARIMA models
— spta/arima/model.py:12-25: the number 0 has no method `forecast`. -/
def cellForecast (forecast : M → Nat → Except PyErr (List (Option K))) :
    ArimaCell M → Nat → Except PyErr (List (Option K))
  | .zero, _ => .error .attributeError
  | .model m, n => forecast m n

/-- `DEFAULT_FORECAST_LENGTH` — spta/model/forecast.py:26. -/
def defaultForecastLen : Nat := 8

/-- A cluster of `create_all_spt_clusters` with its centroid — spta/region/partition.py:180-196. -/
structure MedoidCluster (K : Type) where
  spt : Stack K
  part : Partition
  index : Nat
  centroid : Option Point

/-- The body of the loop — spta/region/partition.py:180-196. -/
def stackWithMedoid (s : Stack K) (pt : Partition) (medoids : List Point) (i : Nat) :
    Except PyErr (MedoidCluster K) :=
  if medoids = [] then .ok ⟨s, pt, i, none⟩
  else
    match medoids[i]? with
    | none => .error .indexError
    | some m => .ok ⟨s, pt, i, some m⟩

/-- `create_all_spt_clusters(spt_region, medoids=partition.medoids)` — spta/region/partition.py:159-198. -/
def stacksWithMedoids (s : Stack K) (pt : Partition) (medoids : List Point) :
    Except PyErr (List (MedoidCluster K)) :=
  (List.range pt.k).mapM (stackWithMedoid s pt medoids)

/-- The cluster as a region. -/
def MedoidCluster.stack (c : MedoidCluster K) : Stack K := .cluster c.spt c.part c.index

/-- What is left of an analysis: the trained models, the errors and the state of the analysis object. -/
structure Analysed (K M : Type) where
  region : ArimaRegion K M
  errors : ForecastErrors K
  state : Analysis K (ArimaCell M)

/-- `ForecastAnalysis(trainer).analyze_errors(cluster, error_type)` with the default forecast length. The model
region of the analysis is the result of the trainer for the training part
— experiments/arima/training_error_analysis.py:179-183, spta/model/forecast.py:41-64, 172-280. -/
def analyseCluster {P : Type} (root : K → K) (lib : ArimaLib K A M) (withPdq : Bool)
    (t : Trainer K P (ArimaCell M)) (forecast : M → Nat → Except PyErr (List (Option K))) (junk : Option K)
    (errorType : String) (c : MedoidCluster K) : Except PyErr (Analysed K M) :=
  match (Analysis.new K (ArimaCell M)).analyze root
      (fun tr => (arimaApply lib withPdq t tr).map (·.models)) (cellForecast forecast) junk c.stack c.centroid
      errorType defaultForecastLen with
  | (.error e, _) => .error e
  | (.ok errors, state) =>
    match arimaApply lib withPdq t (splitLast c.stack defaultForecastLen).1 with
    | .error e => .error e
    | .ok region => .ok ⟨region, errors, state⟩

/-- The data of a plot: the distances and the errors — spta/model/forecast.py:289-320. `m` is the distance
matrix, the state is that after the analysis of the cluster. At the end the order of the model at the point is
read from the model. `subplot.plot` needs two lists of the same length. -/
def plotData (lib : ArimaLib K A M) (forecast : M → Nat → Except PyErr (List (Option K))) (junk : Option K)
    (errorType : String) (m : Grid (Option K)) (c : MedoidCluster K) (a : Analysed K M) :
    Except PyErr (List (Option K) × List (ErrorVal K) × PDQ) :=
  match a.state.check defaultForecastLen with
  | .error e => .error e
  | .ok _ =>
    match (⟨c.spt.data.grid, c.part, c.index, 0⟩ : ClusterObj (List (Option K))).allPointIndices with
    | .error e => .error e
    | .ok indices =>
      match c.centroid with
      | none => .error .attributeError
      | some p =>
        match distancesToPointWithMatrix m c.spt.data.grid.yLen p indices with
        | .error e => .error e
        | .ok distances =>
          match (a.state.withSingleModel (cellForecast forecast) junk p defaultForecastLen errorType).1 with
          | .error e => .error e
          | .ok region =>
            match region.items with
            | .error e => .error e
            | .ok items =>
              if distances.length ≠ (items.map Prod.snd).length then .error .valueError
              else
                match a.region.models.get p with
                | .error e => .error e
                | .ok (some (.model model)) => .ok (distances, items.map Prod.snd, lib.order model)
                | .ok _ => .error .attributeError

/-- The loop over the experiments: each one appends its row to the file and then, if requested, makes its plot.
An exception ends the program, the rows written so far remain
— experiments/arima/training_error_analysis.py:162-222. The result has the rows and the exception. -/
def runJobs {R T : Type} : List (Except PyErr R × Except PyErr T) → List R × Option PyErr
  | [] => ([], none)
  | (.error e, _) :: _ => ([], some e)
  | (.ok r, .error e) :: _ => ([r], some e)
  | (.ok r, .ok _) :: rest => (r :: (runJobs rest).1, (runJobs rest).2)

/-- The plot of an experiment, if requested. -/
def plotIf {T : Type} [Inhabited T] (withPlots : Bool) (plot : Except PyErr T) : Except PyErr T :=
  if withPlots then plot else .ok default

instance : Inhabited (List (Option K) × List (ErrorVal K) × PDQ) := ⟨([], [], ⟨0, 0, 0⟩)⟩

/-! ### Fixed orders -/

/-- `ArimaClusterResult` without the timings — experiments/arima/training_error_analysis.py:44-47. -/
structure PdqRow (K : Type) where
  cluster : Nat
  size : Nat
  order : PDQ
  failed : Nat
  errors : ForecastErrors K
  deriving DecidableEq

/-- One experiment: the row and the data of the plot
— experiments/arima/training_error_analysis.py:176-222. -/
def pdqJob (root : K → K) (lib : ArimaLib K A M) (forecast : M → Nat → Except PyErr (List (Option K)))
    (junk : Option K) (errorType : String) (m : Grid (Option K)) (withPlots : Bool) (i : Nat)
    (c : MedoidCluster K) (o : PDQ) :
    Except PyErr (PdqRow K) × Except PyErr (List (Option K) × List (ErrorVal K) × PDQ) :=
  match analyseCluster root lib false (pdqTrainer lib (some o) c.spt.data.grid.xLen c.spt.data.grid.yLen)
      forecast junk errorType c with
  | .error e => (.error e, .error e)
  | .ok a => (.ok ⟨i, c.part.clusterLen c.index, o, a.region.missing, a.errors⟩,
      plotIf withPlots (plotData lib forecast junk errorType m c a))

/-- The experiments of the cluster with number `i` — experiments/arima/training_error_analysis.py:162-222. -/
def pdqJobsAt (root : K → K) (lib : ArimaLib K A M) (forecast : M → Nat → Except PyErr (List (Option K)))
    (junk : Option K) (errorType : String) (m : Grid (Option K)) (withPlots : Bool)
    (clusters : List (MedoidCluster K)) (orders : List PDQ) (i : Nat) :
    List (Except PyErr (PdqRow K) × Except PyErr (List (Option K) × List (ErrorVal K) × PDQ)) :=
  match clusters[i]? with
  | none => [(.error .indexError, .error .indexError)]
  | some c => orders.map (pdqJob root lib forecast junk errorType m withPlots i c)

/-- `do_arima_error_analysis_for_clustering` from the partition on, without the header
— experiments/arima/training_error_analysis.py:140-222. `k` is that of the clustering algorithm, `orders` the
parameters of the suite. -/
def pdqTable (root : K → K) (lib : ArimaLib K A M) (forecast : M → Nat → Except PyErr (List (Option K)))
    (junk : Option K) (errorType : String) (m : Grid (Option K)) (withPlots : Bool) (s : Stack K)
    (pt : Partition) (medoids : List Point) (k : Nat) (orders : List PDQ) :
    List (PdqRow K) × Option PyErr :=
  match stacksWithMedoids s pt medoids with
  | .error e => ([], some e)
  | .ok clusters => runJobs ((List.range k).flatMap
      (pdqJobsAt root lib forecast junk errorType m withPlots clusters orders))

/-- The header — experiments/arima/training_error_analysis.py:44-47, 158. -/
def pdqHeader : List Str :=
  ["cluster".toList, "size".toList, ['p'], ['d'], ['q'], "failed".toList, "t_forecast".toList,
    "t_elapsed".toList, "error_each".toList, "error_min".toList, "error_min_local".toList,
    "error_medoid".toList, "error_max".toList]

/-- How `'{:.3f}'.format` shows the numbers: those that may be NaN, the minimum and the maximum, which may be
infinite. -/
structure ShowErrors (K : Type) where
  val : ErrorVal K → Str
  min : WithTop K → Str
  max : WithBot (WithTop K) → Str

/-- The cells of a row — experiments/arima/training_error_analysis.py:186-203. -/
def PdqRow.cells (sh : ShowErrors K) (tForecast tElapsed : Str) (r : PdqRow K) : List Str :=
  [natStr r.cluster, natStr r.size, intStr r.order.p, intStr r.order.d, intStr r.order.q, natStr r.failed,
    tForecast, tElapsed, sh.val r.errors.each, sh.min r.errors.minimum, sh.val r.errors.minLocal,
    sh.val r.errors.centroid, sh.max r.errors.maximum]

/-! ### Auto ARIMA -/

/-- `AutoArimaClusterResult` without the timings — experiments/auto_arima/training_error_analysis.py:48-53. -/
structure AutoRow (K : Type) where
  cluster : Nat
  size : Nat
  order : PDQ
  aic : Option K
  failed : Nat
  errors : ForecastErrors K
  deriving DecidableEq

/-- `analyze_auto_arima_for_cluster` — experiments/auto_arima/training_error_analysis.py:180-258: order and AIC
at the medoid are those of the regions that the trainer creates. `series_at(None)` raises AttributeError. -/
def autoJob (root : K → K) (lib : ArimaLib K A M) (forecast : M → Nat → Except PyErr (List (Option K)))
    (junk : Option K) (errorType : String) (m : Grid (Option K)) (withPlots : Bool) (params : A) (i : Nat)
    (c : MedoidCluster K) :
    Except PyErr (AutoRow K) × Except PyErr (List (Option K) × List (ErrorVal K) × PDQ) :=
  match analyseCluster root lib true (autoTrainer lib (some params) c.spt.data.grid.xLen c.spt.data.grid.yLen)
      forecast junk errorType c with
  | .error e => (.error e, .error e)
  | .ok a =>
    match c.centroid, a.region.pdq with
    | some p, some orders =>
      match orders.get p, a.region.aic.get p with
      | .error e, _ => (.error e, .error e)
      | _, .error e => (.error e, .error e)
      | .ok o, .ok aic => (.ok ⟨i, c.part.clusterLen c.index, o, aic, a.region.missing, a.errors⟩,
          plotIf withPlots (plotData lib forecast junk errorType m c a))
    | _, _ => (.error .attributeError, .error .attributeError)

/-- The experiment of the cluster with number `i` — experiments/auto_arima/training_error_analysis.py:170-175. -/
def autoJobAt (root : K → K) (lib : ArimaLib K A M) (forecast : M → Nat → Except PyErr (List (Option K)))
    (junk : Option K) (errorType : String) (m : Grid (Option K)) (withPlots : Bool)
    (clusters : List (MedoidCluster K)) (params : A) (i : Nat) :
    Except PyErr (AutoRow K) × Except PyErr (List (Option K) × List (ErrorVal K) × PDQ) :=
  match clusters[i]? with
  | none => (.error .indexError, .error .indexError)
  | some c => autoJob root lib forecast junk errorType m withPlots params i c

/-- `do_auto_arima_error_analysis_for_clustering` from the partition on, without the header
— experiments/auto_arima/training_error_analysis.py:146-177. -/
def autoTable (root : K → K) (lib : ArimaLib K A M) (forecast : M → Nat → Except PyErr (List (Option K)))
    (junk : Option K) (errorType : String) (m : Grid (Option K)) (withPlots : Bool) (s : Stack K)
    (pt : Partition) (medoids : List Point) (k : Nat) (params : A) : List (AutoRow K) × Option PyErr :=
  match stacksWithMedoids s pt medoids with
  | .error e => ([], some e)
  | .ok clusters => runJobs ((List.range k).map
      (autoJobAt root lib forecast junk errorType m withPlots clusters params))

/-- The header — experiments/auto_arima/training_error_analysis.py:48-53, 166. -/
def autoHeader : List Str :=
  ["cluster".toList, "size".toList, "p_medoid".toList, "d_medoid".toList, "q_medoid".toList,
    "aic_medoid".toList, "failed".toList, "t_forecast".toList, "t_elapsed".toList, "error_each".toList,
    "error_min".toList, "error_min_local".toList, "error_medoid".toList, "error_max".toList]

/-- The cells of a row — experiments/auto_arima/training_error_analysis.py:205-235. -/
def AutoRow.cells (sh : ShowErrors K) (showAic : Option K → Str) (tForecast tElapsed : Str)
    (r : AutoRow K) : List Str :=
  [natStr r.cluster, natStr r.size, intStr r.order.p, intStr r.order.d, intStr r.order.q, showAic r.aic,
    natStr r.failed, tForecast, tElapsed, sh.val r.errors.each, sh.min r.errors.minimum,
    sh.val r.errors.minLocal, sh.val r.errors.centroid, sh.max r.errors.maximum]

/-! ### Files -/

/-- What determines the files of a run: `arima_suite.name`, or the parameters of auto ARIMA. -/
inductive ErrorRunKind where
  | suite (name : Str)
  | auto (startP startQ maxP maxQ : Int) (d : Option Int) (stepwise : Bool)

structure ErrorRun where
  md : RegionMeta
  dist : DistKind
  clustering : ClusterMeta
  kind : ErrorRunKind
  errorType : Str

/-- The last part of the output directory — experiments/arima/training_error_analysis.py:148,
experiments/auto_arima/training_error_analysis.py:154. -/
def ErrorRunKind.subdir : ErrorRunKind → Str
  | .suite name => "arima-".toList ++ name
  | .auto sp sq mp mq d sw => (ModelParams.autoArima sp sq mp mq d sw).repr

/-- What the name of the table has between the clustering and the type of the error
— experiments/arima/training_error_analysis.py:154-155, experiments/auto_arima/training_error_analysis.py:160-161. -/
def ErrorRunKind.text : ErrorRunKind → Str
  | .suite name => name
  | .auto sp sq mp mq d sw => (ModelParams.autoArima sp sq mp mq d sw).repr

/-- The output directory — experiments/arima/training_error_analysis.py:144-150. -/
def ErrorRun.outputDir (r : ErrorRun) (home : Str) : Str :=
  osJoin (osJoin (osJoin home r.md.repr) (osJoin r.dist.repr r.clustering.repr)) r.kind.subdir

/-- The path of the table — experiments/arima/training_error_analysis.py:152-156,
experiments/auto_arima/training_error_analysis.py:158-162. -/
def ErrorRun.tablePath (r : ErrorRun) (home : Str) : Str :=
  osJoin (r.outputDir home)
    ("error-analysis".toList ++ (sep2 ++ (r.clustering.repr ++ (sep2 ++ (r.kind.text ++ (sep2 ++
      (r.errorType ++ ".csv".toList)))))))

/-- What the name of a plot has before the order. -/
def ErrorRunKind.plotText : ErrorRunKind → Str
  | .suite _ => "arima-p".toList
  | .auto .. => "auto-arima-p".toList

/-- The path of a plot, for the cluster `i` — experiments/arima/training_error_analysis.py:250-262,
experiments/auto_arima/training_error_analysis.py:284-296. -/
def ErrorRun.plotPath (r : ErrorRun) (home : Str) (i : Nat) (o : PDQ) : Str :=
  osJoin (r.outputDir home)
    ("dist-error".toList ++ (sep2 ++ (r.clustering.repr ++ (sep2 ++ (r.errorType ++ (sep2 ++
      ("cluster".toList ++ (natStr i ++ (sep2 ++ (r.kind.plotText ++ (intStr o.p ++ ("-d".toList ++
        (intStr o.d ++ ("-q".toList ++ (intStr o.q ++ ".pdf".toList)))))))))))))))

end Spta
