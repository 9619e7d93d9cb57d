import Verif.Model.ErrorSuites
import Verif.Model.TrainingErrors
import Verif.Model.PartitionAnalysis
import Verif.Model.FindElbows

/-!
# Model of the other programs that work on suites of clusterings

experiments/arima/training_error_analysis.py, experiments/auto_arima/training_error_analysis.py,
experiments/clustering/partition_analysis.py, experiments/clustering/medoid_distances.py and
experiments/clustering/find_elbows.py, with the pickle files of partitions, the reports of the clusterings and the CSV
files as texts. What is done for one clustering is in Model/TrainingErrors, Model/PartitionAnalysis and Model/FindElbows.
Without parallel workers. Not modelled: the options `--silhouette` and `--variance`, logging, creation of directories.
-/

namespace Spta

variable {K : Type} [Field K] [LinearOrder K] {P Q M A L : Type}

/-- What the programs use besides the other tools: the ARIMA library with the parameters of `'simple'`
(experiments/metadata/arima.py:32-40), the forecasts of its models, the texts of the numbers, and the texts of the two
timings of a row, which differ from run to run. -/
structure StudyTools (K A L : Type) where
  lib : ArimaLib K A L
  simple : A
  forecast : L → Nat → Except PyErr (List (Option K))
  root : K → K
  junk : Option K
  show3 : ShowErrors K
  showAic : Option K → Str
  showCost : Option K → Str
  time : ClusterMeta → Nat → Str × Str

/-- What is trained: the suite of ARIMA orders with its name, or auto-ARIMA. -/
inductive StudyKind where
  | orders (name : Str) (orders : List PDQ)
  | auto
  deriving DecidableEq

/-- What appears in the names of files — experiments/arima/training_error_analysis.py:148,
experiments/auto_arima/training_error_analysis.py:154. -/
def StudyKind.run : StudyKind → ErrorRunKind
  | .orders name _ => .suite name
  | .auto => .auto 1 1 3 3 none true

/-- The arguments of the two programs — experiments/arima/training_error_analysis.py:226-245,
experiments/auto_arima/training_error_analysis.py:260-279. -/
structure TableArgs where
  region : RegionMeta
  suite : List ClusterMeta
  kind : StudyKind
  errorType : Str
  plots : Bool
  deriving DecidableEq

/-- The arguments as far as they determine the partitions and the reports. -/
def TableArgs.error (a : TableArgs) : ErrorArgs := ⟨a.region, a.suite, 8, a.errorType⟩

/-- The path of the table of a clustering. -/
def TableArgs.path (a : TableArgs) (c : ClusterMeta) : Str :=
  ErrorRun.tablePath ⟨a.region, .dtw, c, a.kind.run, a.errorType⟩ sOutputs

/-- The rows with their timings. -/
def timedRows {R : Type} (cells : Str → Str → R → List Str) (time : Nat → Str × Str) (rows : List R) : List (List Str) :=
  rows.mapIdx fun n row => cells (time n).1 (time n).2 row

/-- Header and rows of the table of a clustering, and the exception that ends the program, if any
— experiments/arima/training_error_analysis.py:140-222, experiments/auto_arima/training_error_analysis.py:146-177. -/
def studyTable (tools : ErrorTools K M) (st : StudyTools K A L) (a : TableArgs) (s : Stack K) (c : ClusterMeta)
    (pt : Partition) (medoids : List Point) : List (List Str) × Option PyErr :=
  match a.kind with
  | .orders _ orders =>
    let r := pdqTable st.root st.lib st.forecast st.junk (String.ofList a.errorType) (tools.distances a.region) a.plots s pt
      medoids c.k.toNat orders
    (pdqHeader :: timedRows (PdqRow.cells st.show3) (st.time c) r.1, r.2)
  | .auto =>
    let r := autoTable st.root st.lib st.forecast st.junk (String.ofList a.errorType) (tools.distances a.region) a.plots s pt
      medoids c.k.toNat st.simple
    (autoHeader :: timedRows (AutoRow.cells st.show3 st.showAic) (st.time c) r.1, r.2)

/-- `do_arima_error_analysis_for_clustering` and `do_auto_arima_error_analysis_for_clustering`
— experiments/arima/training_error_analysis.py:125-222, experiments/auto_arima/training_error_analysis.py:133-177. The
header is written before the loop, every row is appended: the text is that of the rows so far. `clusterStep` looks for
the distance matrix once more. -/
def tableStep (w : SolverWorld K P Q M) (tools : ErrorTools K M) (st : StudyTools K A L) (a : TableArgs) (s : Stack K)
    (c : ClusterMeta) (fs : LabFiles K M) : Except PyErr Unit × LabFiles K M :=
  match clusterStep w tools a.error c fs with
  | (.error e, fs) => (.error e, fs)
  | (.ok (pt, medoids), fs) =>
    if pt.k ≠ 0 ∧ ¬ (pt.labels.xLen = s.data.grid.xLen ∧ pt.labels.yLen = s.data.grid.yLen) then
      (.error .assertionError, fs)
    else
      match stacksWithMedoids s pt medoids with
      | .error e => (.error e, fs)
      | .ok _ =>
        let table := studyTable tools st a s c pt medoids
        let files := Function.update fs.2 (a.path c) (some (csvWrite table.1))
        match table.2 with
        | some e => (.error e, (fs.1, files))
        | none => (.ok (), (fs.1, files))

/-- `do_arima_error_analysis(args, logger)` and `do_auto_arima_error_analysis(args, logger)`
— experiments/arima/training_error_analysis.py:86-123, experiments/auto_arima/training_error_analysis.py:93-131. -/
def tableCommand (w : SolverWorld K P Q M) (tools : ErrorTools K M) (st : StudyTools K A L) (a : TableArgs)
    (fs : LabFiles K M) : Except PyErr Unit × LabFiles K M :=
  match w.region a.region with
  | .error e => (.error e, fs)
  | .ok s =>
    match w.matrix a.region with
    | .error e => (.error e, fs)
    | .ok _ => suiteLoop (tableStep w tools st a s) a.suite fs

/-! ### Analysis of partitions -/

/-- The arguments — experiments/clustering/partition_analysis.py:209-225. -/
structure AnalysisArgs where
  region : RegionMeta
  id : SuiteId
  suite : List ClusterMeta
  deriving DecidableEq

/-- The arguments as far as they determine the partitions and the reports. -/
def AnalysisArgs.error (a : AnalysisArgs) : ErrorArgs := ⟨a.region, a.suite, 8, "sMAPE".toList⟩

/-- The path of the CSV file — experiments/clustering/partition_analysis.py:99-102. -/
def AnalysisArgs.path (a : AnalysisArgs) : Str := a.id.analysisPath sOutputs a.region .dtw

/-- Opening a file to append a record. -/
def appendRecord (files : Str → Option Str) (path : Str) (row : List Str) : Str → Option Str :=
  Function.update files path (some ((files path).getD [] ++ csvWrite [row]))

/-- The body of the loop — experiments/clustering/partition_analysis.py:112-127, 133-186. -/
def analysisStep (w : SolverWorld K P Q M) (tools : ErrorTools K M) (st : StudyTools K A L) (a : AnalysisArgs)
    (c : ClusterMeta) (fs : LabFiles K M) : Except PyErr Unit × LabFiles K M :=
  match w.region a.region with
  | .error e => (.error e, fs)
  | .ok s =>
    match clusterStep w tools a.error c fs with
    | (.error e, fs) => (.error e, fs)
    | (.ok (pt, medoids), fs) =>
      match analyzePartition st.showCost a.region.region s.data.grid (tools.distances a.region) c pt medoids with
      | .error e => (.error e, fs)
      | .ok row => (.ok (), (fs.1, appendRecord fs.2 a.path row))

/-- `analyze_suite(args, logger)` — experiments/clustering/partition_analysis.py:78-130. -/
def analysisCommand (w : SolverWorld K P Q M) (tools : ErrorTools K M) (st : StudyTools K A L) (a : AnalysisArgs)
    (fs : LabFiles K M) : Except PyErr Unit × LabFiles K M :=
  match w.matrix a.region with
  | .error e => (.error e, fs)
  | .ok _ => suiteLoop (analysisStep w tools st a) a.suite
      (fs.1, Function.update fs.2 a.path (some (csvWrite [["clustering".toList, "total_cost".toList, "medoids".toList]])))

/-! ### Distances between medoids -/

/-- The path of the CSV file — experiments/clustering/medoid_distances.py:78-80, spta/clustering/__init__.py:34-40. -/
def medoidDistancesPath (md : RegionMeta) (c : ClusterMeta) : Str :=
  osJoin (osJoin (osJoin sOutputs md.repr) (osJoin DistKind.dtw.repr c.repr)) "medoid_distances.csv".toList

/-- The body of the loop — experiments/clustering/medoid_distances.py:62-84: neither pickle files nor reports. -/
def medoidStep (w : SolverWorld K P Q M) (tools : ErrorTools K M) (md : RegionMeta) (s : Stack K) (c : ClusterMeta)
    (files : Str → Option Str) : Except PyErr Unit × (Str → Option Str) :=
  match w.partition md .dtw c with
  | .error e => (.error e, files)
  | .ok (_, medoids) =>
    match medoidDistancesFile tools.showDistance (tools.distances md) s.data.grid.yLen c.k.toNat medoids with
    | .error e => (.error e, files)
    | .ok lines => (.ok (), Function.update files (medoidDistancesPath md c) (some (fileText lines)))

/-- `do_medoid_distances(args, logger)` — experiments/clustering/medoid_distances.py:48-84. -/
def medoidCommand (w : SolverWorld K P Q M) (tools : ErrorTools K M) (md : RegionMeta) (suite : List ClusterMeta)
    (files : Str → Option Str) : Except PyErr Unit × (Str → Option Str) :=
  match w.region md with
  | .error e => (.error e, files)
  | .ok s =>
    match w.matrix md with
    | .error e => (.error e, files)
    | .ok _ => suiteLoop (medoidStep w tools md s) suite files

/-! ### Elbows -/

/-- `get_all_partitions('pickle')` — spta/clustering/suite.py:298-315, with the pickle files; see `allPartitions`. -/
def savedPartitions (w : SolverWorld K P Q M) (md : RegionMeta) : List ClusterMeta →
    List (ClusterMeta × Partition × List Point) → SolverStore K M (Partition × List Point) →
      Except PyErr (List (ClusterMeta × Partition × List Point)) × SolverStore K M (Partition × List Point)
  | [], d, store => (.ok d, store)
  | c :: cs, d, store =>
    match partitionOf w.compute ((⟨md, [], 8, "sMAPE".toList⟩ : ErrorArgs).metadata c) false store with
    | (.error e, store) => (.error e, store)
    | (.ok p, store) => savedPartitions w md cs (metaDictSet c p d) store

/-- What is printed, for the dictionary of partitions — spta/clustering/suite.py:289-296,
experiments/clustering/find_elbows.py:68-77. -/
def printedElbows [IsStrictOrderedRing K] (g : Grid (List (Option K))) (m : Grid (Option K)) (suite : List ClusterMeta)
    (parts : List (ClusterMeta × Partition × List Point)) : Except PyErr (List (Int × List Int × Str)) :=
  match allCosts (fun q => intraClusterCost q.1 (some q.2) g m) parts [] with
  | .error e => .error e
  | .ok costs =>
    match elbowsBySeed suite costs with
    | .error e => .error e
    | .ok elbows =>
      match organizeSuite suite with
      | .error e => .error e
      | .ok ordered => elbows.mapM (elbowReport ordered)

/-- `analyze_suite(args, logger)` — experiments/clustering/find_elbows.py:50-77: what is printed and the pickle files. -/
def elbowCommand [IsStrictOrderedRing K] (w : SolverWorld K P Q M) (tools : ErrorTools K M) (md : RegionMeta)
    (suite : List ClusterMeta) (store : SolverStore K M (Partition × List Point)) :
    Except PyErr (List (Int × List Int × Str)) × SolverStore K M (Partition × List Point) :=
  match w.region md with
  | .error e => (.error e, store)
  | .ok s =>
    match w.matrix md with
    | .error e => (.error e, store)
    | .ok _ =>
      match savedPartitions w md suite [] store with
      | (.error e, store) => (.error e, store)
      | (.ok parts, store) => (printedElbows s.data.grid (tools.distances md) suite parts, store)

/-! ### Sessions -/

/-- A run of any of the programs. -/
inductive StudyRun where
  | lab (r : LabRun)
  | table (a : TableArgs)
  | analysis (a : AnalysisArgs)
  | medoids (md : RegionMeta) (suite : List ClusterMeta)
  | elbows (md : RegionMeta) (suite : List ClusterMeta)
  deriving DecidableEq

/-- The pickle files after a run; they do not depend on the CSV files. -/
def StudyRun.run [IsStrictOrderedRing K] (w : SolverWorld K P Q M) (dnn : DnnTools K) (tools : ErrorTools K M)
    (st : StudyTools K A L) (store : SolverStore K M (Partition × List Point)) :
    StudyRun → SolverStore K M (Partition × List Point)
  | .lab r => r.run w dnn tools store
  | .table a => (tableCommand w tools st a (store, fun _ => none)).2.1
  | .analysis a => (analysisCommand w tools st a (store, fun _ => none)).2.1
  | .medoids _ _ => store
  | .elbows md suite => (elbowCommand w tools md suite store).2

/-- The pickle files after a session of any of the programs that starts without files. -/
def studyStore [IsStrictOrderedRing K] (w : SolverWorld K P Q M) (dnn : DnnTools K) (tools : ErrorTools K M)
    (st : StudyTools K A L) (session : List StudyRun) : SolverStore K M (Partition × List Point) :=
  session.foldl (StudyRun.run w dnn tools st) fun _ => none

end Spta
