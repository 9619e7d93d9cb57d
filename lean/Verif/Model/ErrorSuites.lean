import Verif.Model.SolverDnn
import Verif.Model.MedoidErrors
import Verif.Model.ClusterRun

/-!
# Model of the two programs that measure errors over a suite of clusterings

experiments/auto_arima/error_between_medoids.py and experiments/auto_arima/distance_errors.py, with the pickle files of
partitions, the reports of the clusterings and the CSV files as texts. What is done for one clustering is in
Model/MedoidErrors. Plots and logging are left out; the forecast length is not negative; arguments are looked up in the
catalogues (C123).
-/

namespace Spta

variable {K : Type} [Field K] [LinearOrder K] {P Q M : Type}

/-- What `metadata_from_args(args)` and the other arguments give — experiments/auto_arima/error_between_medoids.py:45-63,
183-201, experiments/auto_arima/distance_errors.py:46-68, 256-271. -/
structure ErrorArgs where
  region : RegionMeta
  suite : List ClusterMeta
  flen : Nat := 8
  errorType : Str := "sMAPE".toList
  deriving DecidableEq

/-- The metadata of the solver trainer — spta/solver/train.py:49-55; `'simple'` is the only auto-ARIMA of the experiments
(experiments/metadata/arima.py:32-40). -/
def ErrorArgs.metadata (a : ErrorArgs) (c : ClusterMeta) : SolverMeta :=
  ⟨a.region, .autoArima 1 1 3 3 none true, a.flen, a.errorType, c, .dtw⟩

/-- What the programs use besides the world of the solver programs: the saved distance matrix of a region,
`extract_pdq`, and the texts of numbers with one and three decimals. -/
structure ErrorTools (K M : Type) where
  distances : RegionMeta → Grid (Option K)
  order : Option M → Int × Int × Int
  show1 : K → Str
  showError : ErrorVal K → Str
  showDistance : Option K → Str

/-- The pickle files and the CSV files. -/
abbrev LabFiles (K M : Type) := SolverStore K M (Partition × List Point) × (Str → Option Str)

/-- `output_home` of both programs. -/
def sOutputs : Str := "outputs".toList

/-! ### The report of a clustering -/

/-- The path of the report — spta/clustering/__init__.py:161-167, 178-182. -/
def SolverMeta.reportPath (m : SolverMeta) (home : Str) : Str :=
  osJoin (osJoin (osJoin home m.md.repr) (osJoin m.dist.repr m.clustering.repr))
    ("clustering__".toList ++ (m.clustering.repr ++ ".csv".toList))

/-- The loop over the clusters, which writes as it goes — spta/clustering/__init__.py:194-204. -/
def reportLoop (show1 : K → Str) (pt : Partition) : List Nat → Except PyErr Unit × List (List Str)
  | [] => (.ok (), [])
  | i :: is =>
    match reportRow pt i with
    | .error e => (.error e, [])
    | .ok (j, n, c) =>
      let r := reportLoop show1 pt is
      (r.1, [natStr j, natStr n, show1 c] :: r.2)

/-- The rows of the report — spta/clustering/__init__.py:184-204. -/
def reportRows (show1 : K → Str) (pt : Partition) (k : Nat) : Except PyErr Unit × List (List Str) :=
  let r := reportLoop show1 pt (List.range k)
  (r.1, ["cluster".toList, "points".toList, "coverage".toList] :: r.2)

/-! ### One clustering -/

/-- `prepare_for_training` and `partition(spt_region, with_medoids=True, save_csv_at='outputs', pickle_home='pickle')`
— spta/solver/train.py:39-60, spta/clustering/__init__.py:83-126: the report is saved before the pickle file. -/
def clusterStep (w : SolverWorld K P Q M) (tools : ErrorTools K M) (a : ErrorArgs) (c : ClusterMeta)
    (st : LabFiles K M) : Except PyErr (Partition × List Point) × LabFiles K M :=
  match w.matrix a.region with
  | .error e => (.error e, st)
  | .ok _ =>
    match partitionOf w.compute (a.metadata c) true st.1 with
    | (.error e, _) => (.error e, st)
    | (.ok p, store) =>
      let report := reportRows tools.show1 p.1 c.k.toNat
      let files := Function.update st.2 ((a.metadata c).reportPath sOutputs) (some (csvWrite report.2))
      match report.1 with
      | .error e => (.error e, (st.1, files))
      | .ok _ => (.ok p, (store, files))

/-- `do_auto_arima_errors_for_clustering` — experiments/auto_arima/error_between_medoids.py:85-147. -/
def betweenStep (w : SolverWorld K P Q M) (tools : ErrorTools K M) (a : ErrorArgs) (s : Stack K) (c : ClusterMeta)
    (st : LabFiles K M) : Except PyErr Unit × LabFiles K M :=
  match clusterStep w tools a c st with
  | (.error e, st) => (.error e, st)
  | (.ok (_, medoids), st) =>
    match medoidErrorsFile (w.trainer (a.metadata c).params a.region) w.forecast (String.ofList a.errorType)
        tools.showError s a.flen c.k.toNat medoids w.zero with
    | (r, none) => (r, st)
    | (r, some lines) =>
      (r, (st.1, Function.update st.2 (medoidErrorsPath (a.metadata c) sOutputs) (some (fileText lines))))

/-- The loop over the clusters — experiments/auto_arima/distance_errors.py:116-120; `one i` is the model of the medoid
of a cluster with the lines of its file. The loop over the rows does not fail, as the lists of points, of distances and
of errors have the same length. -/
def distanceLoop (one : Nat → Except PyErr (Option M × List Str)) (path : Nat → Option M → Str) :
    List Nat → (Str → Option Str) → Except PyErr Unit × (Str → Option Str)
  | [], files => (.ok (), files)
  | i :: is, files =>
    match one i with
    | .error e => (.error e, files)
    | .ok (model, lines) =>
      distanceLoop one path is (Function.update files (path i model) (some (fileText lines)))

/-- The path of the file of a cluster. -/
def ErrorArgs.clusterPath (tools : ErrorTools K M) (a : ErrorArgs) (c : ClusterMeta) (i : Nat) (model : Option M) : Str :=
  distanceErrorsPath (a.metadata c) sOutputs i (tools.order model).1 (tools.order model).2.1 (tools.order model).2.2

/-- The work on the cluster `i` of a partition — experiments/auto_arima/distance_errors.py:116-120. -/
def distanceOne (w : SolverWorld K P Q M) (tools : ErrorTools K M) (a : ErrorArgs) (s : Stack K) (c : ClusterMeta)
    (pt : Partition) (medoids : List Point) (i : Nat) : Except PyErr (Option M × List Str) :=
  match medoids[i]? with
  | none => .error .attributeError
  | some medoid => distanceErrorsOf (w.trainer (a.metadata c).params a.region) w.forecast (String.ofList a.errorType)
      tools.showDistance tools.showError a.region.region (tools.distances a.region) s a.flen pt i medoid w.zero

/-- The body of the loop over the suite — experiments/auto_arima/distance_errors.py:90-120; see `distanceErrorsAll` for
the creation of the clusters. -/
def distanceStep (w : SolverWorld K P Q M) (tools : ErrorTools K M) (a : ErrorArgs) (s : Stack K) (c : ClusterMeta)
    (st : LabFiles K M) : Except PyErr Unit × LabFiles K M :=
  match clusterStep w tools a c st with
  | (.error e, st) => (.error e, st)
  | (.ok (pt, medoids), st) =>
    if pt.k ≠ 0 ∧ ¬ (pt.labels.xLen = s.data.grid.xLen ∧ pt.labels.yLen = s.data.grid.yLen) then
      (.error .assertionError, st)
    else if medoids ≠ [] ∧ medoids.length < pt.k then (.error .indexError, st)
    else
      let r := distanceLoop (distanceOne w tools a s c pt medoids) (a.clusterPath tools c) (List.range pt.k) st.2
      (r.1, (st.1, r.2))

/-! ### The programs -/

/-- `for clustering_metadata in clustering_suite`. -/
def suiteLoop {S : Type} (step : ClusterMeta → S → Except PyErr Unit × S) : List ClusterMeta → S → Except PyErr Unit × S
  | [], st => (.ok (), st)
  | c :: cs, st =>
    match step c st with
    | (.error e, st) => (.error e, st)
    | (.ok _, st) => suiteLoop step cs st

/-- `do_auto_arima_errors(args)` — experiments/auto_arima/error_between_medoids.py:70-83. -/
def betweenCommand (w : SolverWorld K P Q M) (tools : ErrorTools K M) (a : ErrorArgs) (st : LabFiles K M) :
    Except PyErr Unit × LabFiles K M :=
  match w.region a.region with
  | .error e => (.error e, st)
  | .ok s => suiteLoop (betweenStep w tools a s) a.suite st

/-- `do_auto_arima_distance_errors(args)` — experiments/auto_arima/distance_errors.py:78-120. -/
def distanceCommand (w : SolverWorld K P Q M) (tools : ErrorTools K M) (a : ErrorArgs) (st : LabFiles K M) :
    Except PyErr Unit × LabFiles K M :=
  match w.region a.region with
  | .error e => (.error e, st)
  | .ok s => suiteLoop (distanceStep w tools a s) a.suite st

/-- A run of any of the programs. -/
inductive LabRun where
  | any (r : AnyRun)
  | between (a : ErrorArgs)
  | distance (a : ErrorArgs)
  deriving DecidableEq

/-- The pickle files after a run; they do not depend on the CSV files. -/
def LabRun.run (w : SolverWorld K P Q M) (dnn : DnnTools K) (tools : ErrorTools K M)
    (store : SolverStore K M (Partition × List Point)) : LabRun → SolverStore K M (Partition × List Point)
  | .any r => r.run w dnn store
  | .between a => (betweenCommand w tools a (store, fun _ => none)).2.1
  | .distance a => (distanceCommand w tools a (store, fun _ => none)).2.1

/-- The pickle files after a session of any of the programs that starts without files. -/
def labStore (w : SolverWorld K P Q M) (dnn : DnnTools K) (tools : ErrorTools K M) (session : List LabRun) :
    SolverStore K M (Partition × List Point) :=
  session.foldl (LabRun.run w dnn tools) fun _ => none

end Spta
