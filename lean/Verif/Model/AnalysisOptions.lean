import Verif.Model.StudySuites
import Verif.Model.Silhouette
import Verif.Model.Variance

/-!
# Model of the analysis of a suite with its options

experiments/clustering/partition_analysis.py with `--silhouette`, `--variance`, `--random` and `--bins`; see
`Verif.Model.StudySuites` for the analysis without them. A figure is what is drawn, see `Verif.Model.Silhouette` and
`Verif.Model.Variance`; figures are kept apart from the other files, as their names end in `.pdf`. The distances are
numbers: an entry of the matrix that is NaN counts as 0 in a figure. matplotlib and numpy do not fail for a known name of
bins.
-/

namespace Spta

variable {K : Type} [Field K] [LinearOrder K] {P Q M A L : Type}

/-! ### The arguments -/

/-- The options — experiments/clustering/partition_analysis.py:53-64; `random` and `bins` are texts. -/
structure AnalysisOptions where
  silhouette : Bool := false
  variance : Bool := false
  random : Option Str := none
  bins : Str := "auto".toList
  deriving DecidableEq

/-- The names of all attributes of `args` as the parser leaves them: an option that is not given has its default value
— experiments/clustering/partition_analysis.py:42-71. -/
def optionNames : List Str :=
  ["region".toList, "clustering_type".toList, "clustering_suite".toList, "silhouette".toList, "variance".toList,
    "random".toList, "bins".toList, "log".toList]

/-- The check of the options — experiments/clustering/partition_analysis.py:73-75: `parser.error` raises SystemExit,
here `valueError`. -/
def checkOptions (names : List Str) : Except PyErr Unit :=
  if "random".toList ∈ names ∧ "variance".toList ∉ names then .error .valueError else .ok ()

/-- The number of random points — experiments/clustering/partition_analysis.py:190-193. -/
def AnalysisOptions.points (o : AnalysisOptions) : Except PyErr (Option Int) :=
  match o.random with
  | none => .ok none
  | some [] => .ok none
  | some t =>
    match pyInt t with
    | .error e => .error e
    | .ok n => .ok (some n)

/-- The texts that numpy takes for `bins`. -/
def binsNames : List Str :=
  ["auto".toList, "fd".toList, "doane".toList, "scott".toList, "stone".toList, "rice".toList, "sturges".toList,
    "sqrt".toList]

/-! ### Figures -/

/-- A figure that is saved. -/
inductive Figure (K : Type) where
  | silhouette (f : SilhouetteFigure K)
  | histograms (f : List (Subplot K))
  deriving DecidableEq

/-- The numbers of a matrix. -/
def numbersOf (m : Grid (Option K)) : Grid K := ⟨m.xLen, m.yLen, m.data.map fun v => v.getD 0⟩

/-- `output_dir(output_home, region_metadata)` — spta/clustering/__init__.py:25-40. -/
def figureDir (md : RegionMeta) (c : ClusterMeta) : Str :=
  osJoin (osJoin sOutputs md.repr) (osJoin DistKind.dtw.repr c.repr)

/-- The path of the figure of the silhouettes — spta/clustering/silhouette.py:89-91. -/
def silhouettePath (md : RegionMeta) (c : ClusterMeta) : Str :=
  osJoin (figureDir md c) ("silhouette-".toList ++ c.repr ++ ".pdf".toList)

/-- The path of the figure of the histograms — spta/distance/variance.py:550-559. -/
def variancePath (md : RegionMeta) (c : ClusterMeta) (random : Option Int) : Str :=
  figureDir md c ++ '/' :: ("variance-histograms__".toList ++ c.repr ++
    (match random with
      | none => []
      | some n => "__random".toList ++ intStr n) ++ ".pdf".toList)

/-- `DistanceHistogramClusters.cluster_histograms(...)` — spta/distance/variance.py:429-472, 529-617: the clusters must have
their centroids; a negative number of random points cannot be chosen. `perms` are the random choices. -/
def clusterHistograms {B : Type} (m : Grid K) (clusters : List (ClusterObj B)) (medoids : List Point) (random : Option Int)
    (bins : Str) (perms : List (List Nat) × List (List Nat)) : Except PyErr (List (Subplot K)) :=
  if medoids = [] ∧ clusters ≠ [] then .error .assertionError
  else if clusters = [] then .error .indexError
  else if ∃ n, random = some n ∧ n < 0 then .error .valueError
  else
    match plotClusters m (clusters.zip medoids) (random.map Int.toNat) true perms.1 perms.2 with
    | .error e => .error e
    | .ok fig => if bins ∈ binsNames then .ok fig else .error .valueError

/-- All files: the pickle files, the CSV files, and the figures. -/
abbrev AnalysisState (K M : Type) := LabFiles K M × (Str → Option (Figure K))

/-- The histograms of a partition, with the path of the figure
— experiments/clustering/partition_analysis.py:187-205. -/
def drawVariance {B : Type} (m : Grid K) (md : RegionMeta) (g : Grid B) (o : AnalysisOptions)
    (perms : List (List Nat) × List (List Nat)) (c : ClusterMeta) (pt : Partition) (medoids : List Point) :
    Except PyErr (Str × Figure K) :=
  match pt.createClustersWithMedoids g medoids with
  | .error e => .error e
  | .ok clusters =>
    match o.points with
    | .error e => .error e
    | .ok random =>
      match clusterHistograms m clusters medoids random o.bins perms with
      | .error e => .error e
      | .ok fig => .ok (variancePath md c random, .histograms fig)

/-- The body of the loop — experiments/clustering/partition_analysis.py:112-127, 133-207: the histograms are drawn before
the row is written. -/
def drawnStep (w : SolverWorld K P Q M) (tools : ErrorTools K M) (st : StudyTools K A L) (a : AnalysisArgs)
    (o : AnalysisOptions) (perms : ClusterMeta → List (List Nat) × List (List Nat)) (c : ClusterMeta)
    (x : AnalysisState K M) : Except PyErr Unit × AnalysisState K M :=
  match w.region a.region with
  | .error e => (.error e, x)
  | .ok s =>
    match clusterStep w tools a.error c x.1 with
    | (.error e, fs) => (.error e, (fs, x.2))
    | (.ok (pt, medoids), fs) =>
      match analyzePartition st.showCost a.region.region s.data.grid (tools.distances a.region) c pt medoids with
      | .error e => (.error e, (fs, x.2))
      | .ok row =>
        if o.variance then
          match drawVariance (numbersOf (tools.distances a.region)) a.region s.data.grid o (perms c) c pt medoids with
          | .error e => (.error e, (fs, x.2))
          | .ok fig => (.ok (), ((fs.1, appendRecord fs.2 a.path row), Function.update x.2 fig.1 (some fig.2)))
        else (.ok (), ((fs.1, appendRecord fs.2 a.path row), x.2))

/-- The loop of `perform_analysis('outputs', 'pickle')` — spta/clustering/silhouette.py:36-57: the figure of each
clustering is saved; the best score so far and its clustering are kept. `s` is the region. -/
def silhouettesLoop (w : SolverWorld K P Q M) (tools : ErrorTools K M) (a : AnalysisArgs) (s : Stack K) :
    List ClusterMeta → K × Option ClusterMeta → AnalysisState K M →
      Except PyErr (K × Option ClusterMeta) × AnalysisState K M
  | [], best, x => (.ok best, x)
  | c :: cs, best, x =>
    match clusterStep w tools a.error c x.1 with
    | (.error e, fs) => (.error e, (fs, x.2))
    | (.ok (pt, _), fs) =>
      match singleSilhouette (some (numbersOf (tools.distances a.region))) s.data.grid.xLen s.data.grid.yLen pt with
      | .error e => (.error e, (fs, x.2))
      | .ok (avg, fig) =>
        silhouettesLoop w tools a s cs (if avg > best.1 then (avg, some c) else best)
          (fs, Function.update x.2 (silhouettePath a.region c) (some (.silhouette fig)))

/-- The silhouette analysis of the suite, if it is asked for — experiments/clustering/partition_analysis.py:93-96,
spta/clustering/silhouette.py:12-57; the matrix is loaded. -/
def suiteSilhouettes (w : SolverWorld K P Q M) (tools : ErrorTools K M) (a : AnalysisArgs) (o : AnalysisOptions)
    (x : AnalysisState K M) : Except PyErr (Option (K × Option ClusterMeta)) × AnalysisState K M :=
  if o.silhouette then
    match w.region a.region with
    | .error e => (.error e, x)
    | .ok s =>
      match silhouettesLoop w tools a s a.suite (-1, none) x with
      | (.error e, x) => (.error e, x)
      | (.ok best, x) => (.ok (some best), x)
  else (.ok none, x)

/-- `analyze_suite(args, logger)` — experiments/clustering/partition_analysis.py:78-130: the best score and its
clustering, if silhouettes are asked for, and all files. -/
def drawnCommand (w : SolverWorld K P Q M) (tools : ErrorTools K M) (st : StudyTools K A L) (a : AnalysisArgs)
    (o : AnalysisOptions) (perms : ClusterMeta → List (List Nat) × List (List Nat)) (x : AnalysisState K M) :
    Except PyErr (Option (K × Option ClusterMeta)) × AnalysisState K M :=
  match checkOptions optionNames with
  | .error e => (.error e, x)
  | .ok _ =>
    match w.matrix a.region with
    | .error e => (.error e, x)
    | .ok _ =>
      match suiteSilhouettes w tools a o x with
      | (.error e, x) => (.error e, x)
      | (.ok best, x) =>
        match suiteLoop (drawnStep w tools st a o perms) a.suite
            ((x.1.1, Function.update x.1.2 a.path
              (some (csvWrite [["clustering".toList, "total_cost".toList, "medoids".toList]]))), x.2) with
        | (.error e, x) => (.error e, x)
        | (.ok _, x) => (.ok best, x)

end Spta
