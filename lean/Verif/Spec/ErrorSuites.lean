import Verif.Model.ErrorSuites
import Verif.Spec.SolverDnn
import Verif.Spec.MedoidErrors
import Verif.Spec.ClusterRun

/-!
# Specification of the programs that measure errors over a suite of clusterings (C143)
-/

namespace Spta

variable {K : Type} [Field K] [LinearOrder K] {P Q M : Type}

/-- The clusterings of the suites, as those of the solver programs: regular with some `k`, or k-medoids with some `k` and
seed and defaults otherwise. -/
def PlainClustering (c : ClusterMeta) : Prop :=
  ∃ k seed : Int, c = .regular k ∨ c = .kmedoids { k := k, seed := seed }

/-- The arguments that the two programs accept. -/
def ErrorArgs.Accepted (regions : List RegionMeta) (a : ErrorArgs) : Prop :=
  a.region ∈ regions ∧ a.errorType ∈ ["MASE".toList, "sMAPE".toList, "MSE".toList] ∧
    ∀ c ∈ a.suite, PlainClustering c

/-- The arguments that the programs accept. -/
def LabRun.Accepted (regions : List RegionMeta) : LabRun → Prop
  | .any r => r.Accepted regions
  | .between a => a.Accepted regions
  | .distance a => a.Accepted regions

/-- The arguments of a run that trains a solver. -/
def LabRun.trains : LabRun → Option SolverArgs
  | .any r => r.trains
  | _ => none

/-- The only auto-ARIMA of the experiments. -/
def simpleArima : ModelParams := .autoArima 1 1 3 3 none true

/-- What a clustering of the suite needs: a partition of the region `s` with as many clusters as asked for, one medoid in
each of them, and models that can be trained at the medoids. -/
structure ClusterReady (w : SolverWorld K P Q M) (a : ErrorArgs) (s : Stack K) (c : ClusterMeta) (pt : Partition)
    (medoids : List Point) : Prop where
  partition : w.partition a.region .dtw c = .ok (pt, medoids)
  setup : TrainingSetup (w.trainer simpleArima a.region) (w.refitter simpleArima a.region) a.region.scaled s a.flen pt
    medoids
  count : (pt.k : Int) = c.k

/-- What a run needs besides its clusterings: the region `s`, its distances `d`, forecasts of the right length and the
function `f` of the error. -/
structure ErrorReady (w : SolverWorld K P Q M) (tools : ErrorTools K M) (a : ErrorArgs) (s : Stack K) (f : ErrorFun K)
    (d : Point → Point → Option K) : Prop where
  region : w.region a.region = .ok s
  matrix : w.matrix a.region = .ok ()
  distances : ∀ p q : Point, p.x < s.data.grid.xLen → p.y < s.data.grid.yLen → q.x < s.data.grid.xLen →
    q.y < s.data.grid.yLen → (tools.distances a.region).get ⟨p.x * s.data.grid.yLen + p.y,
      q.x * s.data.grid.yLen + q.y⟩ = .ok (d p q)
  forecasts : ∀ q v m, (w.trainer simpleArima a.region).train q v = .ok (some m) →
    ∃ u, w.forecast m a.flen = .ok u ∧ u.length = a.flen
  error : getErrorFunc (String.ofList a.errorType) = .ok f
  mase : String.ofList a.errorType = "MASE" → s.data.tLen ≠ a.flen + 1

/-- The texts of the numbers can be read by the csv module; the region is not huge. -/
structure ErrorTools.GoodTexts (tools : ErrorTools K M) (a : ErrorArgs) (s : Stack K) : Prop where
  one : ∀ v, Readable (tools.show1 v)
  error : ∀ v, Readable (tools.showError v)
  distance : ∀ v, Readable (tools.showDistance v)
  small : s.data.grid.xLen * s.data.grid.yLen < 10 ^ 9
  x : a.region.region.x1 + s.data.grid.xLen ≤ 10 ^ 9
  y : a.region.region.y1 + s.data.grid.yLen ≤ 10 ^ 9

/-- The report of a partition: the number of points of each cluster and their percentage, which adds up to 100. -/
def ReportText (show1 : K → Str) (pt : Partition) (text : Str) : Prop :=
  ∃ share : Nat → K, csvReadText text =
      (["cluster".toList, "points".toList, "coverage".toList] ::
        (List.range pt.k).map (fun i => [natStr i, natStr (membersOf pt.labels i).length, show1 (share i)]), none) ∧
    (∀ i, share i * ((pt.labels.xLen * pt.labels.yLen : Nat) : K) = 100 * ((membersOf pt.labels i).length : K)) ∧
    ((List.range pt.k).map share).sum = 100

/-- The errors between medoids: in the row of a cluster, the errors at all the medoids of the forecast made with the data
of the medoid of the cluster. -/
def BetweenText (t : Trainer K P M) (forecast : M → Nat → Except PyErr (List (Option K))) (f : ErrorFun K)
    (showError : ErrorVal K → Str) (s : Stack K) (n : Nat) (medoids : List Point) (text : Str) : Prop :=
  ∃ errors : List (List (ErrorVal K)), csvReadText text =
      (("cluster".toList :: (List.range medoids.length).map natStr) ::
        errors.mapIdx (fun i row => natStr i :: row.map showError), none) ∧
    List.Forall₂ (fun m row => List.Forall₂ (CrossError t forecast f s n m) medoids row) medoids errors

/-- Distances and errors of a cluster: a row for every point, with its position in the dataset, its distance from the
medoid and the error at this point of the forecast made with the data of the medoid. -/
def ClusterText (t : Trainer K P M) (forecast : M → Nat → Except PyErr (List (Option K))) (f : ErrorFun K)
    (showDistance : Option K → Str) (showError : ErrorVal K → Str) (r : Region) (s : Stack K) (n : Nat)
    (d : Point → Option K) (medoid : Point) (members : List Point) (text : Str) : Prop :=
  ∃ errors : List (ErrorVal K), csvReadText text =
      (["position".toList, "distance_dtw".toList, "forecast_error".toList] ::
        List.zipWith (fun p e => ["Point(x=".toList ++ (natStr (r.x1 + p.x) ++ (", y=".toList ++
          (natStr (r.y1 + p.y) ++ [')']))), showDistance (d p), showError e]) members errors, none) ∧
    List.Forall₂ (CrossError t forecast f s n medoid) members errors

/-- `model` is trained with the series of the point `m` without its last `n` samples. -/
def ModelFrom (t : Trainer K P M) (s : Stack K) (n : Nat) (m : Point) (model : Option M) : Prop :=
  ∃ past future q, s.seriesAt m = .ok (past ++ future) ∧ future.length = n ∧ t.params.get m = .ok q ∧
    t.train q past = .ok model

/-- The files of the errors between medoids for a clustering of the suite. -/
structure BetweenFiles (w : SolverWorld K P Q M) (tools : ErrorTools K M) (a : ErrorArgs) (s : Stack K) (f : ErrorFun K)
    (c : ClusterMeta) (pt : Partition) (medoids : List Point) (files : Str → Option Str) : Prop where
  report : ∃ text, files ((a.metadata c).reportPath "outputs".toList) = some text ∧ ReportText tools.show1 pt text
  errors : ∃ text, files (medoidErrorsPath (a.metadata c) "outputs".toList) = some text ∧
    BetweenText (w.trainer simpleArima a.region) w.forecast f tools.showError s a.flen medoids text

/-- The file of distances and errors of the cluster `i` with medoid `m`: its name has the order of the model. -/
def DistanceFile (w : SolverWorld K P Q M) (tools : ErrorTools K M) (a : ErrorArgs) (s : Stack K) (c : ClusterMeta)
    (i : Nat) (m : Point) (path : Str) : Prop :=
  ∃ model p d q, ModelFrom (w.trainer simpleArima a.region) s a.flen m model ∧ tools.order model = (p, d, q) ∧
    path = distanceErrorsPath (a.metadata c) "outputs".toList i p d q

/-- The files of distances and errors for a clustering of the suite. -/
structure DistanceFiles (w : SolverWorld K P Q M) (tools : ErrorTools K M) (a : ErrorArgs) (s : Stack K)
    (f : ErrorFun K) (d : Point → Point → Option K) (c : ClusterMeta) (pt : Partition) (medoids : List Point)
    (files : Str → Option Str) : Prop where
  report : ∃ text, files ((a.metadata c).reportPath "outputs".toList) = some text ∧ ReportText tools.show1 pt text
  clusters : ∀ i m, medoids[i]? = some m → ∃ path text, DistanceFile w tools a s c i m path ∧
    files path = some text ∧ ClusterText (w.trainer simpleArima a.region) w.forecast f tools.showDistance
      tools.showError a.region.region s a.flen (d m) m (membersOf pt.labels i) text

/-- The paths of these files. -/
def BetweenPath (a : ErrorArgs) (c : ClusterMeta) (path : Str) : Prop :=
  path = (a.metadata c).reportPath "outputs".toList ∨ path = medoidErrorsPath (a.metadata c) "outputs".toList

/-- The paths of these files. -/
def DistancePath (w : SolverWorld K P Q M) (tools : ErrorTools K M) (a : ErrorArgs) (s : Stack K) (c : ClusterMeta)
    (path : Str) : Prop :=
  path = (a.metadata c).reportPath "outputs".toList ∨
    ∃ pt medoids i m, w.partition a.region .dtw c = .ok (pt, medoids) ∧ medoids[i]? = some m ∧
      DistanceFile w tools a s c i m path

end Spta
