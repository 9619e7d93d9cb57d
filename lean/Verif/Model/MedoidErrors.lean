import Verif.Model.SolverTrain
import Verif.Model.SolverFiles
import Verif.Model.PartitionAnalysis

/-!
# Model of the experiments on the errors of the models of medoids

experiments/auto_arima/error_between_medoids.py, experiments/auto_arima/distance_errors.py, for one clustering:
the distance matrix is loaded before, the partition with its medoids is a parameter (Model/Clustering,
Model/KMedoids). `t` stands for the trainer, `forecast` for the forecasts of its models. Not modelled: plots,
logging, creation of directories. A file is the list of its lines.
-/

namespace Spta

variable {K : Type} [Field K] [LinearOrder K]

/-- `ErrorAnalysis(observation, training).with_repeated_forecast(series, error_type)`
— spta/model/error.py:276-312. -/
def repeatedForecastNamed (errorType : String) (observation training : Stack K) (series : List (Option K)) :
    Except PyErr (SpStack (ErrorVal K)) :=
  match observation.repeatSeries series with
  | .error e => .error e
  | .ok repeated =>
    match getErrorFunc errorType with
    | .error e => .error e
    | .ok f => measureError f observation (some training) repeated

/-- `arima_model_region.function_at(medoid)(None)` — experiments/auto_arima/error_between_medoids.py:154-156,
experiments/auto_arima/distance_errors.py:153-155, spta/model/base.py:19-43. -/
def forecastSeriesAt {M : Type} (forecast : M → Nat → Except PyErr (List (Option K))) (n : Nat)
    (models : Grid (Option M)) (p : Point) : Except PyErr (List (Option K)) :=
  match models.get p with
  | .error e => .error e
  | .ok model => forecastOf forecast n model

/-! ### Errors between medoids -/

/-- `find_auto_arima_errors_for_medoid` — experiments/auto_arima/error_between_medoids.py:149-180: the line
that is appended. `showError` is `'{:.3f}'.format`. -/
def medoidErrorLine {M : Type} (forecast : M → Nat → Except PyErr (List (Option K))) (errorType : String)
    (showError : ErrorVal K → Str) (training test : Stack K) (models : Grid (Option M)) (n : Nat)
    (medoids : List Point) (i : Nat) (medoid : Point) : Except PyErr Str :=
  match forecastSeriesAt forecast n models medoid with
  | .error e => .error e
  | .ok series =>
    match repeatedForecastNamed errorType test training series with
    | .error e => .error e
    | .ok errors =>
      match medoids.mapM errors.valueAt with
      | .error e => .error e
      | .ok atMedoids => .ok (csvRow (natStr i :: atMedoids.map showError))

/-- The loop over the medoids — experiments/auto_arima/error_between_medoids.py:142-145; `line i medoid` is
the line of one iteration, appended to the file before the next one. -/
def medoidErrorLoop (line : Nat → Point → Except PyErr Str) :
    Nat → List Point → List Str → Except PyErr Unit × List Str
  | _, [], file => (.ok (), file)
  | i, medoid :: rest, file =>
    match line i medoid with
    | .error e => (.error e, file)
    | .ok l => medoidErrorLoop line (i + 1) rest (file ++ [l])

/-- The header — experiments/auto_arima/error_between_medoids.py:132-140. -/
def medoidErrorHeader (k : Nat) : Str :=
  csvRow (['c', 'l', 'u', 's', 't', 'e', 'r'] :: (List.range k).map natStr)

/-- `do_auto_arima_errors_for_clustering` from the partition on
— experiments/auto_arima/error_between_medoids.py:107-147: the outcome and the file afterwards (`none`: not
written). `k` is the one of the clustering metadata. -/
def medoidErrorsFile {P M : Type} (t : Trainer K P M) (forecast : M → Nat → Except PyErr (List (Option K)))
    (errorType : String) (showError : ErrorVal K → Str) (s : Stack K) (n k : Nat) (medoids : List Point)
    (zero : Option M) : Except PyErr Unit × Option (List Str) :=
  let (training, test) := splitLast s n
  match t.applyAtRepresentatives medoids zero training with
  | .error e => (.error e, none)
  | .ok (models, _) =>
    let r := medoidErrorLoop (medoidErrorLine forecast errorType showError training test models n medoids) 0
      medoids [medoidErrorHeader k]
    (r.1, some r.2)

/-- The path of the file — experiments/auto_arima/error_between_medoids.py:121-127; `m` is the metadata of the
solver trainer (spta/solver/train.py:49-55), whose number of test samples is the forecast length. -/
def medoidErrorsPath (m : SolverMeta) (home : Str) : Str :=
  osJoin (m.outputDir home)
    ("error-between-medoids".toList ++ (sep2 ++ (m.clustering.repr ++ (sep2 ++ (m.errorType ++ ".csv".toList)))))

/-! ### Distance against error in a cluster -/

/-- `str(point)`, the representation of a namedtuple. -/
def pointText (p : Point) : Str :=
  "Point(x=".toList ++ (natStr p.x ++ (", y=".toList ++ (natStr p.y ++ [')'])))

/-- The loop over the points of the cluster — experiments/auto_arima/distance_errors.py:205-220. -/
def distanceErrorRows (showDistance : Option K → Str) (showError : ErrorVal K → Str) (r : Region)
    (distances : List (Option K)) (errors : List (ErrorVal K)) : Nat → List Point → Except PyErr (List Str)
  | _, [] => .ok []
  | j, p :: rest =>
    match listAt distances j with
    | .error e => .error e
    | .ok d =>
      match listAt errors j with
      | .error e => .error e
      | .ok v =>
        match distanceErrorRows showDistance showError r distances errors (j + 1) rest with
        | .error e => .error e
        | .ok rows =>
          .ok (csvRow [pointText (absolutePosition r p), showDistance d, showError v] :: rows)

/-- The header for DTW — experiments/auto_arima/distance_errors.py:201-203. -/
def distanceErrorHeader : Str :=
  csvRow [['p', 'o', 's', 'i', 't', 'i', 'o', 'n'],
    ['d', 'i', 's', 't', 'a', 'n', 'c', 'e', '_', 'd', 't', 'w'],
    ['f', 'o', 'r', 'e', 'c', 'a', 's', 't', '_', 'e', 'r', 'r', 'o', 'r']]

/-- `distance_vs_errors_for_cluster` — experiments/auto_arima/distance_errors.py:123-222 for the cluster `i` of
the region `s` with the given medoid: the model of the medoid and the lines of the file. `r` is the rectangle
of the region metadata, `m` the distance matrix. -/
def distanceErrorsOf {P M : Type} (t : Trainer K P M) (forecast : M → Nat → Except PyErr (List (Option K)))
    (errorType : String) (showDistance : Option K → Str) (showError : ErrorVal K → Str) (r : Region)
    (m : Grid (Option K)) (s : Stack K) (n : Nat) (pt : Partition) (i : Nat) (medoid : Point)
    (zero : Option M) : Except PyErr (Option M × List Str) :=
  let cluster := Stack.cluster s pt i
  let (training, test) := splitLast cluster n
  match (⟨s.data.grid, pt, i, 0⟩ : ClusterObj (List (Option K))).allPointIndices with
  | .error e => .error e
  | .ok indices =>
    match distancesToPointWithMatrix m s.data.grid.yLen medoid indices with
    | .error e => .error e
    | .ok distances =>
      match t.applyAtRepresentatives [medoid] zero training with
      | .error e => .error e
      | .ok (models, _) =>
        match forecastSeriesAt forecast n models medoid with
        | .error e => .error e
        | .ok series =>
          match test.seriesAt medoid, models.get medoid with
          | .error e, _ => .error e
          | _, .error e => .error e
          | .ok _, .ok model =>
            match repeatedForecastNamed errorType test training series with
            | .error e => .error e
            | .ok errorRegion =>
              match errorRegion.items with
              | .error e => .error e
              | .ok errors =>
                match cluster.items with
                | .error e => .error e
                | .ok points =>
                  match distanceErrorRows showDistance showError r distances (errors.map Prod.snd) 0
                      (points.map Prod.fst) with
                  | .error e => .error e
                  | .ok rows => .ok (model, distanceErrorHeader :: rows)

/-- The loop over the clusters — experiments/auto_arima/distance_errors.py:113-120, with the creation of the
clusters (spta/region/partition.py:146-198): without medoids the centroid of a cluster is None and has no
coordinates. -/
def distanceErrorsAll {P M : Type} (t : Trainer K P M) (forecast : M → Nat → Except PyErr (List (Option K)))
    (errorType : String) (showDistance : Option K → Str) (showError : ErrorVal K → Str) (r : Region)
    (m : Grid (Option K)) (s : Stack K) (n : Nat) (pt : Partition) (medoids : List Point)
    (zero : Option M) : Except PyErr (List (Option M × List Str)) :=
  if pt.k ≠ 0 ∧ ¬ (pt.labels.xLen = s.data.grid.xLen ∧ pt.labels.yLen = s.data.grid.yLen) then
    .error .assertionError
  else if medoids ≠ [] ∧ medoids.length < pt.k then .error .indexError
  else (List.range pt.k).mapM fun i =>
    match medoids[i]? with
    | none => .error .attributeError
    | some medoid => distanceErrorsOf t forecast errorType showDistance showError r m s n pt i medoid zero

/-- The path of the file of cluster `i` whose medoid has a model of order `(p, d, q)`
— experiments/auto_arima/distance_errors.py:182-193 (-1, -1, -1 without a model, spta/arima/train.py:20, 277-290); the
name of the cluster is in spta/region/partition.py:182. -/
def distanceErrorsPath (m : SolverMeta) (home : Str) (i : Nat) (p d q : Int) : Str :=
  osJoin (m.outputDir home)
    ("dist-error".toList ++ (sep2 ++ (m.clustering.repr ++ (sep2 ++ (m.errorType ++ (sep2 ++
      ("cluster".toList ++ (natStr i ++ (sep2 ++ ("auto-arima-p".toList ++ (intStr p ++ ("-d".toList ++
        (intStr d ++ ("-q".toList ++ (intStr q ++ ".csv".toList)))))))))))))))

end Spta
