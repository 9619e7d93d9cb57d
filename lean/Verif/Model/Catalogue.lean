import Verif.Model.Arima
import Verif.Model.ClusterRun
import Verif.Model.PartitionAnalysis
import Verif.Model.SolverSession
import Verif.Model.Suite

/-!
# Model of the catalogues in experiments/metadata

The dictionaries are lists of pairs, in the order of the code. All keys of a dictionary are different.
-/

namespace Spta

/-- `range(start, stop, step)`, for a positive step. -/
def intRange (start stop step : Nat) : List Int :=
  (List.range ((stop - start + (step - 1)) / step)).map fun i => ((start + i * step : Nat) : Int)

/-- `d[key]` -/
def dictAt {α : Type} (d : List (Str × α)) (key : Str) : Except PyErr α :=
  match d.lookup key with
  | none => .error .keyError
  | some v => .ok v

/-! ### Suites of clusterings -/

/-- `kmedoids_suites()` — experiments/metadata/clustering.py:9-25, with spta/clustering/kmedoids.py:91-104. -/
def kmedoidsSuites : List (Str × SuiteParams) :=
  [("quick".toList, { ks := some (intRange 2 4 1), seeds := .many (intRange 0 2 1) }),
   ("large".toList, { ks := some (intRange 12 15 1), seeds := .many (intRange 0 2 1) }),
   ("all".toList, { ks := some (intRange 2 151 1), seeds := .many (intRange 0 3 1) })]

/-- `regular_suites()` — experiments/metadata/clustering.py:28-38, with spta/clustering/regular.py:37-46. -/
def regularSuites : List (Str × SuiteParams) :=
  [("quick".toList, { ks := some (intRange 2 4 1) }),
   ("part1".toList, { ks := some (intRange 2 96 1) }),
   ("part2".toList, { ks := some (intRange 96 151 2) })]

/-- `get_suite(clustering_type, clustering_suite_id)` — experiments/metadata/clustering.py:41-50: the
metadatas of the suite. -/
def getSuite (clusteringType suiteId : Str) : Except PyErr (List ClusterMeta) :=
  if clusteringType = sKmedoids then
    match dictAt kmedoidsSuites suiteId with
    | .error e => .error e
    | .ok p => createSuite sKmedoids p
  else if clusteringType = sRegular then
    match dictAt regularSuites suiteId with
    | .error e => .error e
    | .ok p => createSuite sRegular p
  else .error .unboundLocalError

/-- `suite_options()` — experiments/metadata/clustering.py:54-62; the order of a set is not modelled. -/
def suiteOptions : List Str := ((kmedoidsSuites.map Prod.fst) ++ (regularSuites.map Prod.fst)).dedup

/-! ### Experiments with ARIMA -/

/-- `predefined_arima_suites()` — experiments/metadata/arima.py:4-17. -/
def arimaSuites : List (Str × (List Int × List Int × List Int)) :=
  [("arima_simple".toList, ([2], [1], [1])),
   ("arima_1_1_1".toList, ([1], [1], [1])),
   ("arima_two".toList, ([2], [0], intRange 1 3 1)),
   ("arima_1_2_1".toList, ([1], [2], [1])),
   ("arima_2_2_2".toList, ([2], [2], [2])),
   ("arima_sweep".toList, ([0, 1, 2, 3], intRange 0 2 1, intRange 0 3 1))]

/-- `arima_suite_by_name(suite_name)` and its generator — experiments/metadata/arima.py:20-29. -/
def arimaSuiteByName (name : Str) : Except PyErr (List PDQ) :=
  match dictAt arimaSuites name with
  | .error e => .error e
  | .ok (ps, ds, qs) => .ok (arimaParamsGen ps ds qs)

/-- `predefined_auto_arima()` — experiments/metadata/arima.py:32-42. -/
def autoArimaIds : List (Str × ModelParams) :=
  [("simple".toList, .autoArima 1 1 3 3 none true)]

/-- `ArimaWithClusters` and `AutoArimaCluster` — experiments/metadata/arima_clustering.py:4-5, 45-46. -/
structure ArimaClustering where
  arimaId : Str
  clusteringType : Str
  suiteId : Str
  distance : Str
  deriving DecidableEq

/-- `experiments_for_arima_with_clusters()` — experiments/metadata/arima_clustering.py:7-18. -/
def arimaClusterings : List (Str × ArimaClustering) :=
  [("arima_simple_quick".toList, ⟨"arima_simple".toList, sKmedoids, "quick".toList, "dtw".toList⟩),
   ("arima_two_quick".toList, ⟨"arima_two".toList, sKmedoids, "quick".toList, "dtw".toList⟩),
   ("arima_whole_brazil".toList, ⟨"arima_sweep".toList, sKmedoids, "even".toList, "dtw".toList⟩)]

/-- `auto_arima_clustering_experiments()` — experiments/metadata/arima_clustering.py:50-63. -/
def autoArimaClusterings : List (Str × ArimaClustering) :=
  [("simple_kmedoids_quick".toList, ⟨"simple".toList, sKmedoids, "quick".toList, "dtw".toList⟩),
   ("simple_regular_quick".toList, ⟨"simple".toList, sRegular, "quick".toList, "dtw".toList⟩),
   ("simple_kmedoids_all".toList, ⟨"simple".toList, sKmedoids, "all".toList, "dtw".toList⟩),
   ("simple_regular_part1".toList, ⟨"simple".toList, sRegular, "part1".toList, "dtw".toList⟩),
   ("simple_regular_part2".toList, ⟨"simple".toList, sRegular, "part2".toList, "dtw".toList⟩)]

/-- `metadata_from_args(args)` — experiments/arima/training_error_analysis.py:226-245: region, suite and
orders. -/
def arimaClusteringArgs (region experiment : Str) : Except PyErr (RegionMeta × List ClusterMeta × List PDQ) :=
  match dictAt predefinedRegions region with
  | .error e => .error e
  | .ok md =>
    match dictAt arimaClusterings experiment with
    | .error e => .error e
    | .ok x =>
      match getSuite x.clusteringType x.suiteId with
      | .error e => .error e
      | .ok suite =>
        match arimaSuiteByName x.arimaId with
        | .error e => .error e
        | .ok orders => .ok (md, suite, orders)

/-- `metadata_from_args(args)` — experiments/auto_arima/training_error_analysis.py:260-279,
experiments/auto_arima/distance_errors.py:256-271, experiments/auto_arima/error_between_medoids.py:183-196,
experiments/classifier/solver_dnn.py:131-144. -/
def autoArimaClusteringArgs (region experiment : Str) :
    Except PyErr (RegionMeta × List ClusterMeta × ModelParams) :=
  match dictAt predefinedRegions region with
  | .error e => .error e
  | .ok md =>
    match dictAt autoArimaClusterings experiment with
    | .error e => .error e
    | .ok x =>
      match getSuite x.clusteringType x.suiteId with
      | .error e => .error e
      | .ok suite =>
        match dictAt autoArimaIds x.arimaId with
        | .error e => .error e
        | .ok params => .ok (md, suite, params)

/-- `metadata_from_args(args)` — experiments/clustering/partition_analysis.py:212-228, experiments/clustering/medoid_distances.py:143-149,
experiments/clustering/extraction_lstm.py:116-134. -/
def suiteArgs (region clusteringType suiteId : Str) : Except PyErr (RegionMeta × List ClusterMeta) :=
  match dictAt predefinedRegions region with
  | .error e => .error e
  | .ok md =>
    match getSuite clusteringType suiteId with
    | .error e => .error e
    | .ok suite => .ok (md, suite)

/-! ### Silhouette analyses -/

/-- The values of k and the seeds in `silhouettes_metadata` — experiments/metadata/silhouette.py:16-35. -/
def silhouettes : List (Str × (List Int × List Int)) :=
  [("brian".toList, (intRange 2 6 1, intRange 0 3 1)),
   ("midregion".toList, (intRange 2 8 1, intRange 0 3 1)),
   ("nordeste_small".toList, (intRange 2 8 1, intRange 0 3 1)),
   ("sp_small".toList, ([2, 3, 4], [0])),
   ("sp_rj".toList, ([2, 3, 4], [0])),
   ("whole_brazil".toList, (intRange 12 13 1, intRange 0 4 1))]

/-- The metadata of `do_silhouette(args)` — experiments/clustering/silhouette.py:31-37. -/
def silhouetteArgs (region : Str) : Except PyErr (RegionMeta × (List Int × List Int)) :=
  match dictAt predefinedRegions region with
  | .error e => .error e
  | .ok md =>
    match dictAt silhouettes md.name with
    | .error e => .error e
    | .ok s => .ok (md, s)

/-! ### Centroids -/

/-- `precalculated_centroids()` — experiments/metadata/centroid.py:8-17: the keys are the name of a region and
the class of the distance measure. -/
def precalculatedCentroids : List ((Str × Str) × Point) :=
  [(("nordeste_small_1y_1ppd".toList, "DistanceByDTW".toList), ⟨4, 6⟩),
   (("nordeste_small_1y_1ppd_norm".toList, "DistanceByDTW".toList), ⟨4, 6⟩)]

/-- `centroid_by_region_and_distance(sptr_name, distance_measure)` — experiments/metadata/centroid.py:20-49;
`className` is the class of the measure, `calculate` is `CalculateCentroid.for_sptr_metadata`. -/
def centroidByRegion (calculate : RegionMeta → Except PyErr (Option Point)) (name className : Str) :
    Except PyErr (Option Point) :=
  match precalculatedCentroids.lookup (name, className) with
  | some p => .ok (some p)
  | none =>
    if className ≠ "DistanceByDTW".toList then .error .assertionError
    else
      match dictAt predefinedRegions name with
      | .error e => .error e
      | .ok md => calculate md

/-! ### Analysis of a suite of regular clusterings -/

section

variable {K : Type} [Field K] [LinearOrder K]

/-- A medoid that is None has no coordinates — experiments/clustering/partition_analysis.py:157-165. -/
def medoidOrAttribute : Option Point → Except PyErr Point
  | none => .error .attributeError
  | some p => .ok p

/-- The partition of the algorithm of a regular metadata — spta/clustering/factory.py:45-52,
spta/clustering/regular.py:58-78, with the loaded distances `m`. A number of clusters is not negative. Other
metadata are not considered here (NotImplementedError). -/
def regularPartitionOf {α : Type} (g : Grid α) (m : Grid (Option K)) :
    ClusterMeta → Except PyErr (Partition × List Point)
  | .kmedoids _ => .error .notImplementedError
  | .regular k =>
    match regularPartitionImpl k.toNat
        (⟨m.xLen, m.yLen, m.data.map (Option.map ((↑) : K → WithTop K))⟩ : Grid (Option (WithTop K))) g true with
    | .error e => .error e
    | .ok (pt, ms) =>
      match (ms.getD []).mapM medoidOrAttribute with
      | .error e => .error e
      | .ok medoids => .ok (pt, medoids)

end

end Spta
