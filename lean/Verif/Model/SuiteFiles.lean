import Verif.Model.SolverFiles

/-!
# Model of the names of the files of clustering suites and of the solvers without clustering

spta/clustering/suite.py:161-225, `csv_filepaths` in spta/classifier/train_input.py, `SolverMetadataBasic` and
`MetadataForClusteringSuite` in spta/solver/metadata.py. A path is the string that the code builds.
-/

namespace Spta

/-- `metadata_name` and `identifier` of a suite — spta/clustering/suite.py:57-58. -/
structure SuiteId where
  name : Str
  identifier : Str
  deriving DecidableEq

/-- `repr(suite)` — spta/clustering/suite.py:224-225. -/
def SuiteId.repr (s : SuiteId) : Str := s.name ++ '-' :: s.identifier

/-- `csv_dir(output_home, region_metadata, distance_measure)` — spta/clustering/suite.py:161-167,
spta/region/metadata.py:168-172. -/
def suiteCsvDir (home : Str) (md : RegionMeta) (dist : DistKind) : Str :=
  osJoin home md.repr ++ '/' :: dist.repr

/-- `csv_suite_dir(output_home, region_metadata, distance_measure)` — spta/clustering/suite.py:169-175. -/
def SuiteId.dir (s : SuiteId) (home : Str) (md : RegionMeta) (dist : DistKind) : Str :=
  osJoin (suiteCsvDir home md dist) s.repr

/-- `analysis_csv_filename()` — spta/clustering/suite.py:177-182. -/
def SuiteId.analysisFile (s : SuiteId) : Str := "clustering__".toList ++ (s.repr ++ ".csv".toList)

/-- `analysis_csv_filepath(output_home, region_metadata, distance_measure)`
— spta/clustering/suite.py:184-190. -/
def SuiteId.analysisPath (s : SuiteId) (home : Str) (md : RegionMeta) (dist : DistKind) : Str :=
  suiteCsvDir home md dist ++ '/' :: s.analysisFile

/-- `medoid_series_csv_filename()` — spta/clustering/suite.py:192-198. -/
def SuiteId.medoidFile (s : SuiteId) : Str := "medoid_data__".toList ++ (s.repr ++ ".csv".toList)

/-- `medoid_series_csv_filepath(output_home, region_metadata, distance_measure)`
— spta/clustering/suite.py:200-202. -/
def SuiteId.medoidPath (s : SuiteId) (home : Str) (md : RegionMeta) (dist : DistKind) : Str :=
  suiteCsvDir home md dist ++ '/' :: s.medoidFile

/-- `classifier_csv_filename(prediction_region, tp)` — spta/clustering/suite.py:204-216. -/
def SuiteId.classifierFile (s : SuiteId) (_r : Region) (_tp : Nat) : Str :=
  "clustering__classifier_result__".toList ++ (s.repr ++ "__region-0-5-0-5__tp8.csv".toList)

/-- The criteria of the training input and the settings of their strategies
— spta/classifier/train_input.py:58-63, 309-322. -/
inductive ChoiceCriterion where
  | minDistance
  | minError (params : ModelParams) (testLen : Nat) (errorType : Str)
  deriving DecidableEq

/-- The two files of the training input: the choices and their histogram
— spta/classifier/train_input.py:349-357, 442-452. -/
inductive ChoiceFile where
  | choice
  | hist
  deriving DecidableEq

/-- The first placeholder of the templates — spta/classifier/train_input.py:355-356, 448-451. -/
def ChoiceFile.text : ChoiceFile → Str
  | .choice => "random_point".toList
  | .hist => "hist".toList

/-- The last part of the templates — spta/classifier/train_input.py:354, 447. -/
def countSeed (count : Nat) (seed : Int) : Str :=
  "_count".toList ++ (natStr count ++ ("_seed".toList ++ (intStr seed ++ ".csv".toList)))

/-- The file names of `csv_filepaths(output_home, clustering_suite, count, random_seed)`
— spta/classifier/train_input.py:349-357, 442-452. -/
def ChoiceCriterion.file (c : ChoiceCriterion) (s : SuiteId) (f : ChoiceFile) (count : Nat) (seed : Int) : Str :=
  match c with
  | .minDistance => f.text ++ ("_dist_medoid__".toList ++ (s.repr ++ countSeed count seed))
  | .minError params testLen errorType =>
    f.text ++ ("_medoid_min_pred_error__".toList ++ (params.repr ++ (sep2 ++ (['t', 'p'] ++ (natStr testLen ++ (sep2 ++
      (errorType ++ (sep2 ++ (s.repr ++ countSeed count seed)))))))))

/-- The files of a run of `evaluate_score_of_random_points` — spta/classifier/train_input.py:65-95. The
threshold is an argument of the run, and not passed to `csv_filepaths`. -/
structure ChoiceRun where
  md : RegionMeta
  dist : DistKind
  suite : SuiteId
  criterion : ChoiceCriterion
  count : Nat
  seed : Int
  threshold : Nat
  deriving DecidableEq

/-- The paths of the two files of a run — spta/classifier/train_input.py:92-95, 353-357, 446-452. -/
def ChoiceRun.path (r : ChoiceRun) (home : Str) (f : ChoiceFile) : Str :=
  osJoin (suiteCsvDir home r.md r.dist) (r.criterion.file r.suite f r.count r.seed)

/-! ### Results of solvers -/

/-- Which solver a result belongs to: `SolverMetadataBasic`, `MetadataForClusteringSuite` or
`MetadataWithClustering`. -/
inductive SolverKind where
  | basic
  | suite (s : SuiteId) (dist : DistKind)
  | clustering (c : ClusterMeta) (dist : DistKind)
  deriving DecidableEq

/-- A result with the metadata of any solver; the forecast length is 0 for results in sample
(spta/solver/result.py:245-252). -/
structure AnyResult where
  md : RegionMeta
  params : ModelParams
  testLen : Nat
  errorType : Str
  kind : SolverKind
  region : Region
  forecastLen : Nat
  deriving DecidableEq

/-- `output_dir(output_home)` without the last part — spta/solver/metadata.py:15-21, 102-112, 163-172. -/
def AnyResult.baseDir (q : AnyResult) (home : Str) : Str :=
  match q.kind with
  | .basic => osJoin home q.md.repr
  | .suite s dist => s.dir home q.md dist
  | .clustering c dist => osJoin (osJoin home q.md.repr) (osJoin dist.repr c.repr)

/-- `csv_filename(name_prefix, prediction_region, forecast_len)` — spta/solver/metadata.py:32-40 (also of
`MetadataForClusteringSuite`), 114-133. -/
def AnyResult.file (q : AnyResult) (namePrefix : Str) : Str :=
  match q.kind with
  | .clustering c dist => SolverMeta.csvFile ⟨q.md, q.params, q.testLen, q.errorType, c, dist⟩ namePrefix q.region
      (q.forecastLen : Int)
  | _ => namePrefix ++ (sep2 ++ (regionStr q.region ++ (sep2 ++ (['t', 'p'] ++ (natStr q.testLen ++ (sep2 ++
      (['t', 'f'] ++ (natStr q.forecastLen ++ (sep2 ++ (q.errorType ++ ".csv".toList))))))))))

/-- The prefix of the file name — spta/solver/result.py:214-218, 223, 355-360. -/
def AnyResult.namePrefix (q : AnyResult) : CsvKind → Str
  | .result => if 0 < q.forecastLen then "query-result-future".toList else "query-result".toList
  | .summary => "query-summary".toList

/-- The path of a file — spta/solver/metadata.py:23-30, spta/solver/result.py:199-202, 223-225. -/
def AnyResult.path (q : AnyResult) (home : Str) (kind : CsvKind) : Str :=
  osJoin (osJoin (osJoin (q.baseDir home) q.params.repr) (regionStr q.region)) (q.file (q.namePrefix kind))

end Spta
