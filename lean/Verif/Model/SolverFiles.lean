import Verif.Model.Clustering
import Verif.Model.Solver

/-!
# Model of the files of a solver: metadata, pickle files and names of the CSV files

spta/solver/metadata.py, `SolverPickler` in spta/solver/model.py, the names in spta/solver/result.py and
the representations of the model parameters.

Reading and writing files never fails, except that a missing file cannot be opened. A path is the string
that the code builds.
-/

namespace Spta

/-- Parameters of the forecasting models: `AutoArimaParams`, `ArimaPDQ` (spta/arima/__init__.py:3-10),
`KNNParams` (spta/model/knn.py:15), `MeanOfPastParams` (spta/model/mean.py:8). `d` may be None. -/
inductive ModelParams where
  | autoArima (startP startQ maxP maxQ : Int) (d : Option Int) (stepwise : Bool)
  | pdq (p d q : Int)
  | knn (k : Int) (dist : DistKind)
  | mean (past : Int)
  deriving DecidableEq

/-- `str` of an integer or None. -/
def optIntStr : Option Int → Str
  | none => ['N', 'o', 'n', 'e']
  | some i => intStr i

/-- `str` of a boolean. -/
def boolStr : Bool → Str
  | true => ['T', 'r', 'u', 'e']
  | false => ['F', 'a', 'l', 's', 'e']

/-- `repr(model_params)` — spta/arima/__init__.py:12-19, spta/model/knn.py:21-29,
spta/model/mean.py:14-20; `ArimaPDQ` has the default representation of a namedtuple. -/
def ModelParams.repr : ModelParams → Str
  | .autoArima sp sq mp mq d sw =>
    "auto-arima-start_p".toList ++ (intStr sp ++ ("-start_q".toList ++ (intStr sq ++ ("-max_p".toList ++
      (intStr mp ++ ("-max_q".toList ++ (intStr mq ++ ("-d".toList ++ (optIntStr d ++
        ("-stepwise".toList ++ boolStr sw))))))))))
  | .pdq p d q =>
    "ArimaPDQ(p=".toList ++ (intStr p ++ (", d=".toList ++ (intStr d ++ (", q=".toList ++
      (intStr q ++ [')'])))))
  | .knn k _ => "knn-k".toList ++ (intStr k ++ "-dtw".toList)
  | .mean past => "mean-past".toList ++ intStr past

/-- `MetadataWithClustering` — spta/solver/metadata.py:83-100. -/
structure SolverMeta where
  md : RegionMeta
  params : ModelParams
  testLen : Nat
  errorType : Str
  clustering : ClusterMeta
  dist : DistKind
  deriving DecidableEq

/-- `'__'` -/
def sep2 : Str := ['_', '_']

/-- `MetadataWithClustering.__repr__` — spta/solver/metadata.py:142-145. -/
def SolverMeta.repr (m : SolverMeta) : Str :=
  m.md.repr ++ (sep2 ++ (m.clustering.repr ++ (sep2 ++ (m.dist.repr ++ (sep2 ++ (m.params.repr ++
    (sep2 ++ m.errorType)))))))

/-! ### Pickle files -/

/-- `pickle_dir()` — spta/solver/metadata.py:135-136, spta/clustering/__init__.py:25-32, 42-48. -/
def SolverMeta.pickleDir (m : SolverMeta) : Str :=
  osJoin (osJoin sPickle m.md.repr) (osJoin m.dist.repr m.clustering.repr)

/-- `trained_model_region_filename(name_prefix, with_test_samples)` — spta/solver/metadata.py:45-65. -/
def SolverMeta.modelFile (m : SolverMeta) (withTestSamples : Bool) : Str :=
  "models-at-medoids".toList ++ (sep2 ++ (m.params.repr ++ (sep2 ++
    ((if withTestSamples then ['t', 'p'] ++ natStr m.testLen else "whole".toList) ++ ".pkl".toList))))

/-- `model_training_pickle_path()` — spta/solver/model.py:360-367. -/
def SolverMeta.trainingPath (m : SolverMeta) : Str := osJoin m.pickleDir (m.modelFile true)

/-- `model_whole_pickle_path()` — spta/solver/model.py:369-378. -/
def SolverMeta.wholePath (m : SolverMeta) : Str := osJoin m.pickleDir (m.modelFile false)

/-- The file name of the errors — spta/solver/model.py:387-389. -/
def SolverMeta.errorsFile (m : SolverMeta) : Str :=
  "errors".toList ++ (sep2 ++ (m.params.repr ++ (sep2 ++ (['t', 'p'] ++ natStr m.testLen ++ (sep2 ++
    (m.errorType ++ ".pkl".toList))))))

/-- `generalization_errors_pickle_path()` — spta/solver/model.py:380-390. -/
def SolverMeta.errorsPath (m : SolverMeta) : Str := osJoin m.pickleDir m.errorsFile

/-- The contents of the pickle files: a region of models, of errors, or a partition. -/
inductive SolverFile (K M P : Type) where
  | models (g : Grid (Option M))
  | errors (e : SpStack (ErrorVal K))
  | partition (p : P)

/-- The pickle files. -/
abbrev SolverStore (K M P : Type) := Str → Option (SolverFile K M P)

section

variable {K M P : Type}

/-- `pickle.dump(value, open(path, 'wb'))` -/
def SolverStore.write (store : SolverStore K M P) (path : Str) (f : SolverFile K M P) :
    SolverStore K M P := fun q => if q = path then some f else store q

/-- The partitions among the files. -/
def SolverStore.partitions (store : SolverStore K M P) : PickleStore P := fun q =>
  match store q with
  | some (.partition p) => some p
  | _ => none

/-- The data of a `SolverWithMedoids` besides its metadata — spta/solver/model.py:24-43. -/
structure SolverData (K M P : Type) where
  training : Grid (Option M)
  whole : Grid (Option M)
  errors : SpStack (ErrorVal K)
  part : P

/-- `save_solver(solver)` — spta/solver/model.py:255-287. -/
def saveSolver (m : SolverMeta) (s : SolverData K M P) (store : SolverStore K M P) : SolverStore K M P :=
  ((store.write m.trainingPath (.models s.training)).write m.wholePath (.models s.whole)).write
    m.errorsPath (.errors s.errors)

/-- The request for the partition of a solver. When a solver is trained (spta/solver/train.py:84-87) the
partition is also saved as CSV, when it is loaded (spta/solver/model.py:336-350) it is not. -/
def SolverMeta.request (m : SolverMeta) (saveCsv : Bool) : PartitionRequest :=
  ⟨some m.md, m.dist, m.clustering, true, saveCsv, some sPickle⟩

/-- `clustering_algorithm.partition(spt_region, with_medoids=True, pickle_home='pickle')` for the region
created from the metadata, among the files of solvers — spta/solver/train.py:76, 84-87. `compute` stands
for creating the region from its metadata, loading its distance matrix and `partition_impl`. -/
def partitionOf (compute : PartitionRequest → Except PyErr P) (m : SolverMeta) (saveCsv : Bool)
    (store : SolverStore K M P) : Except PyErr P × SolverStore K M P :=
  match store.partitions (picklePath m.md m.dist m.clustering) with
  | some p => (.ok p, store)
  | none =>
    match compute (m.request saveCsv) with
    | .error e => (.error e, store)
    | .ok p => (.ok p, store.write (picklePath m.md m.dist m.clustering) (.partition p))

/-- `load_partition()` — spta/solver/model.py:323-350: the saved partition is tried, then the partition
is requested (which tries once more to load it). -/
def loadPartition (compute : PartitionRequest → Except PyErr P) (m : SolverMeta)
    (store : SolverStore K M P) : Except PyErr P × SolverStore K M P :=
  match store.partitions (picklePath m.md m.dist m.clustering) with
  | some p => (.ok p, store)
  | none => partitionOf compute m false store

/-- `pickle.load(open(path, 'rb'))` of a region of models. An object of another type is loaded as well;
its use raises an exception later on, here at once. -/
def loadModels (path : Str) (store : SolverStore K M P) : Except PyErr (Grid (Option M)) :=
  match store path with
  | none => .error .ioError
  | some (.models g) => .ok g
  | some _ => .error .attributeError

/-- `pickle.load(open(path, 'rb'))` of a region of errors, see `loadModels`. -/
def loadErrors (path : Str) (store : SolverStore K M P) : Except PyErr (SpStack (ErrorVal K)) :=
  match store path with
  | none => .error .ioError
  | some (.errors e) => .ok e
  | some _ => .error .attributeError

/-- `load_solver()` — spta/solver/model.py:289-321. -/
def loadSolver (compute : PartitionRequest → Except PyErr P) (m : SolverMeta)
    (store : SolverStore K M P) : Except PyErr (SolverData K M P) × SolverStore K M P :=
  match loadPartition compute m store with
  | (.error e, store) => (.error e, store)
  | (.ok p, store) =>
    match loadModels m.trainingPath store with
    | .error e => (.error e, store)
    | .ok training =>
      match loadModels m.wholePath store with
      | .error e => (.error e, store)
      | .ok whole =>
        match loadErrors m.errorsPath store with
        | .error e => (.error e, store)
        | .ok errors => (.ok ⟨training, whole, errors, p⟩, store)

/-- The solver that answers queries — spta/solver/model.py:24-43: besides its data, it takes the number
of test samples, the flag and the region from its metadata. -/
def SolverData.solver (s : SolverData K M P) (m : SolverMeta) (spt : Stack K) : Solver K M :=
  ⟨s.training, s.whole, s.errors, m.testLen, m.md.scaled, spt⟩

/-- What happens to the files over time: partitions are requested, solvers are saved and loaded. -/
inductive SolverOp (K M P : Type) where
  | cluster (m : SolverMeta) (saveCsv : Bool)
  | save (m : SolverMeta) (s : SolverData K M P)
  | load (m : SolverMeta)

/-- The files after an operation. -/
def SolverOp.run (compute : PartitionRequest → Except PyErr P) (store : SolverStore K M P) :
    SolverOp K M P → SolverStore K M P
  | .cluster m saveCsv => (partitionOf compute m saveCsv store).2
  | .save m s => saveSolver m s store
  | .load m => (loadSolver compute m store).2

/-- The metadata of an operation. -/
def SolverOp.meta_ : SolverOp K M P → SolverMeta
  | .cluster m _ => m
  | .save m _ => m
  | .load m => m

/-- The files after a history. -/
def runSolverOps (compute : PartitionRequest → Except PyErr P) (ops : List (SolverOp K M P))
    (store : SolverStore K M P) : SolverStore K M P := ops.foldl (SolverOp.run compute) store

end

/-! ### CSV files -/

/-- `prediction_region_as_str` — spta/solver/metadata.py:67-74. -/
def regionStr (r : Region) : Str :=
  "region-".toList ++ (natStr r.x1 ++ '-' :: (natStr r.x2 ++ '-' :: (natStr r.y1 ++ '-' :: natStr r.y2)))

/-- `output_dir(output_home)` — spta/solver/metadata.py:102-112, spta/clustering/__init__.py:34-40,
spta/region/metadata.py:168-172. -/
def SolverMeta.outputDir (m : SolverMeta) (home : Str) : Str :=
  osJoin (osJoin (osJoin home m.md.repr) (osJoin m.dist.repr m.clustering.repr)) m.params.repr

/-- `csv_dir(output_home, prediction_region)` — spta/solver/metadata.py:23-30. -/
def SolverMeta.csvDir (m : SolverMeta) (home : Str) (r : Region) : Str :=
  osJoin (m.outputDir home) (regionStr r)

/-- `csv_filename(name_prefix, prediction_region, forecast_len)` — spta/solver/metadata.py:114-133. -/
def SolverMeta.csvFile (m : SolverMeta) (namePrefix : Str) (r : Region) (forecastLen : Int) : Str :=
  let forecastStr := if 0 < forecastLen then intStr forecastLen else ['_', 'i', 's']
  namePrefix ++ '-' :: (m.clustering.repr ++ (sep2 ++ (regionStr r ++ (sep2 ++ (['t', 'p'] ++ natStr m.testLen ++
    (sep2 ++ (['t', 'f'] ++ forecastStr ++ (sep2 ++ (m.errorType ++ ".csv".toList)))))))))

/-- The two files written for a result, the second with its two prefixes — spta/solver/result.py:
196-236, 355-360, 584-588. -/
inductive CsvKind where
  | result
  | summary
  deriving DecidableEq

/-- A result written as CSV: its metadata, prediction region and forecast length (0 for in-sample
results — spta/solver/result.py:245-252). -/
structure CsvResult where
  meta_ : SolverMeta
  region : Region
  forecastLen : Nat
  deriving DecidableEq

/-- The prefix of the file name — spta/solver/result.py:214-218, 223, 355-360. A result is out-of-sample
if its forecast length is positive (spta/solver/model.py:61-66). -/
def CsvResult.namePrefix (q : CsvResult) : CsvKind → Str
  | .result => if 0 < q.forecastLen then "query-result-future".toList else "query-result".toList
  | .summary => "query-summary".toList

/-- The path of a file — spta/solver/result.py:199-202, 223-225. -/
def CsvResult.path (q : CsvResult) (home : Str) (kind : CsvKind) : Str :=
  osJoin (q.meta_.csvDir home q.region)
    (q.meta_.csvFile (q.namePrefix kind) q.region (q.forecastLen : Int))

end Spta
