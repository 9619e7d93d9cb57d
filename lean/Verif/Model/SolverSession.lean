import Verif.Model.SolverFiles
import Verif.Model.SolverTrain
import Verif.Model.Query

/-!
# Model of the solver programs: sessions of train and predict commands

experiments/auto_arima/solver.py, experiments/baseline/solver_mean_past.py and
experiments/baseline/solver_knn_medoids.py. The three programs differ in the forecasting model only, and
share the directory of pickle files. The parsing of the command line is left to argparse: an argument with
`choices` has one of these values. The number of test samples is not negative. The dataset and the distance
matrices do not change during a session. The result object of a prediction is modelled, what is printed and
the CSV files made of it are in Model/Result.lean and Model/SolverFiles.lean.
-/

namespace Spta

variable {K : Type} [Field K] [LinearOrder K]

/-- `predefined_regions()` — experiments/metadata/region.py:5-76: keys and metadata. -/
def predefinedRegions : List (Str × RegionMeta) :=
  [("brian_2015_2015_1spd".toList, ⟨"brian".toList, ⟨40, 80, 45, 85⟩, 2015, 2015, 1, false⟩),
   ("midregion_2015_2015_1spd".toList, ⟨"midregion".toList, ⟨20, 60, 25, 65⟩, 2015, 2015, 1, false⟩),
   ("nordeste_small_2015_2015_1spd".toList,
     ⟨"nordeste_small".toList, ⟨43, 50, 85, 95⟩, 2015, 2015, 1, false⟩),
   ("nordeste_small_2015_2015_1spd_scaled".toList,
     ⟨"nordeste_small".toList, ⟨43, 50, 85, 95⟩, 2015, 2015, 1, true⟩),
   ("nordeste_small_2014_2014_1spd".toList,
     ⟨"nordeste_small".toList, ⟨43, 50, 85, 95⟩, 2014, 2014, 1, false⟩),
   ("whole_brazil_2015_2015_1spd".toList,
     ⟨"whole_brazil".toList, ⟨20, 100, 15, 95⟩, 2015, 2015, 1, false⟩),
   ("whole_brazil_2015_2015_1spd_scaled".toList,
     ⟨"whole_brazil".toList, ⟨20, 100, 15, 95⟩, 2015, 2015, 1, true⟩),
   ("whole_real_brazil_2013_2013_1spd".toList,
     ⟨"whole_real_brazil".toList, ⟨5, 95, 15, 105⟩, 2013, 2013, 1, false⟩),
   ("whole_real_brazil_2013_2013_1spd_scaled".toList,
     ⟨"whole_real_brazil".toList, ⟨5, 95, 15, 105⟩, 2013, 2013, 1, true⟩),
   ("whole_real_brazil_2014_2014_1spd".toList,
     ⟨"whole_real_brazil".toList, ⟨5, 95, 15, 105⟩, 2014, 2014, 1, false⟩),
   ("whole_real_brazil_2014_2014_1spd_scaled".toList,
     ⟨"whole_real_brazil".toList, ⟨5, 95, 15, 105⟩, 2014, 2014, 1, true⟩),
   ("whole_real_brazil_2015_2015_1spd".toList,
     ⟨"whole_real_brazil".toList, ⟨5, 95, 15, 105⟩, 2015, 2015, 1, false⟩),
   ("whole_real_brazil_2015_2015_1spd_scaled".toList,
     ⟨"whole_real_brazil".toList, ⟨5, 95, 15, 105⟩, 2015, 2015, 1, true⟩),
   ("whole_real_brazil_2011_2015_1spd".toList,
     ⟨"whole_real_brazil".toList, ⟨5, 95, 15, 105⟩, 2011, 2015, 1, false⟩),
   ("whole_real_brazil_2011_2015_1spd_scaled".toList,
     ⟨"whole_real_brazil".toList, ⟨5, 95, 15, 105⟩, 2011, 2015, 1, true⟩)]

/-- The choices of `clustering` — experiments/auto_arima/solver.py:92-94. -/
inductive ClusteringChoice where
  | kmedoids
  | regular
  deriving DecidableEq

/-- The program and the argument that selects its model: `auto_arima` with its only choice `'simple'`
(experiments/auto_arima/solver.py:87-89, experiments/metadata/arima.py:32-40), `--past` of
solver_mean_past.py (line 103), `knn` of solver_knn_medoids.py (line 98). -/
inductive SolverProgram where
  | autoArima
  | meanPast (past : Int)
  | knn (k : Int)
  deriving DecidableEq

/-- The arguments of both commands — experiments/auto_arima/solver.py:77-120. `region` is the metadata found
under the name of the region, `errorType` one of `error_functions().keys()`. -/
structure SolverArgs where
  program : SolverProgram
  region : RegionMeta
  clustering : ClusteringChoice
  k : Int
  seed : Int := 1
  testLen : Nat := 8
  errorType : Str := "sMAPE".toList
  deriving DecidableEq

/-- The model parameters — experiments/auto_arima/solver.py:242-243, experiments/baseline/solver_mean_past.py:
243-244, experiments/baseline/solver_knn_medoids.py:238-239. -/
def SolverProgram.params : SolverProgram → ModelParams
  | .autoArima => .autoArima 1 1 3 3 none true
  | .meanPast past => .mean past
  | .knn k => .knn k .dtw

/-- `metadata_from_args(args)` with the metadata of the solver — experiments/auto_arima/solver.py:225-247,
194-200, spta/solver/train.py:48-60. The seed is ignored by the regular clustering. -/
def SolverArgs.metadata (a : SolverArgs) : SolverMeta :=
  ⟨a.region, a.program.params, a.testLen, a.errorType,
    match a.clustering with
    | .kmedoids => .kmedoids { k := a.k, seed := a.seed }
    | .regular => .regular a.k, .dtw⟩

/-- What the programs use besides the pickle files: `create_instance()` of a region metadata,
`load_distance_matrix_2d`, `partition_impl` of a clustering algorithm on the region (a None medoid counts as
an error), the trainers of models with their refitters, and the forecast of a model. `zero` and `junk` are
the contents of `np.zeros` and `np.empty` arrays of objects. -/
structure SolverWorld (K P Q M : Type) where
  region : RegionMeta → Except PyErr (Stack K)
  matrix : RegionMeta → Except PyErr Unit
  partition : RegionMeta → DistKind → ClusterMeta → Except PyErr (Partition × List Point)
  trainer : ModelParams → RegionMeta → Trainer K P M
  refitter : ModelParams → RegionMeta → Grid (Option M) → Trainer K Q M
  forecast : M → Nat → Except PyErr (List (Option K))
  zero : Option M
  junk : Option M

variable {P Q M : Type}

/-- The computation of a partition that is not found among the files; it does not depend on whether a CSV
is saved. -/
def SolverWorld.compute (w : SolverWorld K P Q M) (q : PartitionRequest) :
    Except PyErr (Partition × List Point) :=
  match q.md with
  | none => .error .attributeError
  | some md => w.partition md q.dist q.clustering

/-- `SolverTrainer(...).train()` and `solver.save()` — spta/solver/train.py:41-60, 71-139,
experiments/auto_arima/solver.py:155-180. -/
def trainCommand (w : SolverWorld K P Q M) (m : SolverMeta)
    (store : SolverStore K M (Partition × List Point)) :
    Except PyErr Unit × SolverStore K M (Partition × List Point) :=
  match w.matrix m.md with
  | .error e => (.error e, store)
  | .ok _ =>
    match w.region m.md with
    | .error e => (.error e, store)
    | .ok spt =>
      match partitionOf w.compute m true store with
      | (.error e, store) => (.error e, store)
      | (.ok p, store) =>
        match trainCompleteSolver (w.trainer m.params m.md) (w.refitter m.params m.md) w.forecast
            (String.ofList m.errorType) m.md.scaled spt m.testLen p.1 p.2 w.zero w.junk with
        | .error e => (.error e, store)
        | .ok sv => (.ok (), saveSolver m ⟨sv.training, sv.whole, sv.errors, p⟩ store)

/-- `pickler.load_solver()` and `solver.predict(prediction_region, forecast_len)` —
experiments/auto_arima/solver.py:183-215, spta/solver/model.py:45-150. -/
def predictCommand (w : SolverWorld K P Q M) (m : SolverMeta) (r : Region) (forecastLen : Int)
    (store : SolverStore K M (Partition × List Point)) :
    Except PyErr (Result K) × SolverStore K M (Partition × List Point) :=
  match loadSolver w.compute m store with
  | (.error e, store) => (.error e, store)
  | (.ok s, store) =>
    match w.region m.md with
    | .error e => (.error e, store)
    | .ok spt =>
      ((s.solver m spt).queryResult w.forecast m.md.region s.part.1 (some s.part.2) m.clustering r forecastLen,
        store)

/-- A run of one of the programs. -/
inductive SolverCommand where
  | train (a : SolverArgs)
  | predict (a : SolverArgs) (r : Region) (forecastLen : Int)
  deriving DecidableEq

/-- The arguments of a run. -/
def SolverCommand.args : SolverCommand → SolverArgs
  | .train a => a
  | .predict a _ _ => a

/-- The files after a run. -/
def SolverCommand.run (w : SolverWorld K P Q M) (store : SolverStore K M (Partition × List Point)) :
    SolverCommand → SolverStore K M (Partition × List Point)
  | .train a => (trainCommand w a.metadata store).2
  | .predict a r n => (predictCommand w a.metadata r n store).2

/-- The files after a session that starts without files. -/
def sessionStore (w : SolverWorld K P Q M) (session : List SolverCommand) :
    SolverStore K M (Partition × List Point) :=
  session.foldl (SolverCommand.run w) fun _ => none

end Spta
