import Verif.Model.Classifier
import Verif.Model.CsvText
import Verif.Model.SolverSession
import Verif.Model.SuiteFiles

/-!
# Model of the program that predicts with a classifier

experiments/classifier/solver_dnn.py: one query of a new `SolverFromClassifier` on the files that the solver programs
have left, the lines on the screen and the CSV files. The parsing of the command line is left to argparse and the
catalogues (C134); the numbers of the prediction region and of test samples are not negative. The trainer of line
104 is used for the shape of a region of models only.
-/

namespace Spta

variable {K : Type} [Field K] [LinearOrder K]

/-- What `metadata_from_args(args)` and the other arguments give — experiments/classifier/solver_dnn.py:41-97, 131-156:
the region of the solvers, the suite of the auto-ARIMA experiment, the identifier of the classifier with its window, the
prediction region, the region of the labels if there is one, the number of test samples and the type of error. -/
structure DnnArgs where
  region : RegionMeta
  suite : SuiteId
  classifier : Str
  window : Nat
  prediction : Region
  outOfSample : Option RegionMeta := none
  testLen : Nat := 8
  errorType : Str := "sMAPE".toList
  deriving DecidableEq

/-- What the program uses besides the world of the solver programs: `ClassifierDNN(classifier_params)` for an identifier,
the content of `np.empty`, the operations of the summary and the texts of numbers. -/
structure DnnTools (K : Type) where
  classifier : Str → Except PyErr (List (Option K) → Except PyErr Str)
  junk : Option K
  measure : List (Option K) → List (Option K) → Option K
  combine : List (Option K) → Option K
  root : Option K → Option K
  text : NumberText K

variable {P Q M : Type}

/-- The solver of the program — experiments/classifier/solver_dnn.py:92, 104-112, 142-146; `'simple'` is the only
auto-ARIMA of the experiments (experiments/metadata/arima.py:32-40). -/
def dnnEnv (w : SolverWorld K P Q M) (tools : DnnTools K) (a : DnnArgs) :
    ClassifierEnv K M (Partition × List Point) where
  md := a.region
  dist := .dtw
  params := .autoArima 1 1 3 3 none true
  testLen := a.testLen
  errorType := a.errorType
  createInst := w.region
  classifier := tools.classifier a.classifier
  compute := w.compute
  medoidsOf p := some p.2
  forecast := w.forecast
  junk := tools.junk

/-- The metadata of the files of the result: `MetadataForClusteringSuite` — spta/classifier/model.py:75-78,
spta/solver/metadata.py:145-203. -/
def DnnArgs.result (a : DnnArgs) : AnyResult :=
  ⟨a.region, .autoArima 1 1 3 3 none true, a.testLen, a.errorType, .suite a.suite .dtw, a.prediction, 0⟩

/-- The path of a CSV file of the result; `output_home='outputs'` — experiments/classifier/solver_dnn.py:114-117. -/
def DnnArgs.path (a : DnnArgs) (kind : CsvKind) : Str := a.result.path "outputs".toList kind

/-- The program — experiments/classifier/solver_dnn.py:83-131: what is printed, the pickle files and the CSV files. A new
solver is used for the query. -/
def dnnCommand (w : SolverWorld K P Q M) (tools : DnnTools K) (a : DnnArgs)
    (store : SolverStore K M (Partition × List Point)) (files : Str → Option Str) :
    Except PyErr (List (List Str)) × SolverStore K M (Partition × List Point) × (Str → Option Str) :=
  match (dnnEnv w tools a).predict a.prediction a.window a.outOfSample (ClassifierState.new store) with
  | (.error e, st) => (.error e, st.store, files)
  | (.ok pr, st) =>
    match st.regions with
    | none => (.error .attributeError, st.store, files)
    | some (spt, _) =>
      let result := pr.result a.region.region a.testLen spt a.suite.repr a.prediction
      match result.printed tools.text a.errorType with
      | .error e => (.error e, st.store, files)
      | .ok blocks =>
        match result.saveAsCsv tools.measure tools.combine tools.root tools.text (a.path .result)
            (a.path .summary) files with
        | (.error e, files) => (.error e, st.store, files)
        | (.ok (), files) => (.ok blocks, st.store, files)

/-- A run of one of the programs: of the solver programs or of this one. -/
inductive AnyRun where
  | solver (c : SolverCommand)
  | dnn (a : DnnArgs)
  deriving DecidableEq

/-- The pickle files after a run; they do not depend on the CSV files. -/
def AnyRun.run (w : SolverWorld K P Q M) (tools : DnnTools K)
    (store : SolverStore K M (Partition × List Point)) : AnyRun → SolverStore K M (Partition × List Point)
  | .solver c => c.run w store
  | .dnn a => (dnnCommand w tools a store fun _ => none).2.1

/-- The pickle files after a session of any of the programs that starts without files. -/
def anyStore (w : SolverWorld K P Q M) (tools : DnnTools K) (session : List AnyRun) :
    SolverStore K M (Partition × List Point) :=
  session.foldl (AnyRun.run w tools) fun _ => none

end Spta
