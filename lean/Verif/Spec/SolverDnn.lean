import Verif.Model.SolverDnn
import Verif.Spec.SolverSession
import Verif.Spec.SolverTrain
import Verif.Spec.CsvText

/-!
# Specification of the program that predicts with a classifier (C142)
-/

namespace Spta

variable {K : Type} [Field K] [LinearOrder K] {P Q M : Type}

/-- The arguments of the auto-ARIMA program that train the solver with `k` clusters and a seed, for the region, the
number of test samples and the type of error of a run. -/
def DnnArgs.training (a : DnnArgs) (k seed : Int) : SolverArgs :=
  { program := .autoArima, region := a.region, clustering := .kmedoids, k := k, seed := seed, testLen := a.testLen,
    errorType := a.errorType }

/-- The arguments that the programs accept. -/
def AnyRun.Accepted (regions : List RegionMeta) : AnyRun → Prop
  | .solver c => c.args.Accepted regions
  | .dnn a => (a.training 0 0).Accepted regions

/-- The arguments of a run that trains. -/
def SolverCommand.trains : SolverCommand → Option SolverArgs
  | .train a => some a
  | .predict _ _ _ => none

/-- The arguments of a run that trains, among the runs of all programs. -/
def AnyRun.trains : AnyRun → Option SolverArgs
  | .solver c => c.trains
  | .dnn _ => none

/-- All labels of the classifiers are of the form `k-seed-i`, as in the training data of C141. -/
def DnnTools.GoodLabels (tools : DnnTools K) : Prop :=
  ∀ id classify, tools.classifier id = .ok classify → ∀ v l, classify v = .ok l → ∃ k seed i, l = labelStr k seed i

/-- The regions of a run: `s` for the models and forecasts, `target` for the labels. -/
structure DnnOpens (w : SolverWorld K P Q M) (tools : DnnTools K) (a : DnnArgs)
    (classify : List (Option K) → Except PyErr Str) (s target : Stack K) : Prop where
  classifier : tools.classifier a.classifier = .ok classify
  own : w.region a.region = .ok s
  same : a.outOfSample = none → target = s
  other : ∀ md, a.outOfSample = some md → w.region md = .ok target

/-- The solver of a label was trained in the session, and the label has the index of its medoid `m`. -/
def LabelMedoid (w : SolverWorld K P Q M) (session : List AnyRun) (a : DnnArgs) (s : Stack K) (label : Str)
    (m : Point) : Prop :=
  ∃ (k seed i : Nat) (t : SolverArgs) (pt : Partition) (medoids : List Point), label = labelStr k seed i ∧
    .solver (.train t) ∈ session ∧ t.metadata = (a.training k seed).metadata ∧
    w.partition a.region .dtw (.kmedoids { k := k, seed := seed }) = .ok (pt, medoids) ∧
    TrainingSetup (w.trainer (.autoArima 1 1 3 3 none true) a.region)
      (w.refitter (.autoArima 1 1 3 3 none true) a.region) a.region.scaled s a.testLen pt medoids ∧
    medoids[i]? = some m

/-- What the program finds for a point. -/
structure DnnAnswer (K : Type) where
  point : Point
  label : Str
  error : ErrorVal K
  forecast : List (Option K)
  test : List (Option K)

/-- The row of the CSV file for an answer, with the coordinates in the dataset. -/
def DnnAnswer.row (a : DnnArgs) (x : DnnAnswer K) : List (Cell K) :=
  [.coords ⟨x.point.x + a.region.region.x1, x.point.y + a.region.region.y1⟩, .text x.label, .errorValue x.error,
    .series x.forecast, .series x.test]

/-- The answer is right: the label is the one of the last samples in the region of the labels, the forecast comes from
the model that was trained on the series of the medoid of the label without its last samples, the test samples are the
last ones of the point, and the error is the one between forecast and test samples, all in original units. -/
structure DnnAnswer.Right (w : SolverWorld K P Q M) (session : List AnyRun) (a : DnnArgs)
    (classify : List (Option K) → Except PyErr Str) (s target : Stack K) (f : ErrorFun K) (x : DnnAnswer K) :
    Prop where
  label : ∃ past recent, target.seriesAt x.point = .ok (past ++ recent) ∧ recent.length = a.window ∧
    classify recent = .ok x.label
  forecast : ∃ m past future q model raw, LabelMedoid w session a s x.label m ∧
    s.seriesAt m = .ok (past ++ future) ∧ future.length = a.testLen ∧
    (w.trainer (.autoArima 1 1 3 3 none true) a.region).params.get m = .ok q ∧
    (w.trainer (.autoArima 1 1 3 3 none true) a.region).train q past = .ok model ∧
    RawForecast w.forecast a.testLen model raw ∧ InUnits s x.point raw x.forecast
  error : ErrorOf f s a.testLen x.point x.forecast x.test x.error

/-- The solver of a label can be used: training it from scratch succeeds, was done in the session, and the label has the
index of a medoid. -/
def LabelUsable (w : SolverWorld K P Q M) (session : List AnyRun) (a : DnnArgs) (k seed i : Nat) : Prop :=
  (∃ t, .solver (.train t) ∈ session ∧ t.metadata = (a.training k seed).metadata) ∧
    ∃ sv p, freshSolver w (a.training k seed).metadata = .ok (sv, p) ∧ i < p.2.length

/-- The texts of the numbers can be read by the csv module. -/
structure DnnTools.GoodTexts (tools : DnnTools K) : Prop where
  labels : ∀ id classify, tools.classifier id = .ok classify → ∀ v l, classify v = .ok l → Readable l
  error : ∀ v, Readable (tools.text.show3 v)
  series : ∀ v, Readable (tools.text.showSeries v)

end Spta
