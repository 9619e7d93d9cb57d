import Verif.Model.Classifier
import Verif.Spec.Forecast
import Verif.Spec.Result

/-!
# Specifications for the solver that uses a classifier
-/

namespace Spta

variable {K M P : Type} [Field K] [LinearOrder K]

/-- The regions that `create_instance()` gives: a plain region, or for scaled metadata a plain region with
scaling data of the same shape (spta/region/metadata.py:137-166). -/
inductive CreatedRegion : Bool → Stack K → Prop
  | plain {c : Cube (Option K)} : c.WF → CreatedRegion false (.plain c)
  | scaled {c : Cube (Option K)} {gmin gmax : Grid (Option K)} : c.WF → gmin.WF → gmax.WF →
      gmin.xLen = c.grid.xLen → gmin.yLen = c.grid.yLen → gmax.xLen = c.grid.xLen →
      gmax.yLen = c.grid.yLen → CreatedRegion true (.scaled (.plain c) (.plain gmin) (.plain gmax))

/-- A rectangle inside a region. -/
structure Region.Inside (r : Region) (s : Stack K) : Prop where
  x : r.x1 ≤ r.x2
  y : r.y1 ≤ r.y2
  xLen : r.x2 ≤ s.data.grid.xLen
  yLen : r.y2 ≤ s.data.grid.yLen

/-- The points of a rectangle. -/
def Region.Has (r : Region) (p : Point) : Prop := r.x1 ≤ p.x ∧ p.x < r.x2 ∧ r.y1 ≤ p.y ∧ p.y < r.y2

/-- The label `k-seed-i`. -/
def labelStr (k seed i : Nat) : Str := natStr k ++ '-' :: (natStr seed ++ '-' :: natStr i)

/-- The metadata of the solver that was trained with k-medoids for `k` and `seed` in mode "lite". -/
def ClassifierEnv.km (env : ClassifierEnv K M P) (k seed : Int) : SolverMeta :=
  { md := env.md, params := env.params, testLen := env.testLen, errorType := env.errorType,
    clustering := .kmedoids { k := k, seed := seed }, dist := env.dist }

/-- The model that a label stands for, given the saved files: `k-seed-i` is the training model at medoid
`i` of the solver saved for `k` and `seed`. -/
def LabelModel (env : ClassifierEnv K M P) (files : SolverStore K M P) (label : Str)
    (model : Option M) : Prop :=
  ∃ (k seed i : Nat) (s : SolverData K M P) (medoids : List Point) (medoid : Point),
    label = labelStr k seed i ∧ (loadSolver env.compute (env.km k seed) files).1 = .ok s ∧
    env.medoidsOf s.part = some medoids ∧ medoids[i]? = some medoid ∧ s.training.get medoid = .ok model

/-- The regions that a call uses which prepares the solver: `spt` for the forecasts, `target` for the
labels. -/
structure ClassifierEnv.Opens (env : ClassifierEnv K M P) (outOfSample : Option RegionMeta)
    (classify : List (Option K) → Except PyErr Str) (spt target : Stack K) : Prop where
  classifier : env.classifier = .ok classify
  own : env.createInst env.md = .ok spt
  same : outOfSample = none → target = spt
  other : ∀ md, outOfSample = some md → env.createInst md = .ok target

/-- The state after earlier calls: classifier and regions are there; with the files of now, the solvers
are loaded as with `files` before the first call, and so are the cached ones. -/
structure ClassifierState.Ready (env : ClassifierEnv K M P) (files : SolverStore K M P)
    (classify : List (Option K) → Except PyErr Str) (spt target : Stack K)
    (st : ClassifierState K M P) : Prop where
  classifier : st.classifier = some classify
  regions : st.regions = some (spt, target)
  loads : ∀ k seed : Int, (loadSolver env.compute (env.km k seed) st.store).1 =
    (loadSolver env.compute (env.km k seed) files).1
  cached : ∀ it ∈ st.solvers, ∀ k seed : Int, it.1 = (env.km k seed).repr →
    (loadSolver env.compute (env.km k seed) files).1 = .ok it.2

/-- What a forecast needs besides the labels: data of the right size and a known error function. -/
structure ClassifierEnv.Fits (env : ClassifierEnv K M P) (spt : Stack K) (f : ErrorFun K) : Prop where
  created : CreatedRegion env.md.scaled spt
  testLen : env.testLen ≤ spt.data.tLen
  func : getErrorFunc (String.ofList env.errorType) = .ok f
  mase : String.ofList env.errorType = "MASE" → spt.data.tLen ≠ env.testLen + 1

/-- The answer of the solver at the point `p` of the prediction region, as the property states it. -/
structure AnswerAt (env : ClassifierEnv K M P) (files : SolverStore K M P)
    (classify : List (Option K) → Except PyErr Str) (spt target : Stack K) (f : ErrorFun K) (r : Region)
    (tp : Nat) (pr : ClassifierPrediction K) (p : Point) (label : Str) (model : Option M)
    (forecast test : List (Option K)) : Prop where
  /-- the label given to the last `tp` samples of the point -/
  is_label : ∀ v past recent, target.seriesAt p = .ok v → v = past ++ recent → recent.length = tp →
    classify recent = .ok label
  shown_label : Result.dictGet ⟨p.x - r.x1, p.y - r.y1⟩ pr.labels = .ok label
  /-- its model among the saved ones -/
  is_model : LabelModel env files label model
  /-- the forecast of this model, in original units -/
  is_forecast : ∃ raw, RawForecast env.forecast env.testLen model raw ∧ InUnits spt p raw forecast
  shown_forecast : pr.forecast.seriesAt ⟨p.x - r.x1, p.y - r.y1⟩ = .ok forecast
  /-- the last samples of the point, in original units -/
  is_test : ∀ u train future, spt.seriesAt p = .ok u → u = train ++ future → future.length = env.testLen →
    InUnits spt p future test
  shown_test : pr.test.seriesAt ⟨p.x - r.x1, p.y - r.y1⟩ = .ok test
  /-- the error between what is shown -/
  error : ∀ u train future wt, spt.seriesAt p = .ok u → u = train ++ future →
    future.length = env.testLen → InUnits spt p train wt →
    pr.errors.valueAt ⟨p.x - r.x1, p.y - r.y1⟩ = f forecast test (some wt)
  shown_error : ∃ e, pr.errors.valueAt ⟨p.x - r.x1, p.y - r.y1⟩ = .ok e

/-- A query: prediction region, number of past samples, out-of-sample region. -/
structure ClassifierQuery where
  region : Region
  tp : Nat
  outOfSample : Option RegionMeta

/-- The answer to a query. -/
def ClassifierEnv.ask (env : ClassifierEnv K M P) (q : ClassifierQuery) (st : ClassifierState K M P) :
    Except PyErr (ClassifierPrediction K) × ClassifierState K M P :=
  env.predict q.region q.tp q.outOfSample st

/-- The state after some queries. -/
def ClassifierEnv.after (env : ClassifierEnv K M P) (qs : List ClassifierQuery)
    (st : ClassifierState K M P) : ClassifierState K M P := qs.foldl (fun st q => (env.ask q st).2) st

/-- The number of samples that the classifier gets from a series of length `n`. -/
def givenSamples (n tp : Nat) : Nat := if tp ≤ n then tp else min (tp - n) n

/-- `ys` is `xs` divided by a positive number, such that the absolute values add up to 1 unless all are
zero. -/
structure L1Normalized (xs ys : List K) : Prop where
  scaled : ∃ c : K, 0 < c ∧ xs = ys.map (c * ·)
  norm : (ys.map fun y => |y|).sum = 1 ∨ ∀ x ∈ xs, x = 0

/-- `i` is the first position of a largest value. -/
structure FirstLargest (l : List K) (i : Nat) : Prop where
  lt : i < l.length
  max : ∀ j (hj : j < l.length), l[j] ≤ l[i]
  first : ∀ j (hj : j < i), l[j]'(Nat.lt_trans hj lt) < l[i]

end Spta
