import Verif.Model.Forecast
import Verif.Model.SolverFiles
import Verif.Model.Result

/-!
# Model of the solver that uses a classifier

spta/classifier/model.py (`SolverFromClassifier`) and spta/classifier/dnn.py (`label_for_series`). Files
are those of `Verif.Model.SolverFiles`. Creating regions from metadata, the network of the classifier, the
calculation of partitions and the forecasts of the models are parameters. Logging is dropped; the result
object itself is modelled in `Verif.Model.Result`.
-/

namespace Spta

variable {K : Type} [Field K] [LinearOrder K]

/-! ### The classifier -/

/-- `np.argmax`: the first position of a largest value, ValueError for an empty array. -/
def argmaxList : List K → Except PyErr Nat
  | [] => .error .valueError
  | a :: l => .ok ((l.foldl (fun (acc : Nat × Nat × K) x =>
      if acc.2.2 < x then (acc.1 + 1, acc.1, x) else (acc.1 + 1, acc.2.1, acc.2.2)) (1, 0, a)).2.1)

/-- `all` samples as numbers; sklearn's check of the input rejects NaN. -/
def finiteSeries : List (Option K) → Except PyErr (List K)
  | [] => .ok []
  | none :: _ => .error .valueError
  | some x :: l =>
    match finiteSeries l with
    | .error e => .error e
    | .ok xs => .ok (x :: xs)

/-- `sklearn.preprocessing.normalize(s, norm='l1')` of one row: division by the sum of the absolute values,
which is replaced by 1 if it is 0. -/
def l1Normalize (xs : List K) : List K :=
  let norm := (xs.map fun x => if x < 0 then -x else x).sum
  xs.map fun x => x / (if norm = 0 then 1 else norm)

/-- `ClassifierDNN.label_for_series(series_of_len_tp)` — spta/classifier/dnn.py:67-88. `network` is
`model.predict`, `labels` the second column of the CSV of labels. The `reshape` of line 72 requires
`window` samples; sklearn requires at least one feature. -/
def dnnLabel (window : Nat) (network : List K → List K) (labels : List Str) (series : List (Option K)) :
    Except PyErr Str :=
  if series.length = window ∧ 0 < window then
    match finiteSeries series with
    | .error e => .error e
    | .ok xs =>
      match argmaxList (network (l1Normalize xs)) with
      | .error e => .error e
      | .ok i => listAt labels i
  else .error .valueError

/-! ### The solver -/

/-- The constructor arguments of `SolverFromClassifier` — spta/classifier/model.py:64-73 — and the
parameters of the model: `createInst` for `region_metadata.create_instance()`, `classifier` for
`ClassifierDNN(classifier_params)` (which may fail) with its `label_for_series`, `compute` for
`partition_impl`, `medoidsOf` for `partition.medoids`, `forecast` for `forecast_from_model`, `junk` for the
content of `np.empty`. -/
structure ClassifierEnv (K M P : Type) where
  md : RegionMeta
  dist : DistKind
  params : ModelParams
  testLen : Nat
  errorType : Str
  createInst : RegionMeta → Except PyErr (Stack K)
  classifier : Except PyErr (List (Option K) → Except PyErr Str)
  compute : PartitionRequest → Except PyErr P
  medoidsOf : P → Option (List Point)
  forecast : M → Nat → Except PyErr (List (Option K))
  junk : Option K

/-- The state of a `SolverFromClassifier`: the classifier, the regions of lines 90-97 (`spt_region`,
`target_spt_region`, if they have been created), the loaded solvers and the files. -/
structure ClassifierState (K M P : Type) where
  classifier : Option (List (Option K) → Except PyErr Str)
  regions : Option (Stack K × Stack K)
  solvers : List (Str × SolverData K M P)
  store : SolverStore K M P

/-- A new solver. -/
def ClassifierState.new {K M P : Type} (store : SolverStore K M P) : ClassifierState K M P :=
  ⟨none, none, [], store⟩

/-- The result of a query: forecasts, test data and errors of the points of the prediction region, with the
label of each point. -/
structure ClassifierPrediction (K : Type) where
  forecast : Stack K
  test : Stack K
  errors : SpStack (ErrorVal K)
  labels : List (Point × Str)

section

variable {M P : Type}

/-- `prepare(out_of_sample_region)` — spta/classifier/model.py:80-103. The classifier is assigned before
the regions are created. -/
def ClassifierEnv.prepare (env : ClassifierEnv K M P) (outOfSample : Option RegionMeta)
    (st : ClassifierState K M P) : Except PyErr Unit × ClassifierState K M P :=
  match env.classifier with
  | .error e => (.error e, st)
  | .ok c =>
    let st1 := { st with classifier := some c }
    match env.createInst env.md with
    | .error e => (.error e, st1)
    | .ok spt =>
      match outOfSample with
      | none => (.ok (), { st1 with regions := some (spt, spt) })
      | some md =>
        match env.createInst md with
        | .error e => (.error e, st1)
        | .ok target => (.ok (), { st1 with regions := some (spt, target) })

/-- `label_for_series` for the items of the loop. -/
def labelItem (classify : List (Option K) → Except PyErr Str) (it : Point × List (Option K)) :
    Except PyErr (Point × Str) :=
  match classify it.2 with
  | .error e => .error e
  | .ok l => .ok (it.1, l)

/-- `get_labels_from_classifier(prediction_region, tp)` — spta/classifier/model.py:143-157. -/
def classifierLabels (classify : List (Option K) → Except PyErr Str) (target : Stack K) (r : Region)
    (tp : Nat) : Except PyErr (List (Point × Str)) :=
  let n := target.data.tLen
  match (target.subset r (sliceInterval n ((n : Int) - tp) n)).items with
  | .error e => .error e
  | .ok items => items.mapM (labelItem classify)

/-- The metadata of the solver for a clustering — spta/classifier/model.py:169-174. -/
def ClassifierEnv.metaFor (env : ClassifierEnv K M P) (clustering : ClusterMeta) : SolverMeta :=
  ⟨env.md, env.params, env.testLen, env.errorType, clustering, env.dist⟩

/-- The solver of lines 187-199 of spta/classifier/model.py: kept in the dictionary, or loaded and added. -/
def ClassifierEnv.solverFor (env : ClassifierEnv K M P) (m : SolverMeta) (st : ClassifierState K M P) :
    Except PyErr (SolverData K M P) × ClassifierState K M P :=
  match Result.dictGet m.repr st.solvers with
  | .ok s => (.ok s, st)
  | .error _ =>
    match loadSolver env.compute m st.store with
    | (.error e, store) => (.error e, { st with store := store })
    | (.ok s, store) => (.ok s, { st with solvers := (m.repr, s) :: st.solvers, store := store })

/-- The model of a label, given the solver — spta/classifier/model.py:201-208. -/
def ClassifierEnv.modelAt (env : ClassifierEnv K M P) (label : Str) (s : SolverData K M P) :
    Except PyErr (Option M) :=
  match listAt (pySplit '-' label) 2 with
  | .error e => .error e
  | .ok part =>
    match pyInt part with
    | .error e => .error e
    | .ok i =>
      match env.medoidsOf s.part with
      | none => .error .typeError
      | some medoids =>
        match listAtInt medoids i with
        | .error e => .error e
        | .ok medoid => s.training.get medoid

/-- `solver_metadata_for_classifier_label` and `retrieve_model_for_solver` for one label
— spta/classifier/model.py:130-131, 159-208. -/
def ClassifierEnv.modelFor (env : ClassifierEnv K M P) (label : Str) (st : ClassifierState K M P) :
    Except PyErr (Option M) × ClassifierState K M P :=
  match fromClassifierLabel label sLite with
  | .error e => (.error e, st)
  | .ok clustering =>
    match env.solverFor (env.metaFor clustering) st with
    | (.error e, st') => (.error e, st')
    | (.ok s, st') => (env.modelAt label s, st')

/-- The loop over the labels — spta/classifier/model.py:127-132. -/
def ClassifierEnv.modelsFor (env : ClassifierEnv K M P) :
    List (Point × Str) → ClassifierState K M P →
      Except PyErr (List (Point × Option M)) × ClassifierState K M P
  | [], st => (.ok [], st)
  | (p, label) :: rest, st =>
    match env.modelFor label st with
    | (.error e, st') => (.error e, st')
    | (.ok m, st') =>
      match env.modelsFor rest st' with
      | (.error e, st'') => (.error e, st'')
      | (.ok ms, st'') => (.ok ((p, m) :: ms), st'')

/-- `build_model_region_for_models(prediction_region, models_by_point)`
— spta/classifier/model.py:210-228. -/
def buildModels (r : Region) (models : List (Point × Option M)) : Except PyErr (Grid (Option M)) :=
  if r.x1 ≤ r.x2 ∧ r.y1 ≤ r.y2 then
    applyWith (fun _ model => .ok model) models (Grid.const (r.x2 - r.x1) (r.y2 - r.y1) none)
  else .error .valueError

/-- `descale_subregion(subregion, prediction_spt_region)` — spta/classifier/model.py:269-279. -/
def descaleSubregion (subregion predictionSpt : Stack K) : Except PyErr (Stack K) :=
  match predictionSpt.scaleData with
  | .error e => .error e
  | .ok scale => (Stack.scaled subregion scale.1 scale.2).descale

/-- `create_prediction_query_result` — spta/classifier/model.py:230-267, up to the construction of the
result object. -/
def ClassifierEnv.result (env : ClassifierEnv K M P) (spt : Stack K) (r : Region)
    (models : Grid (Option M)) (labels : List (Point × Str)) : Except PyErr (ClassifierPrediction K) :=
  match spt.regionSubset r with
  | .error e => .error e
  | .ok sub =>
    let a := ((Analysis.new K M).trainModels (fun _ => .ok models) sub env.testLen).2
    match (a.forecastAtEach env.forecast env.junk env.testLen (String.ofList env.errorType)).1 with
    | .error e => .error e
    | .ok (forecast, errors) =>
      let test := (splitLast sub env.testLen).2
      if env.md.scaled then
        match descaleSubregion forecast sub with
        | .error e => .error e
        | .ok forecast' =>
          match descaleSubregion test sub with
          | .error e => .error e
          | .ok test' => .ok ⟨forecast', test', errors, labels⟩
      else .ok ⟨forecast, test, errors, labels⟩

/-- `predict` from line 121 on. -/
def ClassifierEnv.predictPrepared (env : ClassifierEnv K M P) (r : Region) (tp : Nat)
    (st : ClassifierState K M P) : Except PyErr (ClassifierPrediction K) × ClassifierState K M P :=
  match st.classifier, st.regions with
  | some classify, some (spt, target) =>
    match classifierLabels classify target r tp with
    | .error e => (.error e, st)
    | .ok labels =>
      match env.modelsFor labels st with
      | (.error e, st') => (.error e, st')
      | (.ok models, st') =>
        match buildModels r models with
        | .error e => (.error e, st')
        | .ok grid => (env.result spt r grid labels, st')
  | none, _ => (.error .assertionError, st)
  | some _, none => (.error .attributeError, st)

/-- `predict(prediction_region, tp, out_of_sample_region)` — spta/classifier/model.py:105-141. The
regions do not exist if their creation failed in an earlier call. -/
def ClassifierEnv.predict (env : ClassifierEnv K M P) (r : Region) (tp : Nat)
    (outOfSample : Option RegionMeta) (st : ClassifierState K M P) :
    Except PyErr (ClassifierPrediction K) × ClassifierState K M P :=
  match st.classifier with
  | some _ => env.predictPrepared r tp st
  | none =>
    match env.prepare outOfSample st with
    | (.error e, st') => (.error e, st')
    | (.ok (), st') => env.predictPrepared r tp st'

end

end Spta
