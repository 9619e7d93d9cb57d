import Verif.Spec.SolverDnn
import Verif.Props.SolverSession
import Verif.Props.Query
import Verif.Props.CsvText
import Verif.Props.ExtractionLstm

/-!
# C142: the program that predicts with a classifier
-/

set_option linter.unusedSectionVars false

namespace Spta

variable {K : Type} [Field K] [LinearOrder K] {P Q M : Type} {w : SolverWorld K P Q M} {tools : DnnTools K}
variable {regions : List RegionMeta}

theorem dnnEnv_km (a : DnnArgs) (k seed : Int) : (dnnEnv w tools a).km k seed = (a.training k seed).metadata := rfl

theorem training_accepted {a : DnnArgs} (h : (a.training 0 0).Accepted regions) (k seed : Int) :
    (a.training k seed).Accepted regions := h

/-! ### The pickle files -/

/-- The files after requests for some partitions. -/
def afterRequests (w : SolverWorld K P Q M) (a : DnnArgs) (ks : List (Nat × Nat))
    (store : SolverStore K M (Partition × List Point)) : SolverStore K M (Partition × List Point) :=
  ks.foldl (fun st x => (partitionOf w.compute (a.training x.1 x.2).metadata false st).2) store

theorem modelFor_store {a : DnnArgs} (k seed i : Nat) (st : ClassifierState K M (Partition × List Point)) :
    ∃ ks, ((dnnEnv w tools a).modelFor (labelStr k seed i) st).2.store = afterRequests w a ks st.store := by
  unfold ClassifierEnv.modelFor
  simp only [fromClassifierLabel_labelStr, ClassifierEnv.metaFor_km]
  have : ∃ ks, ((dnnEnv w tools a).solverFor ((dnnEnv w tools a).km k seed) st).2.store =
      afterRequests w a ks st.store := by
    unfold ClassifierEnv.solverFor
    split
    · exact ⟨[], rfl⟩
    · have hs := loadSolver_after (w := w) (a.training k seed).metadata st.store
      refine ⟨[(k, seed)], ?_⟩
      show _ = (partitionOf w.compute (a.training k seed).metadata false st.store).2
      rw [← hs]
      rw [dnnEnv_km]
      rw [show (dnnEnv w tools a).compute = w.compute from rfl]
      generalize loadSolver w.compute (a.training k seed).metadata st.store = l
      obtain ⟨l1, l2⟩ := l
      cases l1 <;> rfl
  obtain ⟨ks, hk⟩ := this
  refine ⟨ks, ?_⟩
  generalize (dnnEnv w tools a).solverFor ((dnnEnv w tools a).km k seed) st = l at hk ⊢
  obtain ⟨l1, l2⟩ := l
  cases l1 <;> exact hk

theorem afterRequests_append (a : DnnArgs) (ks ks' : List (Nat × Nat))
    (store : SolverStore K M (Partition × List Point)) :
    afterRequests w a ks' (afterRequests w a ks store) = afterRequests w a (ks ++ ks') store := by
  unfold afterRequests
  rw [List.foldl_append]

theorem modelsFor_store {a : DnnArgs} : ∀ (labels : List (Point × Str))
    (_ : ∀ it ∈ labels, ∃ k seed i, it.2 = labelStr k seed i) (st : ClassifierState K M (Partition × List Point)),
    ∃ ks, ((dnnEnv w tools a).modelsFor labels st).2.store = afterRequests w a ks st.store
  | [], _, st => ⟨[], rfl⟩
  | (p, label) :: rest, h, st => by
    obtain ⟨k, seed, i, e⟩ := h (p, label) (by simp)
    simp only at e
    obtain ⟨ks, hk⟩ := modelFor_store (w := w) (tools := tools) (a := a) k seed i st
    rw [← e] at hk
    unfold ClassifierEnv.modelsFor
    generalize (dnnEnv w tools a).modelFor label st = l at hk ⊢
    obtain ⟨l1, l2⟩ := l
    cases l1 with
    | error er => exact ⟨ks, hk⟩
    | ok m =>
      obtain ⟨ks', hk'⟩ := modelsFor_store rest (fun it hit => h it (by simp [hit])) l2
      refine ⟨ks ++ ks', ?_⟩
      rw [← afterRequests_append, ← hk]
      simp only
      generalize (dnnEnv w tools a).modelsFor rest l2 = q at hk' ⊢
      obtain ⟨q1, q2⟩ := q
      cases q1 <;> exact hk'

variable [IsStrictOrderedRing K]

/-- The pickle files after a run. -/
theorem dnnCommand_store (hl : tools.GoodLabels) (a : DnnArgs) (store : SolverStore K M (Partition × List Point))
    (files : Str → Option Str) :
    ∃ ks, (dnnCommand w tools a store files).2.1 = afterRequests w a ks store := by
  have key : ∃ ks, ((dnnEnv w tools a).predict a.prediction a.window a.outOfSample
      (ClassifierState.new store)).2.store = afterRequests w a ks store := by
    unfold ClassifierEnv.predict
    simp only [ClassifierState.new]
    unfold ClassifierEnv.prepare
    cases hc : (dnnEnv w tools a).classifier with
    | error e => exact ⟨[], rfl⟩
    | ok classify =>
      cases hs : (dnnEnv w tools a).createInst (dnnEnv w tools a).md with
      | error e => exact ⟨[], rfl⟩
      | ok s =>
        have main : ∀ target, ∃ ks, ((dnnEnv w tools a).predictPrepared a.prediction a.window
            (⟨some classify, some (s, target), [], store⟩ : ClassifierState K M (Partition × List Point))).2.store =
            afterRequests w a ks store := by
          intro target
          unfold ClassifierEnv.predictPrepared
          simp only
          cases hcl : classifierLabels classify target a.prediction a.window with
          | error e => exact ⟨[], rfl⟩
          | ok labels =>
            obtain ⟨ks, hk⟩ := modelsFor_store (w := w) (tools := tools) (a := a) labels
              (classifierLabels_canonical (hl _ _ hc) hcl) ⟨some classify, some (s, target), [], store⟩
            refine ⟨ks, ?_⟩
            simp only
            generalize (dnnEnv w tools a).modelsFor labels ⟨some classify, some (s, target), [], store⟩ = q at hk ⊢
            obtain ⟨q1, q2⟩ := q
            cases q1 with
            | error e => exact hk
            | ok models =>
              simp only
              cases buildModels a.prediction models <;> exact hk
        cases ho : a.outOfSample with
        | none => exact main s
        | some md =>
          simp only
          cases ht : (dnnEnv w tools a).createInst md with
          | error e => exact ⟨[], rfl⟩
          | ok target => exact main target
  obtain ⟨ks, hk⟩ := key
  refine ⟨ks, ?_⟩
  unfold dnnCommand
  generalize (dnnEnv w tools a).predict a.prediction a.window a.outOfSample (ClassifierState.new store) = q at hk ⊢
  obtain ⟨q1, q2⟩ := q
  cases q1 with
  | error e => exact hk
  | ok pr =>
    simp only
    repeat' split
    all_goals exact hk

theorem afterRequests_eq (a : DnnArgs) (r : Region) : ∀ (ks : List (Nat × Nat))
    (store : SolverStore K M (Partition × List Point)),
    afterRequests w a ks store =
      (ks.map fun x => SolverCommand.predict (a.training x.1 x.2) r 0).foldl (SolverCommand.run w) store
  | [], store => rfl
  | x :: ks, store => by
    have := afterRequests_eq a r ks (partitionOf w.compute (a.training x.1 x.2).metadata false store).2
    rw [List.map_cons, List.foldl_cons, SolverCommand.run, predictCommand_store]
    exact this

/-- **C142** (sessions): for the pickle files, a run of this program is like some predictions of the auto-ARIMA program:
a session of all programs leaves the files of a session of the solver programs with the same trainings in the same
order. So C120 holds for sessions with this program. -/
theorem C142_session (hl : tools.GoodLabels) (session : List AnyRun)
    (ha : ∀ c ∈ session, c.Accepted regions) :
    ∃ plain : List SolverCommand, anyStore w tools session = sessionStore w plain ∧
      (∀ c ∈ plain, c.args.Accepted regions) ∧
      plain.filterMap SolverCommand.trains = session.filterMap AnyRun.trains := by
  induction session using List.reverseRecOn with
  | nil => exact ⟨[], rfl, by simp, rfl⟩
  | append_singleton session c ih =>
    obtain ⟨plain, h1, h2, h3⟩ := ih fun c' hc' => ha c' (by simp [hc'])
    have e : anyStore w tools (session ++ [c]) = c.run w tools (anyStore w tools session) := by simp [anyStore]
    have hc := ha c (by simp)
    rw [e, h1]
    cases c with
    | solver c =>
      refine ⟨plain ++ [c], by simp [sessionStore, AnyRun.run], ?_, ?_⟩
      · intro c' hc'
        rcases List.mem_append.1 hc' with hc' | hc'
        · exact h2 c' hc'
        · rw [List.mem_singleton.1 hc']; exact hc
      · rw [List.filterMap_append, List.filterMap_append, h3]; rfl
    | dnn a =>
      obtain ⟨ks, hk⟩ := dnnCommand_store (w := w) hl a (sessionStore w plain) fun _ => none
      refine ⟨plain ++ ks.map fun x => SolverCommand.predict (a.training x.1 x.2) a.prediction 0, ?_, ?_, ?_⟩
      · show (dnnCommand w tools a (sessionStore w plain) fun _ => none).2.1 = _
        rw [hk, afterRequests_eq a a.prediction]
        simp [sessionStore]
      · intro c' hc'
        rcases List.mem_append.1 hc' with hc' | hc'
        · exact h2 c' hc'
        · obtain ⟨x, -, rfl⟩ := List.mem_map.1 hc'
          exact training_accepted hc _ _
      · rw [List.filterMap_append, List.filterMap_append, h3]
        simp [AnyRun.trains, SolverCommand.trains, List.filterMap_map, Function.comp_def]

theorem trainedIn_plain {session : List AnyRun} {plain : List SolverCommand}
    (h : plain.filterMap SolverCommand.trains = session.filterMap AnyRun.trains) (m : SolverMeta) :
    TrainedIn plain m ↔ ∃ t, AnyRun.solver (.train t) ∈ session ∧ t.metadata = m := by
  have h1 : ∀ t, SolverCommand.train t ∈ plain ↔ t ∈ plain.filterMap SolverCommand.trains := by
    intro t
    rw [List.mem_filterMap]
    constructor
    · exact fun e => ⟨_, e, rfl⟩
    · rintro ⟨c, hc, e⟩
      cases c with
      | train t' => cases e; exact hc
      | predict _ _ _ => cases e
  have h2 : ∀ t, AnyRun.solver (.train t) ∈ session ↔ t ∈ session.filterMap AnyRun.trains := by
    intro t
    rw [List.mem_filterMap]
    constructor
    · exact fun e => ⟨_, e, rfl⟩
    · rintro ⟨c, hc, e⟩
      cases c with
      | solver c =>
        cases c with
        | train t' => cases e; exact hc
        | predict _ _ _ => cases e
      | dnn _ => cases e
  unfold TrainedIn
  constructor
  · rintro ⟨t, e, hm⟩
    exact ⟨t, (h2 t).2 (h ▸ (h1 t).1 e), hm⟩
  · rintro ⟨t, e, hm⟩
    exact ⟨t, (h1 t).2 (h ▸ (h2 t).1 e), hm⟩

/-! ### Labels -/

/-- A solver that can be loaded after a session was trained in it. -/
theorem loadSolver_session (hc : GoodCatalogue regions) {session : List SolverCommand}
    (ha : ∀ c ∈ session, c.args.Accepted regions) {a : SolverArgs} (h : a.Accepted regions)
    {sd : SolverData K M (Partition × List Point)}
    (hl : (loadSolver w.compute a.metadata (sessionStore w session)).1 = .ok sd) :
    TrainedIn session a.metadata ∧ ∃ sv, freshSolver w a.metadata = .ok (sv, sd.part) := by
  have hi := (sessionFiles (w := w) hc ha)
  have hi' := hi.partitionOf hc h false
  have hfst := partitionOf_fst hi.part h false
  unfold loadSolver at hl
  rw [loadPartition_eq] at hl
  generalize Spta.partitionOf w.compute a.metadata false (sessionStore w session) = q at *
  obtain ⟨q1, st⟩ := q
  simp only at hfst hi'
  cases q1 with
  | error e => cases hl
  | ok p =>
    simp only at hl
    cases he : st a.metadata.errorsPath with
    | none =>
      simp only [loadErrors, he] at hl
      exfalso
      revert hl
      repeat' split
      all_goals (intro e; cases e)
    | some f =>
      obtain ⟨sv, p', h1, h2, -⟩ := (hi'.errors a h f).1 he
      obtain ⟨-, -, f3, -⟩ := freshSolver_ok h1
      rw [← hfst] at f3
      cases f3
      refine ⟨h2, sv, ?_⟩
      rw [h1]
      revert hl
      repeat' split
      all_goals (intro e; cases e)
      rfl

/-- A solver that was trained in the session is loaded with the training models of training from scratch. -/
theorem loadSolver_trained (hc : GoodCatalogue regions) {session : List SolverCommand}
    (ha : ∀ c ∈ session, c.args.Accepted regions) {a : SolverArgs} (h : a.Accepted regions)
    (ht : TrainedIn session a.metadata) {sv : Solver K M} {p : Partition × List Point}
    (hf : freshSolver w a.metadata = .ok (sv, p)) :
    ∃ sd, (loadSolver w.compute a.metadata (sessionStore w session)).1 = .ok sd ∧ sd.training = sv.training ∧
      sd.part = p := by
  have hi := sessionFiles (w := w) hc ha
  obtain ⟨f1, f2, f3, f4, f5, -, -⟩ := freshSolver_ok hf
  obtain ⟨a', sv', p', w1, w2, w3, w4⟩ := hi.whole a h sv p hf ht
  exact ⟨_, loadSolver_of_files (compute := w.compute) (accepted_good hc h) (hi.training a h sv p hf ht) w4
    ((hi.errors a h _).2 ⟨sv, p, hf, ht, rfl⟩) (p := p)
    (by rw [loadPartition_eq, partitionOf_fst hi.part h, f3]), rfl, rfl⟩

theorem modelsFor_ok {env : ClassifierEnv K M (Partition × List Point)}
    {files : SolverStore K M (Partition × List Point)}
    {classify : List (Option K) → Except PyErr Str} {spt target : Stack K}
    (h1 : '/' ∉ env.md.name) (h2 : '/' ∉ env.errorType) :
    ∀ (labels : List (Point × Str)) {st : ClassifierState K M (Partition × List Point)},
      st.Ready env files classify spt target → (∀ it ∈ labels, ∃ k seed i, it.2 = labelStr k seed i) →
      ∀ ms, (env.modelsFor labels st).1 = .ok ms → ∀ it ∈ labels, ∀ k seed i : Nat, it.2 = labelStr k seed i →
        ∃ sd model, (loadSolver env.compute (env.km k seed) files).1 = .ok sd ∧
          env.modelAt (labelStr k seed i) sd = .ok model
  | [], _, _, _, _, _, it, hit, _, _, _, _ => by cases hit
  | (p, label) :: rest, st, h, hl, ms, hm, it, hit, k, seed, i, e => by
    obtain ⟨k', seed', i', e'⟩ := hl (p, label) (by simp)
    simp only at e'
    obtain ⟨a, b⟩ := h.modelFor h1 h2 k' seed' i'
    rw [← e'] at a b
    unfold ClassifierEnv.modelsFor at hm
    rcases List.mem_cons.1 hit with rfl | hit
    · simp only at e
      obtain ⟨a2, b2⟩ := h.modelFor h1 h2 k seed i
      rw [← e] at a2 b2
      generalize env.modelFor label st = r at a2 hm
      obtain ⟨r1, r2⟩ := r
      simp only at a2
      cases r1 with
      | error er => cases hm
      | ok model =>
        cases hs : (loadSolver env.compute (env.km k seed) files).1 with
        | error er => rw [hs] at a2; cases a2
        | ok sd =>
          rw [hs] at a2
          exact ⟨sd, model, rfl, by rw [← e]; exact a2.symm⟩
    · generalize env.modelFor label st = r at b hm
      obtain ⟨r1, r2⟩ := r
      simp only at b
      cases r1 with
      | error er => cases hm
      | ok model =>
        simp only at hm
        cases hr : (env.modelsFor rest r2).1 with
        | error er =>
          generalize env.modelsFor rest r2 = q at hr hm
          obtain ⟨q1, q2⟩ := q
          simp only at hr
          subst hr
          cases hm
        | ok ms' => exact modelsFor_ok h1 h2 rest b (fun it hit => hl it (by simp [hit])) ms' hr it hit k seed i e

theorem modelAt_index {env : ClassifierEnv K M (Partition × List Point)} {k seed i : Nat}
    {sd : SolverData K M (Partition × List Point)} {model : Option M} {medoids : List Point}
    (hm : env.medoidsOf sd.part = some medoids) (h : env.modelAt (labelStr k seed i) sd = .ok model) :
    i < medoids.length := by
  by_contra hi
  unfold ClassifierEnv.modelAt at h
  simp only [labelStr_split] at h
  simp [listAt, pyInt_natStr, hm, listAtInt, Nat.not_lt.1 hi] at h

theorem DnnOpens.opens {a : DnnArgs} {classify : List (Option K) → Except PyErr Str} {s target : Stack K}
    (h : DnnOpens w tools a classify s target) : (dnnEnv w tools a).Opens a.outOfSample classify s target :=
  ⟨h.classifier, h.own, h.same, h.other⟩

theorem dnn_names (hc : GoodCatalogue regions) {a : DnnArgs} (h : (a.training 0 0).Accepted regions) :
    '/' ∉ (dnnEnv w tools a).md.name ∧ '/' ∉ (dnnEnv w tools a).errorType :=
  ⟨hc.1 _ h.1, (accepted_good hc h).2⟩

/-- **C142** (failure): if the label of a point of the prediction region names a solver that was not trained in the
session, or a cluster that this solver does not have, the program fails, and leaves all CSV files as they were. -/
theorem C142_unusable (hc : GoodCatalogue regions) (hl : tools.GoodLabels) {session : List AnyRun}
    (ha : ∀ c ∈ session, c.Accepted regions) {a : DnnArgs} (h : (AnyRun.dnn a).Accepted regions)
    {classify : List (Option K) → Except PyErr Str} {s target : Stack K}
    (hopen : DnnOpens w tools a classify s target) {b : Bool} (htarget : CreatedRegion b target)
    (hr : a.prediction.Inside target) (hw : a.window ≤ target.data.tLen)
    {p : Point} (hp : a.prediction.Has p) {past recent : List (Option K)}
    (hv : target.seriesAt p = .ok (past ++ recent)) (hrecent : recent.length = a.window) {k seed i : Nat}
    (hlabel : classify recent = .ok (labelStr k seed i)) (hno : ¬ LabelUsable w session a k seed i)
    (files : Str → Option Str) :
    ∃ e store, dnnCommand w tools a (anyStore w tools session) files = (.error e, store, files) := by
  obtain ⟨plain, e1, e2, e3⟩ := C142_session (w := w) hl session ha
  rw [e1]
  obtain ⟨st, st1, st2⟩ := predict_new hopen.opens (sessionStore w plain)
  have hn := dnn_names (w := w) (tools := tools) hc h
  suffices hf : ∀ pr st', (dnnEnv w tools a).predict a.prediction a.window a.outOfSample
      (ClassifierState.new (sessionStore w plain)) ≠ (.ok pr, st') by
    unfold dnnCommand
    generalize (dnnEnv w tools a).predict a.prediction a.window a.outOfSample
      (ClassifierState.new (sessionStore w plain)) = q at hf
    obtain ⟨q1, q2⟩ := q
    cases q1 with
    | error e => exact ⟨e, q2.store, rfl⟩
    | ok pr => exact absurd rfl (hf pr q2)
  intro pr st' hpr
  rw [st2 _ _ none] at hpr
  unfold ClassifierEnv.predict at hpr
  rw [st1.classifier] at hpr
  simp only at hpr
  unfold ClassifierEnv.predictPrepared at hpr
  rw [st1.classifier, st1.regions] at hpr
  simp only at hpr
  cases hcl : classifierLabels classify target a.prediction a.window with
  | error e => rw [hcl] at hpr; cases hpr
  | ok labels =>
    rw [hcl] at hpr
    simp only at hpr
    have hcanon := classifierLabels_canonical (hl _ _ hopen.classifier) hcl
    -- the label of the point is among them
    have hmem : ∃ it ∈ labels, it.2 = labelStr k seed i := by
      unfold classifierLabels at hcl
      simp only at hcl
      obtain ⟨items, i1, i2, i3⟩ := htarget.items hr
        ⟨target.data.tLen - a.window, target.data.tLen⟩
      rw [classifier_interval _ _ hw, i1] at hcl
      simp only at hcl
      obtain ⟨p1, p2, p3, p4⟩ := hp
      have hq : (⟨p.x - a.prediction.x1, p.y - a.prediction.y1⟩ : Point) ∈ items.map Prod.fst := by
        rw [i2, mem_rowMajor]
        exact ⟨by simp only; omega, by simp only; omega⟩
      obtain ⟨it, hit, e⟩ := List.mem_map.1 hq
      obtain ⟨v, v1, v2⟩ := i3 it hit
      have hsh : a.prediction.shift it.1 = p := by
        rw [e]
        obtain ⟨x, y⟩ := p
        simp only [Region.shift, Point.mk.injEq] at *
        omega
      rw [hsh, hv] at v1
      cases v1
      have hlen := Stack.seriesAt_length htarget.ok.1 hv
      have hw' : it.2 = recent := by
        rw [List.length_append] at hlen
        rw [v2, sliceSeries, List.take_of_length_le (by simp only [List.length_append]; omega)]
        rw [show target.data.tLen - a.window = past.length by omega, List.drop_left]
      have hf := mapM_eq_ok.1 hcl
      obtain ⟨out, o1, o2⟩ := Extraction.forall₂_mem_right hf.flip hit
      refine ⟨out, o1, ?_⟩
      unfold labelItem at o2
      rw [hw', hlabel] at o2
      cases o2
      rfl
    obtain ⟨it, hit, e⟩ := hmem
    cases hm : (dnnEnv w tools a).modelsFor labels st with
    | mk m1 m2 =>
      rw [hm] at hpr
      cases m1 with
      | error e => cases hpr
      | ok ms =>
        obtain ⟨sd, model, g1, g2⟩ := modelsFor_ok hn.1 hn.2 labels st1 hcanon ms (by rw [hm]) it hit k seed i e
        obtain ⟨g3, sv, g4⟩ := loadSolver_session hc e2 (training_accepted h k seed) g1
        refine hno ⟨(trainedIn_plain e3 _).1 g3, sv, sd.part, g4, modelAt_index (medoids := sd.part.2) rfl g2⟩

/-! ### Success -/

theorem labelStr_inj {k seed i k' seed' i' : Nat} (h : labelStr k seed i = labelStr k' seed' i') :
    k = k' ∧ seed = seed' ∧ i = i' := by
  have e := labelStr_split k seed i
  rw [h, labelStr_split] at e
  simp only [List.cons.injEq, and_true] at e
  exact ⟨natStr_inj e.1.symm, natStr_inj e.2.1.symm, natStr_inj e.2.2.symm⟩

/-- A label stands for one model at most. -/
theorem LabelModel.unique {env : ClassifierEnv K M (Partition × List Point)}
    {files : SolverStore K M (Partition × List Point)} {label : Str} {model model' : Option M}
    (h : LabelModel env files label model) (h' : LabelModel env files label model') : model = model' := by
  obtain ⟨k, seed, i, s, ms, m, e1, e2, e3, e4, e5⟩ := h
  obtain ⟨k', seed', i', s', ms', m', e1', e2', e3', e4', e5'⟩ := h'
  obtain ⟨rfl, rfl, rfl⟩ := labelStr_inj (e1.symm.trans e1')
  rw [e2] at e2'; cases e2'
  rw [e3] at e3'; cases e3'
  rw [e4] at e4'; cases e4'
  rw [e5] at e5'; cases e5'
  rfl

/-- The model of a label whose solver was trained in the session. -/
theorem labelMedoid_model (hc : GoodCatalogue regions) {session : List AnyRun} {plain : List SolverCommand}
    (e2 : ∀ c ∈ plain, c.args.Accepted regions)
    (e3 : plain.filterMap SolverCommand.trains = session.filterMap AnyRun.trains) {a : DnnArgs}
    (h : (a.training 0 0).Accepted regions) (hmat : w.matrix a.region = .ok ()) {s : Stack K}
    (hreg : w.region a.region = .ok s)
    (hfc : ∀ q v m, (w.trainer (.autoArima 1 1 3 3 none true) a.region).train q v = .ok (some m) →
      ∃ x, w.forecast m a.testLen = .ok x ∧ x.length = a.testLen)
    {f : ErrorFun K} (hfunc : getErrorFunc (String.ofList a.errorType) = .ok f)
    (hmase : String.ofList a.errorType = "MASE" → s.data.tLen ≠ a.testLen + 1) {label : Str} {m : Point}
    (hl : LabelMedoid w session a s label m) :
    ∃ model past future q, LabelModel (dnnEnv w tools a) (sessionStore w plain) label model ∧
      s.seriesAt m = .ok (past ++ future) ∧ future.length = a.testLen ∧
      (w.trainer (.autoArima 1 1 3 3 none true) a.region).params.get m = .ok q ∧
      (w.trainer (.autoArima 1 1 3 3 none true) a.region).train q past = .ok model := by
  obtain ⟨k, seed, i, t, pt, medoids, rfl, t1, t2, hpart, hs, hm⟩ := hl
  obtain ⟨sv, ge, g, a1, -, -, -, -, a6⟩ := C90_train hs w.forecast hfc hfunc hmase w.zero w.junk
  have hf : freshSolver w (a.training k seed).metadata = .ok (sv, (pt, medoids)) := by
    unfold freshSolver
    rw [show w.matrix (a.training k seed).metadata.md = .ok () from hmat,
      show w.region (a.training k seed).metadata.md = .ok s from hreg,
      show w.partition (a.training k seed).metadata.md (a.training k seed).metadata.dist
        (a.training k seed).metadata.clustering = .ok (pt, medoids) from hpart]
    show (trainCompleteSolver (w.trainer (.autoArima 1 1 3 3 none true) a.region)
      (w.refitter (.autoArima 1 1 3 3 none true) a.region)
      w.forecast (String.ofList a.errorType) a.region.scaled s a.testLen pt medoids w.zero w.junk >>=
      fun sv => pure (sv, (pt, medoids))) = _
    rw [a1]
    rfl
  obtain ⟨sd, d1, d2, d3⟩ := loadSolver_trained hc e2 (training_accepted h k seed)
    ((trainedIn_plain e3 _).2 ⟨t, t1, t2⟩) hf
  have hmem := hs.member i m hm
  have hr := (Grid.get_eq_ok_iff _ _ _).1 hmem
  obtain ⟨l, training, whole, ⟨c1, m', past, future, q, q', c2, c3, c4, c5, c6, c7, c8, c9⟩, c10, -⟩ := a6 m
    (by rw [← hs.shape.1]; exact hr.1) (by rw [← hs.shape.2]; exact hr.2.1)
  rw [hmem] at c1
  cases c1
  rw [hm] at c2
  cases c2
  refine ⟨training, past, future, q, ⟨k, seed, i, sd, medoids, m, rfl, d1, ?_, hm, ?_⟩, c3, c4, c5, c6⟩
  · show some sd.part.2 = _
    rw [d3]
  · rw [d2]; exact c10

theorem pointText_length (p : Point) : (pointText p).length = 8 + ((natStr p.x).length + (4 + ((natStr p.y).length + 1))) := by
  unfold pointText
  rw [List.length_append, List.length_append, List.length_append, List.length_append]
  rfl

theorem pointText_no_nul (p : Point) : '\x00' ∉ pointText p := by
  have h1 := natStr_no_nul p.x
  have h2 := natStr_no_nul p.y
  unfold pointText
  intro h
  rcases List.mem_append.1 h with h | h
  · revert h; decide
  · rcases List.mem_append.1 h with h | h
    · exact h1 h
    · rcases List.mem_append.1 h with h | h
      · revert h; decide
      · rcases List.mem_append.1 h with h | h
        · exact h2 h
        · revert h; decide

theorem pointText_readable {p : Point} (hx : p.x < 10 ^ 9) (hy : p.y < 10 ^ 9) : Readable (pointText p) := by
  have h1 := natStr_length (d := 9) (by decide) hx
  have h2 := natStr_length (d := 9) (by decide) hy
  have h3 : (pointText p).length ≤ 31 := by rw [pointText_length]; omega
  exact ⟨h3.trans (by decide), pointText_no_nul p⟩

theorem dnn_paths (a : DnnArgs) : a.path .result ≠ a.path .summary := by
  intro e
  unfold DnnArgs.path AnyResult.path at e
  generalize osJoin (osJoin (a.result.baseDir "outputs".toList) a.result.params.repr)
    (regionStr a.result.region) = d at e
  have h1 : ∃ t, a.result.file (a.result.namePrefix .result) = 'q' :: 'u' :: 'e' :: 'r' :: 'y' :: '-' :: 'r' :: t :=
    ⟨_, rfl⟩
  have h2 : ∃ t, a.result.file (a.result.namePrefix .summary) = 'q' :: 'u' :: 'e' :: 'r' :: 'y' :: '-' :: 's' :: t :=
    ⟨_, rfl⟩
  obtain ⟨t1, h1⟩ := h1
  obtain ⟨t2, h2⟩ := h2
  rw [h1, h2] at e
  simp only [osJoin] at e
  split_ifs at e
  · have := List.append_cancel_left e
    simp at this
  · have := List.append_cancel_left e
    simp at this

/-- **C142**: after any session of the programs, if the labels of the points of the prediction region are of solvers that
were trained in the session, the program succeeds. The csv module reads a row for every point from the file of the
result, in row-major order, with the right answers; the lines on the screen say the same; the summary has the suite, the
number of test samples and the mean of the squares of the errors; no other file is changed. -/
theorem C142_rows (hc : GoodCatalogue regions) (hl : tools.GoodLabels) (htext : tools.GoodTexts)
    {session : List AnyRun} (ha : ∀ c ∈ session, c.Accepted regions) {a : DnnArgs}
    (h : (AnyRun.dnn a).Accepted regions)
    {classify : List (Option K) → Except PyErr Str} {s target : Stack K}
    (hopen : DnnOpens w tools a classify s target) (hmat : w.matrix a.region = .ok ())
    (hcreated : CreatedRegion a.region.scaled s) (henough : a.testLen ≤ s.data.tLen)
    {b : Bool} (htarget : CreatedRegion b target)
    (hr : a.prediction.Inside s) (hr' : a.prediction.Inside target) (hw : a.window ≤ target.data.tLen)
    (hfc : ∀ q v m, (w.trainer (.autoArima 1 1 3 3 none true) a.region).train q v = .ok (some m) →
      ∃ x, w.forecast m a.testLen = .ok x ∧ x.length = a.testLen)
    {f : ErrorFun K} (hfunc : getErrorFunc (String.ofList a.errorType) = .ok f)
    (hmase : String.ofList a.errorType = "MASE" → s.data.tLen ≠ a.testLen + 1)
    (hlabels : ∀ p, a.prediction.Has p → ∀ past recent, target.seriesAt p = .ok (past ++ recent) →
      recent.length = a.window → ∃ label m, classify recent = .ok label ∧ LabelMedoid w session a s label m)
    (hsuite : Readable a.suite.repr) (hbound : a.testLen < 10 ^ 9 ∧ a.prediction.x2 + a.region.region.x1 ≤ 10 ^ 9 ∧
      a.prediction.y2 + a.region.region.y1 ≤ 10 ^ 9)
    (files : Str → Option Str) :
    ∃ (answers : List (DnnAnswer K)) (blocks : List (List Str))
      (store : SolverStore K M (Partition × List Point)) (files' : Str → Option Str) (text1 text2 : Str),
      dnnCommand w tools a (anyStore w tools session) files = (.ok blocks, store, files') ∧
      files' (a.path .result) = some text1 ∧ files' (a.path .summary) = some text2 ∧
      (∀ path, path ≠ a.path .result → path ≠ a.path .summary → files' path = files path) ∧
      answers.length = (a.prediction.x2 - a.prediction.x1) * (a.prediction.y2 - a.prediction.y1) ∧
      (∀ p, a.prediction.Has p → ∃ x, answers[(p.x - a.prediction.x1) * (a.prediction.y2 - a.prediction.y1) +
          (p.y - a.prediction.y1)]? = some x ∧ x.point = p ∧ x.Right w session a classify s target f) ∧
      csvReadText text1 = (["Point".toList, "label".toList, "error".toList, "forecast_series".toList,
        "test_series".toList] :: answers.map fun x => (x.row a).map (Cell.str tools.text), none) ∧
      csvReadText text2 = ([["suite".toList, "tp".toList, "mse".toList], [a.suite.repr, natStr a.testLen,
        tools.text.show3 (meanOfSquaredErrors (answers.map (·.error)))]], none) ∧
      List.Forall₂ (fun x block => ∃ ls, block = "*********************************".toList :: ls ∧
        ScreenOf tools.text a.errorType (DnnAnswer.row a x) ls) answers blocks := by
  classical
  obtain ⟨plain, e1, e2, e3⟩ := C142_session (w := w) hl session ha
  rw [e1]
  have hn := dnn_names (w := w) (tools := tools) hc h
  have hfit : (dnnEnv w tools a).Fits s f := ⟨hcreated, henough, hfunc, hmase⟩
  have hmodel := fun label m => labelMedoid_model (tools := tools) hc e2 e3 h hmat hopen.own hfc hfunc hmase
    (label := label) (m := m)
  obtain ⟨pr, st', h1, hready, hx, hy, hp⟩ := C80_first (files := sessionStore w plain) hopen.opens hfit hn.1 htarget
    hr hr' hw (by
      intro p hp v past recent hv e hlen
      rw [e] at hv
      obtain ⟨label, m, l1, l2⟩ := hlabels p hp past recent hv hlen
      obtain ⟨model, past', future, q, m1, -, -, -, m5⟩ := hmodel label m l2
      refine ⟨label, model, l1, m1, fun mo hmo => ?_⟩
      rw [hmo] at m5
      exact hfc _ _ _ m5)
  -- the answer at a point
  have hans : ∀ p : Point, ∃ x : DnnAnswer K, a.prediction.Has p → x.point = p ∧
      x.Right w session a classify s target f ∧
      Result.dictGet ⟨p.x - a.prediction.x1, p.y - a.prediction.y1⟩ pr.labels = .ok x.label ∧
      pr.forecast.seriesAt ⟨p.x - a.prediction.x1, p.y - a.prediction.y1⟩ = .ok x.forecast ∧
      pr.test.seriesAt ⟨p.x - a.prediction.x1, p.y - a.prediction.y1⟩ = .ok x.test ∧
      pr.errors.valueAt ⟨p.x - a.prediction.x1, p.y - a.prediction.y1⟩ = .ok x.error := by
    intro p
    by_cases hhas : a.prediction.Has p
    · obtain ⟨label, model, forecast, test, hA⟩ := hp p hhas
      obtain ⟨e, he⟩ := hA.shown_error
      refine ⟨⟨p, label, e, forecast, test⟩, fun _ => ⟨rfl, ?_, hA.shown_label, hA.shown_forecast, hA.shown_test, he⟩⟩
      obtain ⟨p1, p2, p3, p4⟩ := hhas
      have hx1 := hr.xLen
      have hy1 := hr.yLen
      have hx2 := hr'.xLen
      have hy2 := hr'.yLen
      -- the label
      obtain ⟨v, hv⟩ := target.data.grid.exists_get htarget.ok.1.data_wf.1 (p := p) (by omega) (by omega)
      have hv' : target.seriesAt p = .ok v := by rw [htarget.seriesAt, hv]
      have hvl := Stack.seriesAt_length htarget.ok.1 hv'
      have hsplit : v = v.take (target.data.tLen - a.window) ++ v.drop (target.data.tLen - a.window) :=
        (List.take_append_drop _ _).symm
      have hdl : (v.drop (target.data.tLen - a.window)).length = a.window := by rw [List.length_drop]; omega
      have hlab := hA.is_label v _ _ hv' hsplit hdl
      obtain ⟨label', m, l1, l2⟩ := hlabels p ⟨p1, p2, p3, p4⟩ _ _ (by rw [← hsplit]; exact hv') hdl
      rw [hlab] at l1
      cases l1
      obtain ⟨model', past, future, q, m1, m2, m3, m4, m5⟩ := hmodel label m l2
      have := LabelModel.unique hA.is_model m1
      subst this
      obtain ⟨raw, hraw, hunits⟩ := hA.is_forecast
      -- the error
      obtain ⟨u, hu⟩ := s.data.grid.exists_get hcreated.ok.1.data_wf.1 (p := p) (by omega) (by omega)
      have hu' : s.seriesAt p = .ok u := by rw [hcreated.seriesAt, hu]
      have hul := Stack.seriesAt_length hcreated.ok.1 hu'
      have husplit : u = u.take (s.data.tLen - a.testLen) ++ u.drop (s.data.tLen - a.testLen) :=
        (List.take_append_drop _ _).symm
      have hudl : (u.drop (s.data.tLen - a.testLen)).length = a.testLen := by rw [List.length_drop]; omega
      obtain ⟨wt, hwt⟩ := InUnits.exists hcreated.ok.1 hu' (u.take (s.data.tLen - a.testLen))
      refine ⟨⟨_, _, by rw [← hsplit]; exact hv', hdl, hlab⟩,
        ⟨m, past, future, q, model, raw, l2, m2, m3, m4, m5, hraw, hunits⟩,
        ⟨_, _, wt, by rw [← husplit]; exact hu', hudl, hA.is_test u _ _ hu' husplit hudl, hwt, ?_⟩⟩
      rw [← hA.error u _ _ wt hu' husplit hudl hwt]
      exact he
    · exact ⟨⟨p, [], none, [], []⟩, fun h' => absurd h' hhas⟩
  choose ans hans using hans
  have hshift : ∀ q : Point, q.x < a.prediction.x2 - a.prediction.x1 → q.y < a.prediction.y2 - a.prediction.y1 →
      a.prediction.Has (a.prediction.shift q) ∧
      (⟨(a.prediction.shift q).x - a.prediction.x1, (a.prediction.shift q).y - a.prediction.y1⟩ : Point) = q := by
    intro q q1 q2
    refine ⟨?_, ?_⟩
    · simp only [Region.Has, Region.shift]; omega
    · cases q; simp [Region.shift]
  have hpts : (pr.result a.region.region a.testLen s a.suite.repr a.prediction).points =
      rowMajor (a.prediction.x2 - a.prediction.x1) (a.prediction.y2 - a.prediction.y1) := by
    rw [Result.points, allPoints_eq]
    show rowMajor pr.forecast.data.grid.xLen pr.forecast.data.grid.yLen = _
    rw [hx, hy]
  have hrows : (pr.result a.region.region a.testLen s a.suite.repr a.prediction).rows =
      .ok (((rowMajor (a.prediction.x2 - a.prediction.x1) (a.prediction.y2 - a.prediction.y1)).map fun q =>
        ans (a.prediction.shift q)).map (DnnAnswer.row a)) := by
    rw [Result.rows, hpts, List.map_map]
    refine mapM_ok _ _ _ fun q hq => ?_
    obtain ⟨q1, q2⟩ := mem_rowMajor.1 hq
    obtain ⟨s1, s2⟩ := hshift q q1 q2
    obtain ⟨k1, -, k3, k4, k5, k6⟩ := hans _ s1
    rw [s2] at k3 k4 k5 k6
    simp only [ClassifierPrediction.result, Result.build, Bool.false_eq_true, if_false, Result.tuple,
      Result.baseTuple, Result.base, k3, k4, k5, k6, Function.comp, DnnAnswer.row, k1]
    simp only [Region.shift, Nat.add_comm a.prediction.x1, Nat.add_comm a.prediction.y1]
    rfl
  have hmse : (Result.inSample ⟨a.region.region, a.testLen, pr.forecast, pr.errors, a.prediction, s⟩ pr.test).summaryMse =
      .ok (meanOfSquaredErrors (((rowMajor (a.prediction.x2 - a.prediction.x1)
        (a.prediction.y2 - a.prediction.y1)).map fun q => ans (a.prediction.shift q)).map (·.error))) := by
    rw [Result.summaryMse]
    have : (Result.inSample ⟨a.region.region, a.testLen, pr.forecast, pr.errors, a.prediction, s⟩ pr.test).points =
        rowMajor (a.prediction.x2 - a.prediction.x1) (a.prediction.y2 - a.prediction.y1) := hpts
    rw [this, List.map_map]
    show (match List.mapM pr.errors.valueAt _ with
      | .error e => Except.error e
      | .ok errs => Except.ok (errorMeanSquared errs)) = _
    rw [mapM_ok (pr.errors.valueAt) (fun q => (ans (a.prediction.shift q)).error) _ (fun q hq => by
      obtain ⟨q1, q2⟩ := mem_rowMajor.1 hq
      obtain ⟨s1, s2⟩ := hshift q q1 q2
      have := (hans _ s1).2.2.2.2.2
      rw [s2] at this
      exact this)]
    simp only [errorMeanSquared_eq]
    rfl
  have hsum : (pr.result a.region.region a.testLen s a.suite.repr a.prediction).summaryTuple tools.measure
      tools.combine tools.root = .ok [.text a.suite.repr, .index a.testLen, .errorValue (meanOfSquaredErrors
        (((rowMajor (a.prediction.x2 - a.prediction.x1) (a.prediction.y2 - a.prediction.y1)).map fun q =>
          ans (a.prediction.shift q)).map (·.error)))] := by
    simp only [ClassifierPrediction.result, Result.build, Bool.false_eq_true, if_false, Result.summaryTuple,
      Result.baseSummary, hmse, Result.base]
    rfl
  generalize hansw : ((rowMajor (a.prediction.x2 - a.prediction.x1) (a.prediction.y2 - a.prediction.y1)).map fun q =>
    ans (a.prediction.shift q)) = answers at hrows hsum
  have hall : ∀ x ∈ answers, ∃ p, a.prediction.Has p ∧ x.point = p ∧
      x.Right w session a classify s target f := by
    intro x hx'
    rw [← hansw] at hx'
    obtain ⟨q, hq, rfl⟩ := List.mem_map.1 hx'
    obtain ⟨q1, q2⟩ := mem_rowMajor.1 hq
    obtain ⟨s1, s2⟩ := hshift q q1 q2
    exact ⟨_, s1, (hans _ s1).1, (hans _ s1).2.1⟩
  obtain ⟨files', text1, text2, c1, c2, c3, c4, c5, c6⟩ := C132_query (measure := tools.measure)
    (combine := tools.combine) (root := tools.root) (n := tools.text) (dnn_paths a) hrows hsum (by
      intro row hrow c hc'
      rcases List.mem_cons.1 hrow with rfl | hrow
      · simp only [List.mem_cons, List.not_mem_nil, or_false] at hc'
        rcases hc' with rfl | rfl | rfl
        · exact hsuite
        · exact natStr_readable_short hbound.1
        · exact htext.error _
      · obtain ⟨x, hx', rfl⟩ := List.mem_map.1 hrow
        obtain ⟨p, ⟨p1, p2, p3, p4⟩, rfl, hright⟩ := hall x hx'
        obtain ⟨-, recent, -, -, hlab⟩ := hright.label
        simp only [DnnAnswer.row, List.mem_cons, List.not_mem_nil, or_false] at hc'
        rcases hc' with rfl | rfl | rfl | rfl | rfl
        · exact pointText_readable (by simp only; omega) (by simp only; omega)
        · exact htext.labels _ _ hopen.classifier _ _ hlab
        · exact htext.error _
        · exact htext.series _
        · exact htext.series _) files
  obtain ⟨blocks, b1, b2⟩ := (C133_printed tools.text a.errorType
    (pr.result a.region.region a.testLen s a.suite.repr a.prediction)).1 _ hrows
  refine ⟨answers, blocks, st'.store, files', text1, text2, ?_, c2, c3, c4, ?_, ?_, ?_, c6, ?_⟩
  · unfold dnnCommand
    rw [h1]
    simp only [hready.regions, b1, c1]
  · rw [← hansw, List.length_map, rowMajor_length]
  · intro p hp'
    obtain ⟨p1, p2, p3, p4⟩ := hp'
    have hx' : p.x - a.prediction.x1 < a.prediction.x2 - a.prediction.x1 := by omega
    have hy' : p.y - a.prediction.y1 < a.prediction.y2 - a.prediction.y1 := by omega
    have hsh : a.prediction.shift ⟨p.x - a.prediction.x1, p.y - a.prediction.y1⟩ = p := by
      obtain ⟨x, y⟩ := p
      simp only [Region.shift, Point.mk.injEq] at *
      omega
    refine ⟨ans p, ?_, (hans p ⟨p1, p2, p3, p4⟩).1, (hans p ⟨p1, p2, p3, p4⟩).2.1⟩
    rw [← hansw, List.getElem?_map, rowMajor_eq_map, List.getElem?_map, List.getElem?_range (idx_lt hx' hy'),
      Option.map_some, Option.map_some, idx_div hy', idx_mod hy', hsh]
  · rw [c5, List.map_map]
    rfl
  · rw [List.forall₂_map_left_iff] at b2
    exact b2

/-- **C142** (paths): where the two files of a run are; the type of the error and the number of test samples are part of
their names, the window and the classifier are not. -/
theorem C142_paths {a : DnnArgs} (hname : '/' ∉ a.region.name) (herror : '/' ∉ a.errorType) (hsuite : a.suite.Good) :
    ∀ kind : CsvKind, a.path kind = "outputs/".toList ++ a.region.repr ++ "/dtw/".toList ++ a.suite.repr ++
      "/auto-arima-start_p1-start_q1-max_p3-max_q3-dNone-stepwiseTrue/".toList ++ regionStr a.prediction ++
      (if kind = .result then "/query-result__".toList else "/query-summary__".toList) ++ regionStr a.prediction ++
      "__tp".toList ++ natStr a.testLen ++ "__tf0__".toList ++ a.errorType ++ ".csv".toList := by
  intro kind
  have hg : a.result.Good := ⟨hname, herror, hsuite⟩
  have hd : DirName "outputs".toList := ⟨by decide +kernel, by decide +kernel⟩
  have glue : ∀ {o r t c n g q v p tp f z e y o' t' n' q' p' f' : Str}, o' = o ++ ['/'] → t' = '/' :: (t ++ ['/']) →
      n' = '/' :: (n ++ ['/']) → q' = '/' :: (q ++ v) → p' = v ++ p → f' = v ++ (f ++ (z ++ v)) →
      (((((o ++ '/' :: r) ++ '/' :: t) ++ '/' :: c) ++ '/' :: n) ++ '/' :: g) ++ '/' ::
        (q ++ (v ++ (g ++ (v ++ (p ++ (tp ++ (v ++ (f ++ (z ++ (v ++ (e ++ y))))))))))) =
        o' ++ r ++ t' ++ c ++ n' ++ g ++ q' ++ g ++ p' ++ tp ++ f' ++ e ++ y := by
    rintro o r t c n g q v p tp f z e y _ _ _ _ _ _ rfl rfl rfl rfl rfl rfl
    simp
  have hbase : a.result.baseDir "outputs".toList =
      (("outputs".toList ++ '/' :: a.region.repr) ++ '/' :: "dtw".toList) ++ '/' :: a.suite.repr := by
    show a.suite.dir "outputs".toList a.region .dtw = _
    rw [SuiteId.dir, osJoin_file (suiteCsvDir_dir hd hname _) (SuiteId.repr_name hsuite), suiteCsvDir,
      osJoin_file hd (regionRepr_name hname)]
    rfl
  have hparams : a.result.params.repr = "auto-arima-start_p1-start_q1-max_p3-max_q3-dNone-stepwiseTrue".toList := by
    show (ModelParams.autoArima 1 1 3 3 none true).repr = _
    decide +kernel
  have hfuture : "__tf0__".toList = sep2 ++ (['t', 'f'] ++ (natStr a.result.forecastLen ++ sep2)) := by
    show _ = sep2 ++ (['t', 'f'] ++ (natStr 0 ++ sep2))
    decide +kernel
  show a.result.path "outputs".toList kind = _
  rw [AnyResult.path_eq hd hg, hbase, hparams]
  cases kind
  · rw [if_pos rfl]
    exact glue rfl rfl (by decide +kernel)
      (show _ = '/' :: ("query-result".toList ++ sep2) by decide +kernel) (by decide +kernel) hfuture
  · rw [if_neg (by decide)]
    exact glue rfl rfl (by decide +kernel)
      (show _ = '/' :: ("query-summary".toList ++ sep2) by decide +kernel) (by decide +kernel) hfuture

/-! ### Examples -/

/-- A classifier that looks at the last sample, and texts for the numbers of the examples. -/
def exampleTools : DnnTools ℚ where
  classifier _ := .ok fun v => if v.getLast? = some (some (1/2)) then .ok (labelStr 2 0 1) else .ok (labelStr 2 0 0)
  junk := none
  measure _ _ := none
  combine _ := none
  root := id
  text := {
    show2 := fun _ => []
    show3 := fun e => if e = some 1 then "1.000".toList else if e = some 9 then "9.000".toList else
      if e = some 41 then "41.000".toList else "?".toList
    showSeries := fun v => if v = [some 10] then "[10.]".toList else if v = [some 11] then "[11.]".toList else
      if v = [some 20] then "[20.]".toList else if v = [some 23] then "[23.]".toList else "[?]".toList }

/-- The query: the first two points of the region of `trainedWorld`. -/
def exampleDnn : DnnArgs :=
  { region := ⟨['b'], ⟨5, 6, 7, 10⟩, 2015, 2015, 1, true⟩, suite := ⟨"kmedoids".toList, "quick".toList⟩,
    classifier := "LSTM".toList, window := 1, prediction := ⟨0, 1, 0, 2⟩, testLen := 1, errorType := ['M', 'S', 'E'] }

theorem exampleTools_labels : exampleTools.GoodLabels := by
  intro id classify h v l hl
  cases h
  dsimp only at hl
  split_ifs at hl
  · cases hl; exact ⟨2, 0, 1, rfl⟩
  · cases hl; exact ⟨2, 0, 0, rfl⟩

theorem exampleTools_texts : exampleTools.GoodTexts where
  labels := by
    intro id classify h v l hl
    cases h
    dsimp only at hl
    split_ifs at hl
    · cases hl; unfold Readable; decide +kernel
    · cases hl; unfold Readable; decide +kernel
  error := by
    intro v
    dsimp only [exampleTools]
    split_ifs <;> (unfold Readable; decide +kernel)
  series := by
    intro v
    dsimp only [exampleTools]
    split_ifs <;> (unfold Readable; decide +kernel)

theorem exampleDnn_accepted : (AnyRun.dnn exampleDnn).Accepted [exampleDnn.region] := by
  unfold AnyRun.Accepted SolverArgs.Accepted; decide +kernel

theorem exampleDnn_training (k seed : Int) :
    (AnyRun.solver (.train (exampleDnn.training k seed))).Accepted [exampleDnn.region] :=
  training_accepted exampleDnn_accepted k seed

theorem exampleDnn_opens : DnnOpens trainedWorld exampleTools exampleDnn
    (fun v => if v.getLast? = some (some (1/2)) then .ok (labelStr 2 0 1) else .ok (labelStr 2 0 0))
    trainedRegion trainedRegion :=
  ⟨rfl, rfl, fun _ => rfl, fun _ h => by cases h⟩

theorem exampleDnn_inside : exampleDnn.prediction.Inside trainedRegion :=
  ⟨by decide, by decide, by decide +kernel, by decide +kernel⟩

/-- Without a training the program fails and writes nothing. -/
example (files : Str → Option Str) : ∃ e store, dnnCommand trainedWorld exampleTools exampleDnn
    (anyStore trainedWorld exampleTools [.dnn exampleDnn]) files = (.error e, store, files) :=
  C142_unusable (regions := [exampleDnn.region]) (by unfold GoodCatalogue; decide +kernel) exampleTools_labels
    (by intro c hc; rw [List.mem_singleton.1 hc]; exact exampleDnn_accepted) exampleDnn_accepted exampleDnn_opens
    trainedSetup.created exampleDnn_inside (by decide +kernel) (p := ⟨0, 0⟩)
    ⟨by decide, by decide, by decide, by decide⟩ (past := [some 0, some 1]) (recent := [some (1/2)])
    (by decide +kernel) rfl (k := 2) (seed := 0) (i := 1) (by decide +kernel) (by
      rintro ⟨⟨t, h, -⟩, -⟩
      simp at h) files

/-- After the training it succeeds; an earlier failure does not matter. -/
example (files : Str → Option Str) : ∃ (answers : List (DnnAnswer ℚ)) (blocks : List (List Str))
    (store : SolverStore ℚ (Option ℚ) (Partition × List Point)) (files' : Str → Option Str) (f : ErrorFun ℚ),
    dnnCommand trainedWorld exampleTools exampleDnn (anyStore trainedWorld exampleTools
      [.dnn exampleDnn, .solver (.train (exampleDnn.training 2 0))]) files = (.ok blocks, store, files') ∧
    answers.length = 2 ∧ ∃ x, answers[1]? = some x ∧ x.point = ⟨0, 1⟩ ∧ x.Right trainedWorld
      [.dnn exampleDnn, .solver (.train (exampleDnn.training 2 0))] exampleDnn
      (fun v => if v.getLast? = some (some (1/2)) then .ok (labelStr 2 0 1) else .ok (labelStr 2 0 0))
      trainedRegion trainedRegion f := by
  obtain ⟨f, hfunc⟩ : ∃ f, getErrorFunc (K := ℚ) (String.ofList exampleDnn.errorType) = .ok f :=
    exists_ok_of_isSome (by decide +kernel)
  have hlab : ∀ i m, ([⟨0, 1⟩, ⟨0, 2⟩] : List Point)[i]? = some m → LabelMedoid trainedWorld
      [.dnn exampleDnn, .solver (.train (exampleDnn.training 2 0))] exampleDnn trainedRegion (labelStr 2 0 i) m :=
    fun i m h => ⟨2, 0, i, exampleDnn.training 2 0, trainedPartition, [⟨0, 1⟩, ⟨0, 2⟩], rfl, by simp, rfl, rfl,
      trainedSetup, h⟩
  obtain ⟨answers, blocks, store, files', text1, text2, h1, -, -, -, h5, h6, -⟩ := C142_rows (w := trainedWorld)
    (tools := exampleTools) (regions := [exampleDnn.region])
    (session := [.dnn exampleDnn, .solver (.train (exampleDnn.training 2 0))]) (a := exampleDnn)
    (by unfold GoodCatalogue; decide +kernel) exampleTools_labels exampleTools_texts
    (by
      intro c hc
      simp only [List.mem_cons, List.not_mem_nil, or_false] at hc
      rcases hc with rfl | rfl
      · exact exampleDnn_accepted
      · exact exampleDnn_training 2 0) exampleDnn_accepted exampleDnn_opens rfl trainedSetup.created
    (by decide +kernel) trainedSetup.created exampleDnn_inside exampleDnn_inside (by decide +kernel)
    (fun _ _ m _ => ⟨_, rfl, List.length_replicate ..⟩) hfunc (fun e => absurd e (by decide +kernel))
    (by
      intro p _ past recent _ _
      by_cases hg : recent.getLast? = some (some (1/2))
      · exact ⟨_, _, by simp only [hg, if_true], hlab 1 ⟨0, 2⟩ rfl⟩
      · exact ⟨_, _, by simp only [hg, if_false], hlab 0 ⟨0, 1⟩ rfl⟩)
    (by unfold Readable; decide +kernel) ⟨by decide, by decide, by decide⟩ files
  exact ⟨answers, blocks, store, files', f, h1, h5, h6 ⟨0, 1⟩ ⟨by decide, by decide, by decide, by decide⟩⟩

/-- The files: the first point is labelled with the second medoid, whose mean is 0, the second point with the first
medoid, whose mean is 3/4; each point brings it back to its own units. -/
example : let out := dnnCommand trainedWorld exampleTools exampleDnn (anyStore trainedWorld exampleTools
      [.dnn exampleDnn, .solver (.train (exampleDnn.training 2 0))]) fun _ => none
    (out.2.2 (exampleDnn.path .result)).map csvReadText =
      some ([["Point", "label", "error", "forecast_series", "test_series"].map String.toList,
        ["Point(x=5, y=7)", "2-0-1", "1.000", "[10.]", "[11.]"].map String.toList,
        ["Point(x=5, y=8)", "2-0-0", "9.000", "[23.]", "[20.]"].map String.toList], none) ∧
    (out.2.2 (exampleDnn.path .summary)).map csvReadText =
      some ([["suite", "tp", "mse"].map String.toList, ["kmedoids-quick", "1", "41.000"].map String.toList], none) := by
  refine ⟨by decide +kernel, by decide +kernel⟩

/-- The paths of the example. -/
example : exampleDnn.path .result = "outputs/".toList ++ exampleDnn.region.repr ++ "/dtw/".toList ++
    exampleDnn.suite.repr ++ "/auto-arima-start_p1-start_q1-max_p3-max_q3-dNone-stepwiseTrue/".toList ++
    regionStr exampleDnn.prediction ++ "/query-result__".toList ++ regionStr exampleDnn.prediction ++ "__tp".toList ++
    natStr 1 ++ "__tf0__".toList ++ ['M', 'S', 'E'] ++ ".csv".toList :=
  C142_paths (a := exampleDnn) (by decide) (by decide) (by unfold SuiteId.Good; decide +kernel) .result

end Spta
