import Verif.Spec.Classifier
import Verif.Props.SolverFiles
import Verif.Props.Forecast

/-!
# Lemmas about the solver that uses a classifier
-/

set_option linter.unusedSectionVars false

namespace Spta

/-! ### Files -/

section files

variable {K M P : Type} {compute : PartitionRequest → Except PyErr P}

theorem loadSolver_store (m : SolverMeta) (store : SolverStore K M P) :
    (loadSolver compute m store).2 = (partitionOf compute m false store).2 := by
  unfold loadSolver
  rw [loadPartition_eq]
  generalize partitionOf compute m false store = r
  obtain ⟨r1, r2⟩ := r
  cases r1 with
  | error e => rfl
  | ok p =>
    simp only
    repeat' split
    all_goals rfl

/-- Loading depends on four files only. -/
theorem loadSolver_congr {m : SolverMeta} (h : GoodSolver m) {store store' : SolverStore K M P}
    (h1 : store m.trainingPath = store' m.trainingPath) (h2 : store m.wholePath = store' m.wholePath)
    (h3 : store m.errorsPath = store' m.errorsPath)
    (hp : (partitionOf compute m false store).1 = (partitionOf compute m false store').1) :
    (loadSolver compute m store).1 = (loadSolver compute m store').1 := by
  have k := C78_kinds h h
  have o1 := fun st : SolverStore K M P => partitionOf_other (compute := compute) m false st k.2.2.2.1
  have o2 := fun st : SolverStore K M P => partitionOf_other (compute := compute) m false st k.2.2.2.2.1
  have o3 := fun st : SolverStore K M P => partitionOf_other (compute := compute) m false st k.2.2.2.2.2
  have a1 := (o1 store).trans (h1.trans (o1 store').symm)
  have a2 := (o2 store).trans (h2.trans (o2 store').symm)
  have a3 := (o3 store).trans (h3.trans (o3 store').symm)
  unfold loadSolver
  rw [loadPartition_eq, loadPartition_eq]
  generalize partitionOf compute m false store = r at *
  generalize partitionOf compute m false store' = r' at *
  obtain ⟨r1, r2⟩ := r
  obtain ⟨r1', r2'⟩ := r'
  simp only at a1 a2 a3 hp
  subst hp
  cases r1 with
  | error e => rfl
  | ok p =>
    simp only [loadModels, loadErrors, a1, a2, a3]
    repeat' split
    all_goals simp_all

theorem partitionOf_twice (m : SolverMeta) (store : SolverStore K M P) :
    (partitionOf compute m false (partitionOf compute m false store).2).1 =
      (partitionOf compute m false store).1 := by
  cases h : (partitionOf compute m false store).1 with
  | ok p =>
    have := partitionOf_found m false store h
    rw [partitionOf, this]
  | error e =>
    have : (partitionOf compute m false store).2 = store := by
      unfold partitionOf at h ⊢
      cases hs : store.partitions (picklePath m.md m.dist m.clustering) with
      | some p => rfl
      | none =>
        rw [hs] at h
        simp only at h ⊢
        cases hc : compute (m.request false) with
        | ok p => rw [hc] at h; cases h
        | error e => rfl
    rw [this, h]

/-- Loading one solver does not change what is loaded for another one (or the same again). -/
theorem loadSolver_stable {m m' : SolverMeta} (h : GoodSolver m) (h' : GoodSolver m')
    (hm : picklePath m'.md m'.dist m'.clustering = picklePath m.md m.dist m.clustering → m' = m)
    (store : SolverStore K M P) :
    (loadSolver compute m' (loadSolver compute m store).2).1 = (loadSolver compute m' store).1 := by
  rw [loadSolver_store]
  have k := C78_kinds h' h
  refine loadSolver_congr h' (partitionOf_other m false store k.2.2.2.1)
    (partitionOf_other m false store k.2.2.2.2.1) (partitionOf_other m false store k.2.2.2.2.2) ?_
  by_cases he : picklePath m'.md m'.dist m'.clustering = picklePath m.md m.dist m.clustering
  · rw [hm he]
    exact partitionOf_twice m store
  · have := loadPartition_congr (compute := compute) (m := m')
      (partitionOf_other (compute := compute) m false store he)
    rw [loadPartition_eq, loadPartition_eq] at this
    exact this

end files

variable {K M P : Type} [Field K] [LinearOrder K]

theorem sLite_plain : '/' ∉ sLite ∧ '_' ∉ sLite := by decide

theorem ClassifierEnv.km_good {env : ClassifierEnv K M P} (h1 : '/' ∉ env.md.name)
    (h2 : '/' ∉ env.errorType) (k seed : Int) : GoodSolver (env.km k seed) :=
  ⟨⟨h1, sLite_plain.1, sLite_plain.2, fun _ h => by cases h⟩, h2⟩

theorem ClassifierEnv.km_path {env : ClassifierEnv K M P} (h1 : '/' ∉ env.md.name)
    (h2 : '/' ∉ env.errorType) {k seed k' seed' : Int}
    (h : picklePath (env.km k' seed').md (env.km k' seed').dist (env.km k' seed').clustering =
      picklePath (env.km k seed).md (env.km k seed).dist (env.km k seed).clustering) :
    env.km k' seed' = env.km k seed := by
  have := (C38_path (env.km_good h1 h2 k' seed').1 (env.km_good h1 h2 k seed).1).1 h
  obtain ⟨-, -, -, -, -, e1, e2, -, -⟩ := this
  have e1 : k' = k := e1
  have e2 : seed' = seed := e2
  rw [e1, e2]

theorem ClassifierEnv.km_repr {env : ClassifierEnv K M P} {k seed k' seed' : Int}
    (h : (env.km k' seed').repr = (env.km k seed).repr) : k' = k ∧ seed' = seed := by
  have e := List.append_cancel_left (List.append_cancel_left h)
  have e' := List.append_cancel_right e
  obtain ⟨e1, e2, -, -⟩ := KmMeta.repr_inj (m := { k := k', seed := seed' })
    (m' := { k := k, seed := seed }) sLite_plain.2 sLite_plain.2 (fun _ h => by cases h)
    (fun _ h => by cases h) e'
  exact ⟨e1, e2⟩

theorem dictGet_first {A B : Type} [DecidableEq A] {key : A} {b : B} :
    ∀ {l : List (A × B)}, Result.dictGet key l = .ok b → (key, b) ∈ l
  | [], h => by cases h
  | (a, c) :: l, h => by
    rw [Result.dictGet] at h
    split at h
    · rename_i e; cases h; rw [e]; exact List.mem_cons_self ..
    · exact List.mem_cons_of_mem _ (dictGet_first h)

theorem dictGet_map {A B : Type} [DecidableEq A] (f : A → B) {key : A} :
    ∀ {l : List A}, key ∈ l → Result.dictGet key (l.map fun a => (a, f a)) = .ok (f key)
  | a :: l, h => by
    rw [List.map_cons, Result.dictGet]
    split
    · rename_i e; rw [e]
    · rename_i e
      exact dictGet_map f ((List.mem_cons.1 h).resolve_left (fun e' => e e'.symm))

/-! ### Ready states -/

theorem ClassifierEnv.metaFor_km (env : ClassifierEnv K M P) (k seed : Int) :
    env.metaFor (.kmedoids { k := k, seed := seed }) = env.km k seed := rfl

/-- The solver for a label is the one of the saved files, from wherever it comes. -/
theorem ClassifierState.Ready.solverFor {env : ClassifierEnv K M P} {files : SolverStore K M P}
    {classify : List (Option K) → Except PyErr Str} {spt target : Stack K} {st : ClassifierState K M P}
    (h : st.Ready env files classify spt target) (h1 : '/' ∉ env.md.name) (h2 : '/' ∉ env.errorType)
    (k seed : Int) :
    (env.solverFor (env.km k seed) st).1 = (loadSolver env.compute (env.km k seed) files).1 ∧
    (env.solverFor (env.km k seed) st).2.Ready env files classify spt target := by
  unfold ClassifierEnv.solverFor
  cases hd : Result.dictGet (env.km k seed).repr st.solvers with
  | ok s => exact ⟨(h.cached _ (dictGet_first hd) k seed rfl).symm, h⟩
  | error e =>
    simp only
    have hl := h.loads k seed
    have hs : ∀ k' seed', (loadSolver env.compute (env.km k' seed')
        (loadSolver env.compute (env.km k seed) st.store).2).1 =
        (loadSolver env.compute (env.km k' seed') files).1 := by
      intro k' seed'
      rw [loadSolver_stable (env.km_good h1 h2 k seed) (env.km_good h1 h2 k' seed')
        (env.km_path h1 h2), h.loads]
    generalize loadSolver env.compute (env.km k seed) st.store = r at hl hs ⊢
    obtain ⟨r1, r2⟩ := r
    simp only at hl hs
    cases r1 with
    | error e => exact ⟨hl, h.classifier, h.regions, hs, h.cached⟩
    | ok s =>
      refine ⟨hl, h.classifier, h.regions, hs, ?_⟩
      intro it hit k' seed' e
      rcases List.mem_cons.1 hit with rfl | hit
      · obtain ⟨e1, e2⟩ := ClassifierEnv.km_repr e
        rw [← e1, ← e2]
        exact hl.symm
      · exact h.cached it hit k' seed' e

theorem labelStr_split (k seed i : Nat) :
    pySplit '-' (labelStr k seed i) = [natStr k, natStr seed, natStr i] := by
  have hd : ∀ n, '-' ∉ natStr n := fun n => natStr_not_mem (digit_ne (by decide))
  rw [labelStr, pySplit_append, pySplit_append, pySplit_of_not_mem (hd _), pySplit_of_not_mem (hd _),
    pySplit_of_not_mem (hd _)]
  rfl

theorem fromClassifierLabel_labelStr (k seed i : Nat) : fromClassifierLabel (labelStr k seed i) sLite =
    .ok (.kmedoids { k := (k : Int), seed := (seed : Int) }) := by
  have := C50_label k seed i (mode := sLite) (by decide)
  rw [← this]
  congr 1
  simp [labelStr]

/-- The model of a label `k-seed-i` depends on the saved files only. -/
theorem ClassifierState.Ready.modelFor {env : ClassifierEnv K M P} {files : SolverStore K M P}
    {classify : List (Option K) → Except PyErr Str} {spt target : Stack K} {st : ClassifierState K M P}
    (h : st.Ready env files classify spt target) (h1 : '/' ∉ env.md.name) (h2 : '/' ∉ env.errorType)
    (k seed i : Nat) :
    (env.modelFor (labelStr k seed i) st).1 =
      (match (loadSolver env.compute (env.km k seed) files).1 with
        | .error e => .error e
        | .ok s => env.modelAt (labelStr k seed i) s) ∧
    (env.modelFor (labelStr k seed i) st).2.Ready env files classify spt target := by
  obtain ⟨a, b⟩ := h.solverFor h1 h2 k seed
  unfold ClassifierEnv.modelFor
  simp only [fromClassifierLabel_labelStr, ClassifierEnv.metaFor_km]
  rw [← a]
  generalize env.solverFor (env.km k seed) st = r at b ⊢
  obtain ⟨r1, r2⟩ := r
  cases r1 with
  | error e => exact ⟨rfl, b⟩
  | ok s => exact ⟨rfl, b⟩

theorem modelAt_ok {env : ClassifierEnv K M P} {k seed i : Nat} {s : SolverData K M P}
    {medoids : List Point} {medoid : Point} {model : Option M} (h1 : env.medoidsOf s.part = some medoids)
    (h2 : medoids[i]? = some medoid) (h3 : s.training.get medoid = .ok model) :
    env.modelAt (labelStr k seed i) s = .ok model := by
  unfold ClassifierEnv.modelAt
  rw [labelStr_split]
  simp [listAt, pyInt_natStr, h1, listAtInt, h2, h3]

/-- The models of all labels, in a ready state. -/
theorem ClassifierState.Ready.modelsFor {env : ClassifierEnv K M P} {files : SolverStore K M P}
    {classify : List (Option K) → Except PyErr Str} {spt target : Stack K}
    (h1 : '/' ∉ env.md.name) (h2 : '/' ∉ env.errorType) :
    ∀ (labels : List (Point × Str)) {st : ClassifierState K M P}, st.Ready env files classify spt target →
    ∀ model : Point → Option M, (∀ it ∈ labels, LabelModel env files it.2 (model it.1)) →
      (env.modelsFor labels st).1 = .ok (labels.map fun it => (it.1, model it.1)) ∧
      (env.modelsFor labels st).2.Ready env files classify spt target
  | [], st, h, _, _ => ⟨rfl, h⟩
  | (p, label) :: rest, st, h, model, hl => by
    obtain ⟨k, seed, i, s, medoids, medoid, e, hs, hm1, hm2, hm3⟩ := hl (p, label) (List.mem_cons_self ..)
    obtain ⟨a, b⟩ := h.modelFor h1 h2 k seed i
    simp only at e hm3
    rw [hs] at a
    simp only [modelAt_ok hm1 hm2 hm3] at a
    rw [← e] at a b
    unfold ClassifierEnv.modelsFor
    generalize env.modelFor label st = r at a b ⊢
    obtain ⟨r1, r2⟩ := r
    simp only at a b
    subst a
    obtain ⟨c, d⟩ := ClassifierState.Ready.modelsFor h1 h2 rest b model
      (fun it hit => hl it (List.mem_cons_of_mem _ hit))
    simp only
    generalize env.modelsFor rest r2 = r' at c d ⊢
    obtain ⟨r1', r2'⟩ := r'
    simp only at c d
    subst c
    exact ⟨rfl, d⟩

/-- With labels of the form `k-seed-i`, the outcome for the labels does not depend on the state. -/
theorem ClassifierState.Ready.modelsFor_same {env : ClassifierEnv K M P} {files : SolverStore K M P}
    {classify classify' : List (Option K) → Except PyErr Str} {spt target spt' target' : Stack K}
    (h1 : '/' ∉ env.md.name) (h2 : '/' ∉ env.errorType) :
    ∀ (labels : List (Point × Str)) {st st' : ClassifierState K M P},
      st.Ready env files classify spt target → st'.Ready env files classify' spt' target' →
      (∀ it ∈ labels, ∃ k seed i, it.2 = labelStr k seed i) →
      (env.modelsFor labels st).1 = (env.modelsFor labels st').1 ∧
      (env.modelsFor labels st).2.Ready env files classify spt target
  | [], st, st', h, h', _ => ⟨rfl, h⟩
  | (p, label) :: rest, st, st', h, h', hl => by
    obtain ⟨k, seed, i, e⟩ := hl (p, label) (List.mem_cons_self ..)
    simp only at e
    obtain ⟨a, b⟩ := h.modelFor h1 h2 k seed i
    obtain ⟨a', b'⟩ := h'.modelFor h1 h2 k seed i
    rw [← e] at a b a' b'
    have aa := a.trans a'.symm
    clear a a'
    unfold ClassifierEnv.modelsFor
    generalize env.modelFor label st = r at aa b ⊢
    generalize env.modelFor label st' = r' at aa b' ⊢
    obtain ⟨r1, r2⟩ := r
    obtain ⟨r1', r2'⟩ := r'
    simp only at aa b b'
    subst aa
    cases r1 with
    | error e => exact ⟨rfl, b⟩
    | ok m =>
      obtain ⟨c, d⟩ := ClassifierState.Ready.modelsFor_same h1 h2 rest b b'
        (fun it hit => hl it (List.mem_cons_of_mem _ hit))
      simp only
      generalize env.modelsFor rest r2 = q at c d ⊢
      generalize env.modelsFor rest r2' = q' at c ⊢
      obtain ⟨q1, q2⟩ := q
      obtain ⟨q1', q2'⟩ := q'
      simp only at c d
      subst c
      cases q1 with
      | error e => exact ⟨rfl, d⟩
      | ok ms => exact ⟨rfl, d⟩

/-! ### Created regions -/

section created

variable [IsStrictOrderedRing K] {b : Bool} {s : Stack K}

theorem CreatedRegion.ok (h : CreatedRegion b s) : s.OK ∧ s.OneScaling ∧ s.hasScaling = b := by
  cases h with
  | plain hc => exact ⟨hc, trivial, rfl⟩
  | @scaled c gmin gmax hc h1 h2 e1 e2 e3 e4 =>
    refine ⟨⟨hc, ⟨h1, h2⟩, ?_⟩, rfl, rfl⟩
    intro p v hv
    obtain ⟨hx, hy⟩ := Stack.seriesAt_range hv
    exact ⟨gmin.exists_get h1 (by rw [e1]; exact hx) (by rw [e2]; exact hy),
      gmax.exists_get h2 (by rw [e3]; exact hx) (by rw [e4]; exact hy)⟩

theorem CreatedRegion.seriesAt (h : CreatedRegion b s) (p : Point) :
    s.seriesAt p = s.data.grid.get p := by
  cases h <;> rfl

/-- The position in the whole region of a point of the prediction region. -/
def Region.shift (r : Region) (p : Point) : Point := ⟨r.x1 + p.x, r.y1 + p.y⟩

theorem slice_shift {A : Type} {g : Grid A} (hg : g.WF) {r : Region} (hx : r.x2 ≤ g.xLen)
    (hy : r.y2 ≤ g.yLen) {p : Point} (h1 : p.x < r.x2 - r.x1) (h2 : p.y < r.y2 - r.y1) :
    (g.slice r).get p = g.get (r.shift p) :=
  Grid.get_slice g hg r (by omega) (by omega)

theorem CreatedRegion.subset (h : CreatedRegion b s) {r : Region} (hr : r.Inside s) :
    ∃ sub, s.regionSubset r = .ok sub ∧ CreatedRegion b sub ∧ sub.data.tLen = s.data.tLen ∧
      sub.data.grid.xLen = r.x2 - r.x1 ∧ sub.data.grid.yLen = r.y2 - r.y1 ∧
      ∀ p : Point, p.x < r.x2 - r.x1 → p.y < r.y2 - r.y1 → sub.seriesAt p = s.seriesAt (r.shift p) ∧
        ∀ v w, InUnits sub p v w ↔ InUnits s (r.shift p) v w := by
  obtain ⟨x, y, hx, hy⟩ := hr
  cases h with
  | @plain c hc =>
    simp only [Stack.data] at hx hy
    refine ⟨_, rfl, .plain (Cube.regionSlice_wf hc r), rfl, ?_, ?_, ?_⟩
    · simp only [Stack.data, Cube.regionSlice, Grid.slice_xLen]; omega
    · simp only [Stack.data, Cube.regionSlice, Grid.slice_yLen]; omega
    intro p h1 h2
    refine ⟨slice_shift hc.1 hx hy h1 h2, fun v w => ⟨?_, ?_⟩⟩
    · rintro ⟨⟩; exact .plain _ _ _
    · rintro ⟨⟩; exact .plain _ _ _
  | @scaled c gmin gmax hc w1 w2 e1 e2 e3 e4 =>
    simp only [Stack.data] at hx hy
    refine ⟨_, rfl, .scaled (Cube.regionSlice_wf hc r) (Grid.slice_wf w1 r) (Grid.slice_wf w2 r) ?_ ?_ ?_ ?_,
      rfl, ?_, ?_, ?_⟩
    · simp [Cube.regionSlice, e1]
    · simp [Cube.regionSlice, e2]
    · simp [Cube.regionSlice, e3]
    · simp [Cube.regionSlice, e4]
    · simp only [Stack.data, Cube.regionSlice, Grid.slice_xLen]; omega
    · simp only [Stack.data, Cube.regionSlice, Grid.slice_yLen]; omega
    intro p h1 h2
    have f1 : (SpStack.plain (gmin.slice r)).valueAt p = (SpStack.plain gmin).valueAt (r.shift p) :=
      slice_shift w1 (by rw [e1]; exact hx) (by rw [e2]; exact hy) h1 h2
    have f2 : (SpStack.plain (gmax.slice r)).valueAt p = (SpStack.plain gmax).valueAt (r.shift p) :=
      slice_shift w2 (by rw [e3]; exact hx) (by rw [e4]; exact hy) h1 h2
    refine ⟨slice_shift hc.1 hx hy h1 h2, fun v w => ⟨?_, ?_⟩⟩
    · rintro ⟨⟩
      rename_i a1 a2 a3
      exact .scaled _ (f1.symm.trans a1) (f2.symm.trans a2) a3
    · rintro ⟨⟩
      rename_i a1 a2 a3
      exact .scaled _ (f1.trans a1) (f2.trans a2) a3

/-- The loop over a subset in space and time. -/
theorem CreatedRegion.items (h : CreatedRegion b s) {r : Region} (hr : r.Inside s) (ti : TimeInterval) :
    ∃ items, (s.subset r ti).items = .ok items ∧
      items.map Prod.fst = rowMajor (r.x2 - r.x1) (r.y2 - r.y1) ∧
      ∀ it ∈ items, ∃ v, s.seriesAt (r.shift it.1) = .ok v ∧ it.2 = sliceSeries v ti := by
  have hc : s.data.WF := h.ok.1.data_wf
  have e : (s.subset r ti).items = Stack.itemsAt (s.data.bothSlice r ti).grid.get
      (rowMajor (r.x2 - r.x1) (r.y2 - r.y1)) := by
    have ex : (s.data.bothSlice r ti).grid.xLen = r.x2 - r.x1 := by
      simp only [Cube.bothSlice, Cube.intervalSlice, Cube.regionSlice, Grid.slice_xLen]
      have := hr.xLen; omega
    have ey : (s.data.bothSlice r ti).grid.yLen = r.y2 - r.y1 := by
      simp only [Cube.bothSlice, Cube.intervalSlice, Cube.regionSlice, Grid.slice_yLen]
      have := hr.yLen; omega
    rw [← ex, ← ey]
    cases h <;> simp only [Stack.subset, Stack.new, Stack.items, allPoints_eq]
  have hg : ∀ p : Point, p.x < r.x2 - r.x1 → p.y < r.y2 - r.y1 → ∃ v, s.seriesAt (r.shift p) = .ok v ∧
      (s.data.bothSlice r ti).grid.get p = .ok (sliceSeries v ti) := by
    intro p h1 h2
    have := hr.xLen
    have := hr.yLen
    obtain ⟨v, hv⟩ := s.data.grid.exists_get hc.1 (p := r.shift p)
      (by simp only [Region.shift]; omega) (by simp only [Region.shift]; omega)
    refine ⟨v, by rw [h.seriesAt, hv], ?_⟩
    show (Grid.mk _ _ _).get p = _
    have := Grid.get_map (s.data.regionSlice r).grid (fun v => sliceSeries v ti) p
    rw [this]
    show ((s.data.grid.slice r).get p).map _ = _
    rw [slice_shift hc.1 hr.xLen hr.yLen h1 h2, hv]
    rfl
  obtain ⟨items, i1, i2, i3⟩ := itemsAt_ok (s.data.bothSlice r ti).grid.get
    (rowMajor (r.x2 - r.x1) (r.y2 - r.y1)) (fun p hp => by
      obtain ⟨v, _, hv⟩ := hg p (mem_rowMajor.1 hp).1 (mem_rowMajor.1 hp).2
      exact ⟨_, hv⟩)
  refine ⟨items, e.trans i1, i2, ?_⟩
  intro it hit
  have hm : it.1 ∈ items.map Prod.fst := List.mem_map.2 ⟨it, hit, rfl⟩
  rw [i2] at hm
  obtain ⟨v, h1, h2⟩ := hg it.1 (mem_rowMajor.1 hm).1 (mem_rowMajor.1 hm).2
  have h3 := i3 it hit
  rw [h2] at h3
  exact ⟨v, h1, (Except.ok.inj h3).symm⟩

/-- Which samples the interval of the classifier selects. -/
theorem classifier_interval (n tp : Nat) (h : tp ≤ n) :
    sliceInterval n ((n : Int) - tp) n = ⟨n - tp, n⟩ := by
  simp only [sliceInterval, pyBound, TimeInterval.mk.injEq]
  constructor <;> split <;> omega

theorem classifier_interval_long (n tp : Nat) (h : n < tp) :
    sliceInterval n ((n : Int) - tp) n = ⟨2 * n - tp, n⟩ := by
  simp only [sliceInterval, pyBound, TimeInterval.mk.injEq]
  constructor <;> split <;> omega

/-- The descaling of the forecast and test regions. -/
theorem descaleSubregion_ok (h : CreatedRegion true s) {c : Cube (Option K)} (hc : c.WF)
    (hx : c.grid.xLen = s.data.grid.xLen) (hy : c.grid.yLen = s.data.grid.yLen) :
    ∃ d, descaleSubregion (s.new c) s = .ok d ∧ d.data.grid.xLen = c.grid.xLen ∧
      d.data.grid.yLen = c.grid.yLen ∧ d.data.tLen = c.tLen ∧
      ∀ p v w, c.grid.get p = .ok v → InUnits s p v w → d.seriesAt p = .ok w := by
  have hok := h.ok
  cases h with
  | @scaled cs gmin gmax hcs w1 w2 e1 e2 e3 e4 =>
    simp only [Stack.data] at hx hy
    have hnew : (Stack.scaled (.scaled (.plain c) (.plain gmin) (.plain gmax)) (.plain gmin) (.plain gmax)).OK := by
      have h1 : (Stack.scaled (.plain c) (.plain gmin) (.plain gmax)).OK := by
        refine ⟨hc, ⟨w1, w2⟩, ?_⟩
        intro p v hv
        obtain ⟨hx', hy'⟩ := Stack.seriesAt_range hv
        exact ⟨gmin.exists_get w1 (by rw [e1, ← hx]; exact hx') (by rw [e2, ← hy]; exact hy'),
          gmax.exists_get w2 (by rw [e3, ← hx]; exact hx') (by rw [e4, ← hy]; exact hy')⟩
      exact ⟨h1, ⟨w1, w2⟩, h1.2.2⟩
    obtain ⟨g, d1, d2, d3, d4, d5, -⟩ := descale_scaled_ok hnew
    refine ⟨_, d1, d2, d3, rfl, ?_⟩
    intro p v w hv hu
    cases hu with
    | scaled _ a1 a2 a3 =>
      rename_i lo hi
      have := d5 p v lo hi hv a1 a2
      show g.get p = .ok w
      rw [this]
      congr 1
      exact (descaledWith_descaleSeries lo hi v).unique a3

end created

end Spta
