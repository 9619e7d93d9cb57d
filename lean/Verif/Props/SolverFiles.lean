import Verif.Lemmas.SolverFiles
import Verif.Props.Train
import Verif.Props.Solver

/-!
# The files of solvers (C77, C78, C79)
-/

namespace Spta

/-- Names that are file names: without path separators. -/
def GoodSolver (m : SolverMeta) : Prop := GoodNames m.md m.clustering ∧ '/' ∉ m.errorType

theorem modelFile_true (m : SolverMeta) : m.modelFile true = "models-at-medoids".toList ++ (sep2 ++
    (m.params.repr ++ (sep2 ++ (['t', 'p'] ++ natStr m.testLen ++ ".pkl".toList)))) := rfl

theorem modelFile_false (m : SolverMeta) : m.modelFile false = "models-at-medoids".toList ++ (sep2 ++
    (m.params.repr ++ (sep2 ++ ("whole".toList ++ ".pkl".toList)))) := rfl

theorem errorsFile_eq (m : SolverMeta) : m.errorsFile = "errors".toList ++ (sep2 ++ (m.params.repr ++
    (sep2 ++ (['t', 'p'] ++ natStr m.testLen ++ (sep2 ++ (m.errorType ++ ".pkl".toList)))))) := rfl

theorem modelFile_name (m : SolverMeta) (b : Bool) : FileName (m.modelFile b) := by
  refine ⟨by cases b <;> simp [modelFile_true, modelFile_false], ?_⟩
  have h1 := m.params.repr_good.1
  have h2 := (natStr_plain m.testLen).2.1
  cases b <;> simp [modelFile_true, modelFile_false, sep2, h1, h2]

theorem errorsFile_name {m : SolverMeta} (h : GoodSolver m) : FileName m.errorsFile := by
  refine ⟨by simp [errorsFile_eq], ?_⟩
  have h1 := m.params.repr_good.1
  have h2 := (natStr_plain m.testLen).2.1
  simp [errorsFile_eq, sep2, h1, h2, h.2]

theorem partitionFile_name {md : RegionMeta} {c : ClusterMeta} (h : GoodNames md c) :
    FileName (['p', 'a', 'r', 't', 'i', 't', 'i', 'o', 'n', '_'] ++ c.repr ++ ['.', 'p', 'k', 'l']) :=
  ⟨by simp, by simp [h.repr.1]⟩

theorem sPickle_dir : DirName sPickle := by
  constructor <;> decide

theorem SolverMeta.dirName {m : SolverMeta} (h : GoodSolver m) : DirName m.pickleDir :=
  subdir_dir sPickle_dir _ h.1

theorem inDir_inj {m m' : SolverMeta} (h : GoodSolver m) (h' : GoodSolver m') {f f' : Str}
    (hf : FileName f) (hf' : FileName f') : osJoin m.pickleDir f = osJoin m'.pickleDir f' ↔
      SameSettings m.md m'.md m.clustering m'.clustering ∧ f = f' := by
  rw [osJoin_file (SolverMeta.dirName h) hf, osJoin_file (SolverMeta.dirName h') hf']
  constructor
  · intro e
    obtain ⟨e1, e2⟩ := append_slash_inj hf.2 hf'.2 e
    exact ⟨(subdir_inj sPickle_dir h.1 h'.1).1 e1, e2⟩
  · rintro ⟨e1, e2⟩
    have e3 : m.pickleDir = m'.pickleDir := (subdir_inj sPickle_dir h.1 h'.1).2 e1
    rw [e2, e3]

theorem trainingFile_iff {m m' : SolverMeta} : m.modelFile true = m'.modelFile true ↔
    SameParams m.params m'.params ∧ m.testLen = m'.testLen := by
  rw [← sameParams_iff]
  constructor
  · intro e
    simp only [modelFile_true, modelFile_false] at e
    obtain ⟨e1, e2⟩ := m.params.noDouble.cut m'.params.noDouble
      (List.append_cancel_left (List.append_cancel_left e))
    simp only [List.append_assoc] at e2
    exact ⟨e1, natStr_inj (List.append_cancel_right (List.append_cancel_left e2))⟩
  · rintro ⟨e1, e2⟩
    simp only [modelFile_true, modelFile_false, e1, e2]

theorem wholeFile_iff {m m' : SolverMeta} : m.modelFile false = m'.modelFile false ↔
    SameParams m.params m'.params := by
  rw [← sameParams_iff]
  constructor
  · intro e
    simp only [modelFile_true, modelFile_false] at e
    exact (m.params.noDouble.cut m'.params.noDouble
      (List.append_cancel_left (List.append_cancel_left e))).1
  · intro e1
    simp [modelFile_true, modelFile_false, e1]

theorem errorsFile_iff {m m' : SolverMeta} : m.errorsFile = m'.errorsFile ↔
    SameParams m.params m'.params ∧ m.testLen = m'.testLen ∧ m.errorType = m'.errorType := by
  rw [← sameParams_iff]
  constructor
  · intro e
    simp only [errorsFile_eq] at e
    obtain ⟨e1, e2⟩ := m.params.noDouble.cut m'.params.noDouble
      (List.append_cancel_left (List.append_cancel_left e))
    simp only [List.append_assoc] at e2
    replace e2 := List.append_cancel_left e2
    simp only [sep2, List.cons_append] at e2
    obtain ⟨e3, e4⟩ := natStr_delim (by decide) (by decide) e2
    simp only [List.nil_append, List.cons.injEq, true_and] at e4
    exact ⟨e1, e3, List.append_cancel_right e4⟩
  · rintro ⟨e1, e2, e3⟩
    simp only [errorsFile_eq, e1, e2, e3]

theorem modelFile_ne (m m' : SolverMeta) : m.modelFile true ≠ m'.modelFile false := by
  intro e
  simp only [modelFile_true, modelFile_false] at e
  have e2 := (m.params.noDouble.cut m'.params.noDouble
      (List.append_cancel_left (List.append_cancel_left e))).2
  simp at e2

/-- **C78** (names): when two solvers share the file of the models based on training data. -/
theorem C78_training_path {m m' : SolverMeta} (h : GoodSolver m) (h' : GoodSolver m') :
    m.trainingPath = m'.trainingPath ↔
      SameSettings m.md m'.md m.clustering m'.clustering ∧ SameParams m.params m'.params ∧
        m.testLen = m'.testLen := by
  rw [SolverMeta.trainingPath, SolverMeta.trainingPath,
    inDir_inj h h' (modelFile_name _ _) (modelFile_name _ _), trainingFile_iff]

/-- **C78** (names): when two solvers share the file of the models based on all data. The number of test
samples does not matter. -/
theorem C78_whole_path {m m' : SolverMeta} (h : GoodSolver m) (h' : GoodSolver m') :
    m.wholePath = m'.wholePath ↔
      SameSettings m.md m'.md m.clustering m'.clustering ∧ SameParams m.params m'.params := by
  rw [SolverMeta.wholePath, SolverMeta.wholePath,
    inDir_inj h h' (modelFile_name _ _) (modelFile_name _ _), wholeFile_iff]

/-- **C78** (names): when two solvers share the file of the errors. -/
theorem C78_errors_path {m m' : SolverMeta} (h : GoodSolver m) (h' : GoodSolver m') :
    m.errorsPath = m'.errorsPath ↔
      SameSettings m.md m'.md m.clustering m'.clustering ∧ SameParams m.params m'.params ∧
        m.testLen = m'.testLen ∧ m.errorType = m'.errorType := by
  rw [SolverMeta.errorsPath, SolverMeta.errorsPath,
    inDir_inj h h' (errorsFile_name h) (errorsFile_name h'), errorsFile_iff]

/-- **C78** (names): files of different kinds never coincide. -/
theorem C78_kinds {m m' : SolverMeta} (h : GoodSolver m) (h' : GoodSolver m') :
    m.trainingPath ≠ m'.wholePath ∧ m.trainingPath ≠ m'.errorsPath ∧ m.wholePath ≠ m'.errorsPath ∧
      m.trainingPath ≠ picklePath m'.md m'.dist m'.clustering ∧
      m.wholePath ≠ picklePath m'.md m'.dist m'.clustering ∧
      m.errorsPath ≠ picklePath m'.md m'.dist m'.clustering := by
  refine ⟨fun e => ?_, fun e => ?_, fun e => ?_, fun e => ?_, fun e => ?_, fun e => ?_⟩
  · exact modelFile_ne m m' ((inDir_inj h h' (modelFile_name _ _) (modelFile_name _ _)).1 e).2
  · have := ((inDir_inj h h' (modelFile_name _ _) (errorsFile_name h')).1 e).2
    simp [modelFile_true, modelFile_false, errorsFile_eq] at this
  · have := ((inDir_inj h h' (modelFile_name _ _) (errorsFile_name h')).1 e).2
    simp [modelFile_true, modelFile_false, errorsFile_eq] at this
  · have := ((inDir_inj h h' (modelFile_name _ _) (partitionFile_name h'.1)).1 e).2
    simp [modelFile_true, modelFile_false] at this
  · have := ((inDir_inj h h' (modelFile_name _ _) (partitionFile_name h'.1)).1 e).2
    simp [modelFile_true, modelFile_false] at this
  · have := ((inDir_inj h h' (errorsFile_name h) (partitionFile_name h'.1)).1 e).2
    simp [errorsFile_eq] at this

/-- An example: auto ARIMA on a region called "a", regular clustering. -/
def exampleSolver (testLen : Nat) (d : DistKind) : SolverMeta :=
  ⟨⟨['a'], ⟨0, 1, 0, 3⟩, 2014, 2015, 1, false⟩, .autoArima 1 1 3 3 none true, testLen,
    ['M', 'S', 'E'], .regular 2, d⟩

theorem exampleSolver_good (n : Nat) (d : DistKind) : GoodSolver (exampleSolver n d) := by
  constructor
  · show '/' ∉ ['a']; decide
  · show '/' ∉ ['M', 'S', 'E']; decide

section

variable {K M P : Type} {compute : PartitionRequest → Except PyErr P}

/-! ### C77 -/

/-- The partitions among the files are handled as by the cache of partitions (C38). -/
theorem partitionOf_cached (m : SolverMeta) (b : Bool) (store : SolverStore K M P) :
    (partitionOf compute m b store).1 = (cachedPartition compute (m.request b) store.partitions).1 ∧
    (partitionOf compute m b store).2.partitions =
      (cachedPartition compute (m.request b) store.partitions).2 := by
  unfold partitionOf cachedPartition
  simp only [SolverMeta.request]
  cases store.partitions (picklePath m.md m.dist m.clustering) with
  | some p => exact ⟨rfl, rfl⟩
  | none =>
    simp only
    cases compute ⟨some m.md, m.dist, m.clustering, true, b, some sPickle⟩ with
    | error e => exact ⟨rfl, rfl⟩
    | ok p =>
      refine ⟨rfl, ?_⟩
      funext q
      simp only [SolverStore.partitions, SolverStore.write, Option.isSome_some, if_true]
      by_cases hq : q = picklePath m.md m.dist m.clustering
      · simp [hq]
      · simp [hq]

theorem loadPartition_eq (m : SolverMeta) (store : SolverStore K M P) :
    loadPartition compute m store = partitionOf compute m false store := by
  unfold loadPartition partitionOf
  cases store.partitions (picklePath m.md m.dist m.clustering) <;> rfl

/-- Requesting a partition changes nothing but its own file. -/
theorem partitionOf_other (m : SolverMeta) (b : Bool) (store : SolverStore K M P) {q : Str}
    (hq : q ≠ picklePath m.md m.dist m.clustering) : (partitionOf compute m b store).2 q = store q := by
  unfold partitionOf
  cases store.partitions (picklePath m.md m.dist m.clustering) with
  | some p => rfl
  | none =>
    simp only
    cases compute (m.request b) with
    | error e => rfl
    | ok p => simp only [SolverStore.write, if_neg hq]

/-- Once a partition has been requested, it is found. -/
theorem partitionOf_found (m : SolverMeta) (b : Bool) (store : SolverStore K M P) {p : P}
    (h : (partitionOf compute m b store).1 = .ok p) :
    (partitionOf compute m b store).2.partitions (picklePath m.md m.dist m.clustering) = some p := by
  unfold partitionOf at h ⊢
  cases hs : store.partitions (picklePath m.md m.dist m.clustering) with
  | some p' => rw [hs] at h; simp only [Except.ok.injEq] at h; rw [h] at hs; exact hs
  | none =>
    rw [hs] at h
    simp only at h ⊢
    cases hc : compute (m.request b) with
    | error e => rw [hc] at h; cases h
    | ok p' =>
      rw [hc] at h
      simp only [Except.ok.injEq] at h
      simp [SolverStore.write, SolverStore.partitions, h]

theorem saveSolver_training {m : SolverMeta} (h : GoodSolver m) (s : SolverData K M P)
    (store : SolverStore K M P) : saveSolver m s store m.trainingPath = some (.models s.training) := by
  have k := C78_kinds h h
  simp only [saveSolver, SolverStore.write]
  simp [k.2.1, k.1]

theorem saveSolver_whole {m : SolverMeta} (h : GoodSolver m) (s : SolverData K M P)
    (store : SolverStore K M P) : saveSolver m s store m.wholePath = some (.models s.whole) := by
  have k := C78_kinds h h
  simp only [saveSolver, SolverStore.write]
  simp [k.2.2.1]

theorem saveSolver_errors {m : SolverMeta} (s : SolverData K M P)
    (store : SolverStore K M P) : saveSolver m s store m.errorsPath = some (.errors s.errors) := by
  simp [saveSolver, SolverStore.write]

/-- Saving a solver leaves the partitions alone. -/
theorem saveSolver_partition {m m' : SolverMeta} (h : GoodSolver m) (h' : GoodSolver m')
    (s : SolverData K M P) (store : SolverStore K M P) :
    saveSolver m s store (picklePath m'.md m'.dist m'.clustering) =
      store (picklePath m'.md m'.dist m'.clustering) := by
  have k := C78_kinds h h'
  simp only [saveSolver, SolverStore.write]
  rw [if_neg (Ne.symm k.2.2.2.2.2), if_neg (Ne.symm k.2.2.2.2.1), if_neg (Ne.symm k.2.2.2.1)]

/-- The loaded partition depends on its own file only. -/
theorem loadPartition_congr {m : SolverMeta} {store store' : SolverStore K M P}
    (h : store (picklePath m.md m.dist m.clustering) = store' (picklePath m.md m.dist m.clustering)) :
    (loadPartition compute m store).1 = (loadPartition compute m store').1 := by
  have e : store.partitions (picklePath m.md m.dist m.clustering) =
      store'.partitions (picklePath m.md m.dist m.clustering) := by
    simp only [SolverStore.partitions, h]
  rw [loadPartition_eq, loadPartition_eq]
  unfold partitionOf
  rw [e]
  cases store'.partitions (picklePath m.md m.dist m.clustering) with
  | some p => rfl
  | none =>
    simp only
    cases compute (m.request false) <;> rfl

/-- Loading a solver whose files are there. -/
theorem loadSolver_of_files {m : SolverMeta} (h : GoodSolver m) {store : SolverStore K M P}
    {training whole : Grid (Option M)} {errors : SpStack (ErrorVal K)}
    (h1 : store m.trainingPath = some (.models training)) (h2 : store m.wholePath = some (.models whole))
    (h3 : store m.errorsPath = some (.errors errors)) {p : P}
    (hp : (loadPartition compute m store).1 = .ok p) :
    (loadSolver compute m store).1 = .ok ⟨training, whole, errors, p⟩ := by
  have k := C78_kinds h h
  rw [loadPartition_eq] at hp
  have o1 := partitionOf_other (compute := compute) m false store k.2.2.2.1
  have o2 := partitionOf_other (compute := compute) m false store k.2.2.2.2.1
  have o3 := partitionOf_other (compute := compute) m false store k.2.2.2.2.2
  unfold loadSolver
  rw [loadPartition_eq]
  generalize partitionOf compute m false store = r at *
  obtain ⟨r1, r2⟩ := r
  simp only at hp o1 o2 o3
  subst hp
  simp only [loadModels, loadErrors, o1, o2, o3, h1, h2, h3]

/-- **C77**: whatever files there are, after a solver has been saved it is loaded again: the models and
errors are those of the saved solver, the partition is the one that `load_partition` would have returned
before. -/
theorem C77_save_load {m : SolverMeta} (h : GoodSolver m) (s : SolverData K M P)
    (store : SolverStore K M P) {p : P} (hp : (loadPartition compute m store).1 = .ok p) :
    (loadSolver compute m (saveSolver m s store)).1 = .ok ⟨s.training, s.whole, s.errors, p⟩ := by
  refine loadSolver_of_files h (saveSolver_training h s store) (saveSolver_whole h s store)
    (saveSolver_errors s store) ?_
  rw [loadPartition_congr (saveSolver_partition h h s store)]
  exact hp

/-- **C77**: a solver trained for its metadata (its partition was requested then) and saved is loaded
exactly, and loading changes no file. -/
theorem C77_train_save_load {m : SolverMeta} (h : GoodSolver m) (s : SolverData K M P)
    (store : SolverStore K M P) (hp : (partitionOf compute m true store).1 = .ok s.part) :
    loadSolver compute m (saveSolver m s (partitionOf compute m true store).2) =
      (.ok s, saveSolver m s (partitionOf compute m true store).2) := by
  have hf := partitionOf_found m true store hp
  generalize (partitionOf compute m true store).2 = store' at hf ⊢
  have e := saveSolver_partition h h s store'
  have hl : loadPartition compute m (saveSolver m s store') = (.ok s.part, saveSolver m s store') := by
    unfold loadPartition
    simp only [SolverStore.partitions, e] at hf ⊢
    rw [hf]
  unfold loadSolver
  rw [hl]
  simp only [loadModels, loadErrors, saveSolver_training h, saveSolver_whole h, saveSolver_errors]

/-- **C77**: the loaded solver answers every query as the saved one. -/
theorem C77_same_answers [Field K] [LinearOrder K] {m : SolverMeta} (h : GoodSolver m)
    (s : SolverData K M P) (store : SolverStore K M P) {p : P}
    (hp : (loadPartition compute m store).1 = .ok p) :
    ∃ s', (loadSolver compute m (saveSolver m s store)).1 = .ok s' ∧ s'.part = p ∧
      ∀ (spt : Stack K) (forecast : M → Nat → Except PyErr (List (Option K))) (r : Region) (n : Int),
        (s'.solver m spt).predict forecast r n = (s.solver m spt).predict forecast r n :=
  ⟨_, C77_save_load h s store hp, rfl, fun _ _ _ _ => rfl⟩

/-! ### C78 -/

/-- What an operation does to a file that is not a partition: nothing, or it saves a solver. -/
theorem run_other (op : SolverOp K M P) (store : SolverStore K M P) {q : Str}
    (hq : q ≠ picklePath op.meta_.md op.meta_.dist op.meta_.clustering)
    (hs : ∀ m s, op ≠ .save m s) : op.run compute store q = store q := by
  cases op with
  | cluster m b => exact partitionOf_other m b store hq
  | save m s => exact absurd rfl (hs m s)
  | load m =>
    simp only [SolverOp.run, loadSolver]
    have := partitionOf_other (compute := compute) m false store hq
    rw [loadPartition_eq]
    generalize partitionOf compute m false store = r at *
    obtain ⟨r1, r2⟩ := r
    cases r1 with
    | error e => exact this
    | ok p =>
      simp only
      repeat' split
      all_goals exact this

/-- The operations that keep or set a file. -/
theorem runSolverOps_file {ops : List (SolverOp K M P)} {store : SolverStore K M P} {q : Str}
    {f : SolverFile K M P}
    (hkeep : ∀ op ∈ ops, ∀ st : SolverStore K M P, st q = some f → op.run compute st q = some f)
    (hset : store q = some f ∨ ∃ op ∈ ops, ∀ st : SolverStore K M P, op.run compute st q = some f) :
    runSolverOps compute ops store q = some f := by
  induction ops generalizing store with
  | nil =>
    rcases hset with h | ⟨op, h, _⟩
    · exact h
    · cases h
  | cons op ops ih =>
    refine ih (store := op.run compute store) (fun o ho => hkeep o (List.mem_cons_of_mem _ ho)) ?_
    rcases hset with h | ⟨o, ho, h⟩
    · exact Or.inl (hkeep op (List.mem_cons_self ..) store h)
    · rcases List.mem_cons.1 ho with rfl | ho
      · exact Or.inl (h store)
      · exact Or.inr ⟨o, ho, h⟩

/-- **C78** (partial: the claim is for all histories in which the solver has been saved). After any
history of requested partitions, saved solvers and loaded solvers, on any files, a solver that was saved
in it is loaded with its models and errors, provided that all solvers saved with the same settings and
parameters have the same whole models — and, if their number of test samples (and type of error) is the
same too, the same training models (and errors). -/
theorem C78_history_partial {ops : List (SolverOp K M P)} {m : SolverMeta} {s : SolverData K M P}
    (hin : .save m s ∈ ops) (hgood : ∀ op ∈ ops, GoodSolver op.meta_)
    (hwhole : ∀ m' s', .save m' s' ∈ ops → SameSettings m'.md m.md m'.clustering m.clustering →
      SameParams m'.params m.params → s'.whole = s.whole)
    (htrain : ∀ m' s', .save m' s' ∈ ops → SameSettings m'.md m.md m'.clustering m.clustering →
      SameParams m'.params m.params → m'.testLen = m.testLen → s'.training = s.training)
    (herr : ∀ m' s', .save m' s' ∈ ops → SameSettings m'.md m.md m'.clustering m.clustering →
      SameParams m'.params m.params → m'.testLen = m.testLen → m'.errorType = m.errorType →
      s'.errors = s.errors)
    (store : SolverStore K M P) {p : P}
    (hp : (loadPartition compute m (runSolverOps compute ops store)).1 = .ok p) :
    (loadSolver compute m (runSolverOps compute ops store)).1 = .ok ⟨s.training, s.whole, s.errors, p⟩ := by
  have hg : GoodSolver m := hgood _ hin
  refine loadSolver_of_files hg ?_ ?_ ?_ hp
  · refine runSolverOps_file (fun op hop st hst => ?_)
      (Or.inr ⟨_, hin, fun st => saveSolver_training hg s st⟩)
    have hg' := hgood op hop
    have k := C78_kinds hg hg'
    by_cases hs : ∃ m' s', op = .save m' s'
    · obtain ⟨m', s', rfl⟩ := hs
      simp only [SolverOp.run, SolverOp.meta_, saveSolver, SolverStore.write] at k ⊢
      rw [if_neg k.2.1, if_neg k.1]
      split
      · rename_i e
        obtain ⟨e1, e2, e3⟩ := (C78_training_path hg' hg).1 e.symm
        rw [htrain m' s' hop e1 e2 e3]
      · exact hst
    · rw [run_other op st k.2.2.2.1 (fun m' s' e => hs ⟨m', s', e⟩)]
      exact hst
  · refine runSolverOps_file (fun op hop st hst => ?_)
      (Or.inr ⟨_, hin, fun st => saveSolver_whole hg s st⟩)
    have hg' := hgood op hop
    have k := C78_kinds hg hg'
    have k' := C78_kinds hg' hg
    by_cases hs : ∃ m' s', op = .save m' s'
    · obtain ⟨m', s', rfl⟩ := hs
      simp only [SolverOp.run, SolverOp.meta_, saveSolver, SolverStore.write] at k k' ⊢
      rw [if_neg k.2.2.1]
      split
      · rename_i e
        obtain ⟨e1, e2⟩ := (C78_whole_path hg' hg).1 e.symm
        rw [hwhole m' s' hop e1 e2]
      · rw [if_neg (Ne.symm k'.1)]
        exact hst
    · rw [run_other op st k.2.2.2.2.1 (fun m' s' e => hs ⟨m', s', e⟩)]
      exact hst
  · refine runSolverOps_file (fun op hop st hst => ?_)
      (Or.inr ⟨_, hin, fun st => saveSolver_errors s st⟩)
    have hg' := hgood op hop
    have k := C78_kinds hg hg'
    have k' := C78_kinds hg' hg
    by_cases hs : ∃ m' s', op = .save m' s'
    · obtain ⟨m', s', rfl⟩ := hs
      simp only [SolverOp.run, SolverOp.meta_, saveSolver, SolverStore.write] at k k' ⊢
      split
      · rename_i e
        obtain ⟨e1, e2, e3, e4⟩ := (C78_errors_path hg' hg).1 e.symm
        rw [herr m' s' hop e1 e2 e3 e4]
      · rw [if_neg (Ne.symm k'.2.2.1), if_neg (Ne.symm k'.2.1)]
        exact hst
    · rw [run_other op st k.2.2.2.2.2 (fun m' s' e => hs ⟨m', s', e⟩)]
      exact hst

/-- Where a file that is not a partition comes from. -/
theorem runSolverOps_origin {ops : List (SolverOp K M P)} {store : SolverStore K M P} {q : Str}
    {f : SolverFile K M P}
    (hq : ∀ op ∈ ops, q ≠ picklePath op.meta_.md op.meta_.dist op.meta_.clustering)
    (h : runSolverOps compute ops store q = some f) :
    store q = some f ∨ ∃ m s, .save m s ∈ ops ∧
      ((q = m.trainingPath ∧ f = .models s.training) ∨ (q = m.wholePath ∧ f = .models s.whole) ∨
        (q = m.errorsPath ∧ f = .errors s.errors)) := by
  induction ops generalizing store with
  | nil => exact Or.inl h
  | cons op ops ih =>
    rcases ih (store := op.run compute store) (fun o ho => hq o (List.mem_cons_of_mem _ ho)) h with
      h1 | ⟨m, s, h1, h2⟩
    · by_cases hs : ∃ m s, op = .save m s
      · obtain ⟨m, s, rfl⟩ := hs
        simp only [SolverOp.run, saveSolver, SolverStore.write] at h1
        split at h1
        · rename_i e
          exact Or.inr ⟨m, s, List.mem_cons_self .., Or.inr (Or.inr ⟨e, by simpa using h1.symm⟩)⟩
        · split at h1
          · rename_i e
            exact Or.inr ⟨m, s, List.mem_cons_self .., Or.inr (Or.inl ⟨e, by simpa using h1.symm⟩)⟩
          · split at h1
            · rename_i e
              exact Or.inr ⟨m, s, List.mem_cons_self .., Or.inl ⟨e, by simpa using h1.symm⟩⟩
            · exact Or.inl h1
      · rw [run_other op store (hq op (List.mem_cons_self ..)) (fun m s e => hs ⟨m, s, e⟩)] at h1
        exact Or.inl h1
    · exact Or.inr ⟨m, s, List.mem_cons_of_mem _ h1, h2⟩

theorem loadModels_ok {path : Str} {store : SolverStore K M P} {g : Grid (Option M)}
    (h : loadModels path store = .ok g) : store path = some (.models g) := by
  unfold loadModels at h
  split at h
  · cases h
  · rename_i e; rw [e]; cases h; rfl
  · cases h

theorem loadErrors_ok {path : Str} {store : SolverStore K M P} {g : SpStack (ErrorVal K)}
    (h : loadErrors path store = .ok g) : store path = some (.errors g) := by
  unfold loadErrors at h
  split at h
  · cases h
  · rename_i e; rw [e]; cases h; rfl
  · cases h

/-- A loaded solver comes from the files. -/
theorem loadSolver_ok {m : SolverMeta} (h : GoodSolver m) {store : SolverStore K M P}
    {s : SolverData K M P} (hl : (loadSolver compute m store).1 = .ok s) :
    store m.trainingPath = some (.models s.training) ∧ store m.wholePath = some (.models s.whole) ∧
      store m.errorsPath = some (.errors s.errors) := by
  have k := C78_kinds h h
  have o1 := partitionOf_other (compute := compute) m false store k.2.2.2.1
  have o2 := partitionOf_other (compute := compute) m false store k.2.2.2.2.1
  have o3 := partitionOf_other (compute := compute) m false store k.2.2.2.2.2
  unfold loadSolver at hl
  rw [loadPartition_eq] at hl
  generalize partitionOf compute m false store = r at *
  obtain ⟨r1, r2⟩ := r
  cases r1 with
  | error e => cases hl
  | ok p =>
    simp only at hl o1 o2 o3
    split at hl
    · cases hl
    · rename_i g1 e1
      split at hl
      · cases hl
      · rename_i g2 e2
        split at hl
        · cases hl
        · rename_i g3 e3
          cases hl
          rw [← o1, ← o2, ← o3]
          exact ⟨loadModels_ok e1, loadModels_ok e2, loadErrors_ok e3⟩

/-- **C78** (for all histories): starting without files, whatever is loaded was saved before, by solvers
with the same settings and parameters: the training models by one with the same number of test samples,
the errors by one with the same number of test samples and type of error, the whole models by one with
any number of test samples. -/
theorem C78_origin {ops : List (SolverOp K M P)} (hgood : ∀ op ∈ ops, GoodSolver op.meta_)
    {m : SolverMeta} (h : GoodSolver m) {s : SolverData K M P}
    (hl : (loadSolver compute m (runSolverOps compute ops fun _ => none)).1 = .ok s) :
    (∃ m' s', .save m' s' ∈ ops ∧ SameSettings m.md m'.md m.clustering m'.clustering ∧
      SameParams m.params m'.params ∧ m.testLen = m'.testLen ∧ s.training = s'.training) ∧
    (∃ m' s', .save m' s' ∈ ops ∧ SameSettings m.md m'.md m.clustering m'.clustering ∧
      SameParams m.params m'.params ∧ s.whole = s'.whole) ∧
    (∃ m' s', .save m' s' ∈ ops ∧ SameSettings m.md m'.md m.clustering m'.clustering ∧
      SameParams m.params m'.params ∧ m.testLen = m'.testLen ∧ m.errorType = m'.errorType ∧
      s.errors = s'.errors) := by
  obtain ⟨h1, h2, h3⟩ := loadSolver_ok h hl
  refine ⟨?_, ?_, ?_⟩
  · rcases runSolverOps_origin (fun op hop => (C78_kinds h (hgood op hop)).2.2.2.1) h1 with
      e | ⟨m', s', hin, e⟩
    · cases e
    · have hg' : GoodSolver m' := hgood _ hin
      have k := C78_kinds h hg'
      rcases e with ⟨e1, e2⟩ | ⟨e1, e2⟩ | ⟨e1, e2⟩
      · obtain ⟨c1, c2, c3⟩ := (C78_training_path h hg').1 e1
        exact ⟨m', s', hin, c1, c2, c3, by injection e2⟩
      · exact absurd e1 k.1
      · exact absurd e1 k.2.1
  · rcases runSolverOps_origin (fun op hop => (C78_kinds h (hgood op hop)).2.2.2.2.1) h2 with
      e | ⟨m', s', hin, e⟩
    · cases e
    · have hg' : GoodSolver m' := hgood _ hin
      have k := C78_kinds h hg'
      have k' := C78_kinds hg' h
      rcases e with ⟨e1, e2⟩ | ⟨e1, e2⟩ | ⟨e1, e2⟩
      · exact absurd e1.symm k'.1
      · obtain ⟨c1, c2⟩ := (C78_whole_path h hg').1 e1
        exact ⟨m', s', hin, c1, c2, by injection e2⟩
      · exact absurd e1 k.2.2.1
  · rcases runSolverOps_origin (fun op hop => (C78_kinds h (hgood op hop)).2.2.2.2.2) h3 with
      e | ⟨m', s', hin, e⟩
    · cases e
    · have hg' : GoodSolver m' := hgood _ hin
      have k' := C78_kinds hg' h
      rcases e with ⟨e1, e2⟩ | ⟨e1, e2⟩ | ⟨e1, e2⟩
      · exact absurd e1.symm k'.2.1
      · exact absurd e1.symm k'.2.2.1
      · obtain ⟨c1, c2, c3, c4⟩ := (C78_errors_path h hg').1 e1
        exact ⟨m', s', hin, c1, c2, c3, c4, by injection e2⟩

/-- **C78** (what happens otherwise): a later save with the same settings and parameters but another
number of test samples replaces the whole models and nothing else. -/
theorem C78_stale {m m' : SolverMeta} (h : GoodSolver m) (h' : GoodSolver m')
    (hs : SameSettings m'.md m.md m'.clustering m.clustering) (hp : SameParams m'.params m.params)
    (ht : m'.testLen ≠ m.testLen) (s s' : SolverData K M P) (store : SolverStore K M P) {p : P}
    (hl : (loadPartition compute m (saveSolver m' s' (saveSolver m s store))).1 = .ok p) :
    (loadSolver compute m (saveSolver m' s' (saveSolver m s store))).1 =
      .ok ⟨s.training, s'.whole, s.errors, p⟩ := by
  have k := C78_kinds h h'
  have k' := C78_kinds h' h
  refine loadSolver_of_files h ?_ ?_ ?_ hl
  · have e : m.trainingPath ≠ m'.trainingPath := fun e =>
      ht ((C78_training_path h' h).1 e.symm).2.2
    rw [← saveSolver_training h s store]
    simp only [saveSolver, SolverStore.write]
    rw [if_neg k.2.1, if_neg k.1, if_neg e]
  · rw [← (C78_whole_path h' h).2 ⟨hs, hp⟩]
    exact saveSolver_whole h' s' _
  · have e : m.errorsPath ≠ m'.errorsPath := fun e =>
      ht ((C78_errors_path h' h).1 e.symm).2.2.1
    rw [← saveSolver_errors (m := m) s store]
    simp only [saveSolver, SolverStore.write]
    rw [if_neg e, if_neg (Ne.symm k'.2.2.1), if_neg (Ne.symm k'.2.1)]

end

/-- The whole models of trainers that refit with themselves (all but auto ARIMA) do not depend on the
number of test samples, so that sharing the file is harmless for them. -/
theorem C78_same_refitter {K Q M : Type} [Field K] [LinearOrder K] (t : Trainer K Q M) (s : Stack K)
    (n n' : Nat) (pt : Partition) (medoids : List Point) (zero junk : Option M)
    {g w g' w' : Grid (Option M)}
    (h : trainSolver t t.sameRefitter s n pt medoids zero junk = .ok (g, w))
    (h' : trainSolver t t.sameRefitter s n' pt medoids zero junk = .ok (g', w')) : w = w' := by
  have key : ∀ {n : Nat} {g w}, trainSolver t t.sameRefitter s n pt medoids zero junk = .ok (g, w) →
      ∃ r, t.applyTo zero s = .ok r ∧ replicateModels r.1 pt medoids junk = .ok w := by
    intro n g w h
    unfold trainSolver at h
    split at h
    · cases h
    · split at h
      · cases h
      · split at h
        · cases h
        · rename_i r hr
          split at h
          · cases h
          · rename_i w' hw
            cases h
            exact ⟨r, hr, hw⟩
  obtain ⟨r, h1, h2⟩ := key h
  obtain ⟨r', h1', h2'⟩ := key h'
  rw [h1] at h1'
  cases h1'
  rw [h2] at h2'
  cases h2'
  rfl

/-- A search for the order of a model: the number of samples. Models are pairs of the order and the
number of samples they were fitted to. -/
def exampleSearch (n : Nat) : Except PyErr (Grid (Option (Nat × Nat)) × Grid (Option (Nat × Nat))) :=
  trainSolver (K := ℚ) (Trainer.constant () 1 3 fun _ v => .ok (some (v.length, v.length)))
    (arimaRefitter (·.1) fun o v => some (o, v.length))
    (.plain ⟨3, ⟨1, 3, [[some 9, some 9, some 9], [some 1, some 2, some 4], [some 0, some 7, some 6]]⟩⟩) n
    ⟨⟨1, 3, [0, 0, 1]⟩, 2, 0⟩ [⟨0, 1⟩, ⟨0, 2⟩] none none

/-- The two solvers of the example: trained with 1 and with 2 test samples. -/
theorem exampleSearch_ok :
    exampleSearch 1 = .ok (⟨1, 3, List.replicate 3 (some (2, 2))⟩, ⟨1, 3, List.replicate 3 (some (2, 3))⟩) ∧
    exampleSearch 2 = .ok (⟨1, 3, List.replicate 3 (some (1, 1))⟩, ⟨1, 3, List.replicate 3 (some (1, 3))⟩) := by
  decide +kernel

/-- **C78** is refuted: with a search for the order of the models, as in auto ARIMA, the whole models
depend on the number of test samples, which is not part of the name of their file. After training and
saving with 1 and then with 2 test samples, loading the first solver gives the models of the second. -/
theorem C78_test_len_refuted :
    ∃ (m m' : SolverMeta) (s s' : SolverData ℚ (Nat × Nat) Partition), GoodSolver m ∧ GoodSolver m' ∧
      m' = { m with testLen := m'.testLen } ∧
      exampleSearch m.testLen = .ok (s.training, s.whole) ∧
      exampleSearch m'.testLen = .ok (s'.training, s'.whole) ∧
      ∀ (compute : PartitionRequest → Except PyErr Partition),
        (∀ q, compute q = .ok ⟨⟨1, 3, [0, 0, 1]⟩, 2, 0⟩) →
        ∃ r, (loadSolver compute m (runSolverOps compute [.cluster m true, .save m s, .cluster m' true,
          .save m' s'] fun _ => none)).1 = .ok r ∧ r.training = s.training ∧ r.whole ≠ s.whole := by
  refine ⟨exampleSolver 1 .dtw, exampleSolver 2 .dtw,
    ⟨⟨1, 3, List.replicate 3 (some (2, 2))⟩, ⟨1, 3, List.replicate 3 (some (2, 3))⟩,
      .plain ⟨1, 3, List.replicate 3 (some 0)⟩, ⟨⟨1, 3, [0, 0, 1]⟩, 2, 0⟩⟩,
    ⟨⟨1, 3, List.replicate 3 (some (1, 1))⟩, ⟨1, 3, List.replicate 3 (some (1, 3))⟩,
      .plain ⟨1, 3, List.replicate 3 (some 0)⟩, ⟨⟨1, 3, [0, 0, 1]⟩, 2, 0⟩⟩,
    exampleSolver_good 1 .dtw, exampleSolver_good 2 .dtw, rfl, exampleSearch_ok.1, exampleSearch_ok.2, ?_⟩
  intro compute hc
  have hss : SameSettings (exampleSolver 2 .dtw).md (exampleSolver 1 .dtw).md
      (exampleSolver 2 .dtw).clustering (exampleSolver 1 .dtw).clustering := ⟨rfl, rfl, rfl, rfl, rfl, rfl⟩
  have hsp : SameParams (exampleSolver 2 .dtw).params (exampleSolver 1 .dtw).params := rfl
  set s : SolverData ℚ (Nat × Nat) Partition :=
    ⟨⟨1, 3, List.replicate 3 (some (2, 2))⟩, ⟨1, 3, List.replicate 3 (some (2, 3))⟩,
      .plain ⟨1, 3, List.replicate 3 (some 0)⟩, ⟨⟨1, 3, [0, 0, 1]⟩, 2, 0⟩⟩ with hsdef
  set s' : SolverData ℚ (Nat × Nat) Partition :=
    ⟨⟨1, 3, List.replicate 3 (some (1, 1))⟩, ⟨1, 3, List.replicate 3 (some (1, 3))⟩,
      .plain ⟨1, 3, List.replicate 3 (some 0)⟩, ⟨⟨1, 3, [0, 0, 1]⟩, 2, 0⟩⟩ with hsdef'
  have hex : ∀ store : SolverStore ℚ (Nat × Nat) Partition,
      ∃ p, (loadPartition compute (exampleSolver 1 .dtw) store).1 = .ok p := by
    intro store
    rw [loadPartition_eq]
    unfold partitionOf
    split
    · exact ⟨_, rfl⟩
    · rw [hc]; exact ⟨_, rfl⟩
  -- the second request of the partition finds the first one
  have hsame : ∀ st : SolverStore ℚ (Nat × Nat) Partition,
      (partitionOf compute (exampleSolver 2 .dtw) true (saveSolver (exampleSolver 1 .dtw) s
        (partitionOf compute (exampleSolver 1 .dtw) true st).2)).2 =
      saveSolver (exampleSolver 1 .dtw) s (partitionOf compute (exampleSolver 1 .dtw) true st).2 := by
    intro st
    obtain ⟨p, hp⟩ : ∃ p, (partitionOf compute (exampleSolver 1 .dtw) true st).1 = .ok p := by
      unfold partitionOf
      split
      · exact ⟨_, rfl⟩
      · rw [hc]; exact ⟨_, rfl⟩
    have hf := partitionOf_found (exampleSolver 1 .dtw) true st hp
    generalize (partitionOf compute (exampleSolver 1 .dtw) true st).2 = st' at hf ⊢
    have e := saveSolver_partition (exampleSolver_good 1 .dtw) (exampleSolver_good 1 .dtw) s st'
    have hf' : (saveSolver (exampleSolver 1 .dtw) s st').partitions (picklePath (exampleSolver 2 .dtw).md
        (exampleSolver 2 .dtw).dist (exampleSolver 2 .dtw).clustering) = some p := by
      show (saveSolver (exampleSolver 1 .dtw) s st').partitions (picklePath (exampleSolver 1 .dtw).md
        (exampleSolver 1 .dtw).dist (exampleSolver 1 .dtw).clustering) = some p
      simp only [SolverStore.partitions, e] at hf ⊢
      exact hf
    conv_lhs => unfold partitionOf
    rw [hf']
  simp only [runSolverOps, List.foldl_cons, List.foldl_nil, SolverOp.run]
  rw [hsame]
  obtain ⟨p, hp⟩ := hex (saveSolver (exampleSolver 2 .dtw) s' (saveSolver (exampleSolver 1 .dtw) s
    (partitionOf compute (exampleSolver 1 .dtw) true fun _ => none).2))
  refine ⟨_, C78_stale (exampleSolver_good 1 .dtw) (exampleSolver_good 2 .dtw) hss hsp (by decide) s s' _ hp,
    rfl, ?_⟩
  show (⟨1, 3, List.replicate 3 (some (1, 3))⟩ : Grid (Option (Nat × Nat))) ≠
    ⟨1, 3, List.replicate 3 (some (2, 3))⟩
  decide

/-- **C78** is refuted: the distance is not part of the names either (all distances are called "dtw"), so
that saving a solver for one distance replaces the solver for the other. -/
theorem C78_distance_refuted {K M P : Type} (compute : PartitionRequest → Except PyErr P) (n : Nat)
    (d d' : DistKind) (s s' : SolverData K M P) (store : SolverStore K M P) {p : P}
    (hp : (loadPartition compute (exampleSolver n d) store).1 = .ok p) :
    (loadSolver compute (exampleSolver n d) (saveSolver (exampleSolver n d') s'
      (saveSolver (exampleSolver n d) s store))).1 = .ok ⟨s'.training, s'.whole, s'.errors, p⟩ := by
  have h := exampleSolver_good n d
  have hd : ∀ (s' : SolverData K M P) (st : SolverStore K M P),
      saveSolver (exampleSolver n d') s' st = saveSolver (exampleSolver n d) s' st := fun _ _ => rfl
  rw [hd]
  refine loadSolver_of_files h (saveSolver_training h s' _) (saveSolver_whole h s' _)
    (saveSolver_errors s' _) ?_
  rw [loadPartition_congr (saveSolver_partition h h s' _), loadPartition_congr (saveSolver_partition h h s store)]
  exact hp

/-- A saved solver is loaded by C77, on files where the partition had to be computed. -/
example (s : SolverData ℚ Nat Nat) (hs : s.part = 7) (store : SolverStore ℚ Nat Nat)
    (h0 : store (picklePath (exampleSolver 1 .dtw).md .dtw (.regular 2)) = none) :
    (loadSolver (fun _ => .ok 7) (exampleSolver 1 .dtw) (saveSolver (exampleSolver 1 .dtw) s
      (partitionOf (fun _ => .ok 7) (exampleSolver 1 .dtw) true store).2)).1 = .ok s := by
  rw [C77_train_save_load (exampleSolver_good 1 .dtw)]
  have e : store.partitions (picklePath (exampleSolver 1 .dtw).md (exampleSolver 1 .dtw).dist
      (exampleSolver 1 .dtw).clustering) = none := by
    simp only [SolverStore.partitions]
    rw [show store (picklePath (exampleSolver 1 .dtw).md (exampleSolver 1 .dtw).dist
      (exampleSolver 1 .dtw).clustering) = none from h0]
  unfold partitionOf
  rw [e, hs]

/-- The hypotheses of C78 hold for two solvers with different numbers of test samples that share their
whole models. -/
example (t t' w : Grid (Option Nat)) (e e' : SpStack (ErrorVal ℚ)) (p : Nat)
    (compute : PartitionRequest → Except PyErr Nat) (hc : ∀ q, compute q = .ok p)
    (store : SolverStore ℚ Nat Nat) :
    ∃ p', (loadSolver compute (exampleSolver 1 .dtw) (runSolverOps compute
      [.save (exampleSolver 1 .dtw) ⟨t, w, e, p⟩, .load (exampleSolver 3 .dtw),
        .save (exampleSolver 2 .dtw) ⟨t', w, e', p⟩] store)).1 = .ok ⟨t, w, e, p'⟩ := by
  obtain ⟨p', hp'⟩ : ∃ p', (loadPartition compute (exampleSolver 1 .dtw) (runSolverOps compute
      [.save (exampleSolver 1 .dtw) ⟨t, w, e, p⟩, .load (exampleSolver 3 .dtw),
        .save (exampleSolver 2 .dtw) ⟨t', w, e', p⟩] store)).1 = .ok p' := by
    rw [loadPartition_eq]
    unfold partitionOf
    split
    · exact ⟨_, rfl⟩
    · rw [hc]; exact ⟨_, rfl⟩
  refine ⟨p', C78_history_partial (s := ⟨t, w, e, p⟩) (List.mem_cons_self ..) ?_ ?_ ?_ ?_ store hp'⟩
  · intro op hop
    simp only [List.mem_cons, List.not_mem_nil, or_false] at hop
    rcases hop with rfl | rfl | rfl <;> exact exampleSolver_good _ _
  · intro m' s' hm' _ _
    simp only [List.mem_cons, SolverOp.save.injEq, reduceCtorEq, List.not_mem_nil, or_false, false_or] at hm'
    rcases hm' with ⟨rfl, rfl⟩ | ⟨rfl, rfl⟩ <;> rfl
  · intro m' s' hm' _ _ ht
    simp only [List.mem_cons, SolverOp.save.injEq, reduceCtorEq, List.not_mem_nil, or_false, false_or] at hm'
    rcases hm' with ⟨rfl, rfl⟩ | ⟨rfl, rfl⟩
    · rfl
    · exact absurd ht (by decide)
  · intro m' s' hm' _ _ ht _
    simp only [List.mem_cons, SolverOp.save.injEq, reduceCtorEq, List.not_mem_nil, or_false, false_or] at hm'
    rcases hm' with ⟨rfl, rfl⟩ | ⟨rfl, rfl⟩
    · rfl
    · exact absurd ht (by decide)

/-! ### C79 -/

theorem regionStr_eq (r : Region) : regionStr r =
    "region-".toList ++ (natStr r.x1 ++ '-' :: (natStr r.x2 ++ '-' :: (natStr r.y1 ++ '-' :: natStr r.y2))) := rfl

theorem regionStr_name (r : Region) : FileName (regionStr r) := by
  have h := fun n => (natStr_plain n).2.1
  exact ⟨by simp [regionStr_eq], by simp [regionStr_eq, h]⟩

theorem regionStr_inj {r r' : Region} (h : regionStr r = regionStr r') : r = r' := by
  rw [regionStr_eq, regionStr_eq] at h
  replace h := List.append_cancel_left h
  obtain ⟨e1, h⟩ := natStr_delim (by decide) (by decide) h
  simp only [List.cons.injEq, true_and] at h
  obtain ⟨e2, h⟩ := natStr_delim (by decide) (by decide) h
  simp only [List.cons.injEq, true_and] at h
  obtain ⟨e3, h⟩ := natStr_delim (by decide) (by decide) h
  simp only [List.cons.injEq, true_and] at h
  have e4 := natStr_inj h
  cases r; cases r'
  simp_all

/-- The last part of the name of a CSV file: after the prefix and the clustering. -/
def csvTail (r : Region) (testLen forecastLen : Nat) (errorType : Str) : Str :=
  sep2 ++ (regionStr r ++ (sep2 ++ (['t', 'p'] ++ natStr testLen ++ (sep2 ++ (['t', 'f'] ++
    (if 0 < (forecastLen : Int) then intStr forecastLen else ['_', 'i', 's']) ++ (sep2 ++
      (errorType ++ ".csv".toList)))))))

theorem csvFile_eq (m : SolverMeta) (pre : Str) (r : Region) (n : Nat) :
    m.csvFile pre r (n : Int) = pre ++ '-' :: (m.clustering.repr ++ csvTail r m.testLen n m.errorType) := rfl

theorem csvTail_inj {r : Region} {t t' n n' : Nat} {e e' : Str}
    (h : csvTail r t n e = csvTail r t' n' e') : t = t' ∧ n = n' ∧ e = e' := by
  unfold csvTail at h
  replace h := List.append_cancel_left (List.append_cancel_left (List.append_cancel_left h))
  simp only [List.append_assoc] at h
  replace h := List.append_cancel_left h
  simp only [sep2, List.cons_append, List.nil_append] at h
  obtain ⟨e1, h⟩ := natStr_delim (by decide) (by decide) h
  simp only [List.cons.injEq, true_and] at h
  have hne : ∀ (n : Nat) (a b : Str), intStr (n : Int) ++ a ≠ '_' :: b := by
    intro n a b e
    have hm : '_' ∈ intStr (n : Int) := by
      cases hi : intStr (n : Int) with
      | nil => exact absurd hi (intStr_ne_nil _)
      | cons c cs =>
        rw [hi] at e
        simp only [List.cons_append, List.cons.injEq] at e
        rw [e.1]; exact List.mem_cons_self ..
    exact intStr_no_underscore _ hm
  by_cases h0 : 0 < n
  · rw [if_pos (by exact_mod_cast h0)] at h
    by_cases h0' : 0 < n'
    · rw [if_pos (by exact_mod_cast h0')] at h
      obtain ⟨e2, h⟩ := intStr_delim (by decide) (by decide) h
      simp only [List.cons.injEq, true_and] at h
      exact ⟨e1, by exact_mod_cast e2, List.append_cancel_right h⟩
    · rw [if_neg (by exact_mod_cast h0')] at h
      exact absurd h (hne _ _ _)
  · rw [if_neg (by exact_mod_cast h0)] at h
    by_cases h0' : 0 < n'
    · rw [if_pos (by exact_mod_cast h0')] at h
      exact absurd h.symm (hne _ _ _)
    · rw [if_neg (by exact_mod_cast h0')] at h
      replace h := List.append_cancel_left h
      simp only [List.cons.injEq, true_and] at h
      exact ⟨e1, by omega, List.append_cancel_right h⟩

theorem clusterRepr_head (c : ClusterMeta) : ∃ x xs, c.repr = x :: xs ∧ x ≠ 'f' := by
  cases c with
  | regular k => exact ⟨'r', _, rfl, by decide⟩
  | kmedoids m =>
    obtain ⟨k, seed, mode, initial⟩ := m
    cases initial with
    | none => exact ⟨'k', _, rfl, by decide⟩
    | some im => exact ⟨'k', _, rfl, by decide⟩

theorem namePrefix_eq (q : CsvResult) (kind : CsvKind) : q.namePrefix kind =
    match kind with
    | .result => if 0 < q.forecastLen then "query-result-future".toList else "query-result".toList
    | .summary => "query-summary".toList := by cases kind <;> rfl

theorem csvFile_name {q : CsvResult} (h : GoodSolver q.meta_) (kind : CsvKind) :
    FileName (q.meta_.csvFile (q.namePrefix kind) q.region (q.forecastLen : Int)) := by
  have h1 := h.1.repr.1
  have h2 := (regionStr_name q.region).2
  have h3 := (natStr_plain q.meta_.testLen).2.1
  have h4 := intStr_no_slash (q.forecastLen : Int)
  have h5 := h.2
  have h6 : '/' ∉ q.namePrefix kind := by
    cases kind
    · rw [namePrefix_eq]; simp only; split <;> decide
    · rw [namePrefix_eq]; simp only; decide
  rw [csvFile_eq]
  refine ⟨by simp, ?_⟩
  have h7 : '/' ∉ csvTail q.region q.meta_.testLen q.forecastLen q.meta_.errorType := by
    unfold csvTail
    split <;> simp [sep2, h2, h3, h4, h5]
  simp [h1, h6, h7]

/-- **C79**: two results (or summaries) below the same directory are written to the same CSV file exactly
if they are of the same kind and agree in the settings, the parameters of the models, the prediction
region, the numbers of test and forecast samples and the type of the error. -/
theorem C79_csv_path {home : Str} (hh : DirName home) {q q' : CsvResult} (h : GoodSolver q.meta_)
    (h' : GoodSolver q'.meta_) (kind kind' : CsvKind) :
    q.path home kind = q'.path home kind' ↔
      kind = kind' ∧ SameSettings q.meta_.md q'.meta_.md q.meta_.clustering q'.meta_.clustering ∧
        SameParams q.meta_.params q'.meta_.params ∧ q.region = q'.region ∧
        q.meta_.testLen = q'.meta_.testLen ∧ q.forecastLen = q'.forecastLen ∧
        q.meta_.errorType = q'.meta_.errorType := by
  have hp : ∀ (q : CsvResult) (kind : CsvKind), GoodSolver q.meta_ → q.path home kind =
      ((osJoin (osJoin home q.meta_.md.repr) (osJoin q.meta_.dist.repr q.meta_.clustering.repr) ++ '/' ::
        q.meta_.params.repr) ++ '/' :: regionStr q.region) ++ '/' ::
          q.meta_.csvFile (q.namePrefix kind) q.region (q.forecastLen : Int) := by
    intro q kind h
    have p1 : FileName q.meta_.params.repr := ⟨q.meta_.params.repr_good.2, q.meta_.params.repr_good.1⟩
    have d1 := subdir_dir hh q.meta_.dist h.1
    rw [CsvResult.path, SolverMeta.csvDir, SolverMeta.outputDir, osJoin_file d1 p1,
      osJoin_file p1.dir.join (regionStr_name _), osJoin_file (regionStr_name _).dir.join (csvFile_name h kind)]
  rw [hp q kind h, hp q' kind' h']
  constructor
  · intro e
    obtain ⟨e, e1⟩ := append_slash_inj (csvFile_name h kind).2 (csvFile_name h' kind').2 e
    obtain ⟨e, e2⟩ := append_slash_inj (regionStr_name _).2 (regionStr_name _).2 e
    obtain ⟨e, e3⟩ := append_slash_inj q.meta_.params.repr_good.1 q'.meta_.params.repr_good.1 e
    have e4 := (subdir_inj hh h.1 h'.1).1 e
    have e5 := ((sameSettings_iff h.1 h'.1).2 e4).2
    have e6 := regionStr_inj e2
    rw [csvFile_eq, csvFile_eq, e5, e6] at e1
    obtain ⟨x, xs, hx, hf⟩ := clusterRepr_head q'.meta_.clustering
    have key : kind = kind' ∧ q.namePrefix kind = q'.namePrefix kind' := by
      rw [namePrefix_eq, namePrefix_eq, hx] at e1
      rw [namePrefix_eq, namePrefix_eq]
      cases kind <;> cases kind' <;> simp only at e1 ⊢
      · split at e1 <;> split at e1
        · rename_i h1 h2; simp [h1, h2]
        · simp at e1; exact absurd e1.1.symm hf
        · simp at e1; exact absurd e1.1 hf
        · rename_i h1 h2; simp [h1, h2]
      · split at e1 <;> simp at e1
      · split at e1 <;> simp at e1
      · simp
    obtain ⟨k1, k2⟩ := key
    rw [k2] at e1
    replace e1 := List.append_cancel_left e1
    simp only [List.cons.injEq, true_and] at e1
    obtain ⟨c1, c2, c3⟩ := csvTail_inj (List.append_cancel_left e1)
    exact ⟨k1, e4, ModelParams.repr_inj e3, e6, c1, c2, c3⟩
  · rintro ⟨rfl, e1, e2, e3, e4, e5, e6⟩
    have e7 := (subdir_inj (dist := q.meta_.dist) (dist' := q'.meta_.dist) hh h.1 h'.1).2 e1
    have e8 := ((sameSettings_iff h.1 h'.1).2 e1).2
    have e9 : q.namePrefix kind = q'.namePrefix kind := by
      rw [namePrefix_eq, namePrefix_eq, e5]
    rw [e7, e2.repr, csvFile_eq, csvFile_eq, e3, e4, e5, e6, e8, e9]

/-- The files of two results of the same solver. -/
example : (CsvResult.path ⟨exampleSolver 1 .dtw, ⟨0, 1, 1, 3⟩, 0⟩ "outputs".toList .result =
      ("outputs/a_2014_2015_1spd/dtw/regular_k2/auto-arima-start_p1-start_q1-max_p3-max_q3-dNone-stepwiseTrue/" ++
        "region-0-1-1-3/query-result-regular_k2__region-0-1-1-3__tp1__tf_is__MSE.csv").toList) ∧
    CsvResult.path ⟨exampleSolver 1 .dtw, ⟨0, 1, 1, 3⟩, 0⟩ "outputs".toList .result ≠
      CsvResult.path ⟨exampleSolver 1 .dtw, ⟨0, 1, 1, 3⟩, 4⟩ "outputs".toList .result ∧
    DirName "outputs".toList := by
  refine ⟨by decide +kernel, by decide +kernel, by decide, by decide⟩

end Spta
