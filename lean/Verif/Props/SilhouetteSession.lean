import Verif.Spec.SilhouetteSession
import Verif.Props.Dataset
import Verif.Props.Parallel
import Verif.Props.Silhouette

/-!
# C146: sessions of the silhouette analysis
-/

set_option linter.unusedSectionVars false

namespace Spta

section

variable {K : Type} [Field K] [LinearOrder K] [IsStrictOrderedRing K]

/-! ### The files -/

theorem disk_npy_cube {w : AnalysisWorld K} {q : Str} {c : Cube (Option K)} :
    w.disk.npy q = some (some c) ↔ w.file q = .cube c := by
  simp only [AnalysisWorld.disk]
  cases w.file q <;> simp

theorem written_file {w : AnalysisWorld K} {d : Disk K} {q : Str} (h : d.npy q = w.disk.npy q) :
    (w.written d).file q = w.file q := by
  simp only [AnalysisWorld.written, h]
  cases hw : w.file q <;> simp [AnalysisWorld.disk, hw]

theorem written_cube {w : AnalysisWorld K} {d : Disk K} {q : Str} {c : Cube (Option K)}
    (h : d.npy q = some (some c)) : (w.written d).file q = .cube c := by
  simp only [AnalysisWorld.written, h]

theorem saveCommand_world (a : KmedoidsAnalysis K) (w : AnalysisWorld K) :
    (saveCommand a w).2 = w.written (DiskOp.run w.disk (.save a.md)) := by
  rcases hi : createInstance w.disk a.md with ⟨_ | r, d⟩
  · simp only [saveCommand, DiskOp.run, hi]
  · rcases hs : r.save d with ⟨_ | _, d'⟩ <;> simp only [saveCommand, DiskOp.run, hi, hs]

theorem retrieve_npy (d : Disk K) (ys ye spd : Int) (q : Str) (hq : q ≠ formatByYear datasetName ys ye spd) :
    (retrieve d ys ye spd datasetName).2.npy q = d.npy q := by
  unfold retrieve
  split
  · split
    · rfl
    · split
      · rfl
      · split
        · rfl
        · simp only [Disk.write, if_neg hq]
  · rfl

/-- What saving a region writes. -/
theorem save_npy (d : Disk K) (m : DirMeta) (q : Str)
    (hq : q ≠ formatByYear datasetName m.yearStart m.yearEnd m.spd) :
    (DiskOp.run d (.save m)).npy q = d.npy q ∨
      (q = m.datasetFile ∧ m.scaled = false ∧ ∃ c,
        (retrieve d m.yearStart m.yearEnd m.spd datasetName).1 = .ok c ∧
        (DiskOp.run d (.save m)).npy q = some (some (c.regionSlice m.region))) := by
  have hret := retrieve_npy d m.yearStart m.yearEnd m.spd q hq
  simp only [DiskOp.run, createInstance_eq]
  cases hr : (retrieve d m.yearStart m.yearEnd m.spd datasetName).1 with
  | error e => exact .inl hret
  | ok c =>
    simp only [Except.bind, instanceOf]
    cases hsc : m.scaled with
    | true =>
      simp only [if_true]
      cases scaleApply (Stack.plain (c.regionSlice m.region)) c.tLen with
      | error e => exact .inl hret
      | ok s =>
        simp only [LoadedRegion.save]
        rw [save_go_none _ _ rfl]
        exact .inl hret
    | false =>
      simp only [Bool.false_eq_true, if_false, LoadedRegion.save, LoadedRegion.save.go, Disk.write]
      by_cases hf : q = m.datasetFile
      · exact .inr ⟨hf, trivial, c, rfl, by rw [if_pos hf]⟩
      · left
        rw [if_neg hf]
        exact hret

/-- Saving an unscaled region succeeds. -/
theorem saveCommand_ok {w : AnalysisWorld K} {a : KmedoidsAnalysis K} (hsc : a.md.scaled = false)
    {c : Cube (Option K)} (hc : (retrieve w.disk a.md.yearStart a.md.yearEnd a.md.spd datasetName).1 = .ok c) :
    (saveCommand a w).1 = .ok .nothing ∧
      (saveCommand a w).2.file a.md.datasetFile = .cube (c.regionSlice a.md.region) := by
  unfold saveCommand
  rw [createInstance_eq, hc]
  simp only [Except.bind, instanceOf, hsc, Bool.false_eq_true, if_false, LoadedRegion.save, LoadedRegion.save.go,
    true_and]
  refine written_cube ?_
  simp only [Disk.write, if_true]

/-! ### Names -/

theorem NamesApart.safe {l : List DirMeta} (h : NamesApart l) {m : DirMeta} (hm : m ∈ l) :
    (DiskOp.save m).Safe := .inr (.inr (by
  have := h.dataset m hm
  rwa [show "SouthAmerica".toList = ['S', 'o', 'u', 't', 'h', 'A', 'm', 'e', 'r', 'i', 'c', 'a'] by decide] at this))

theorem NamesApart.not_cache {l : List DirMeta} (h : NamesApart l) {m : DirMeta} (hm : m ∈ l) (ys ye spd : Int) :
    m.datasetFile ≠ formatByYear datasetName ys ye spd := by
  intro e
  obtain ⟨_, _, e1, _⟩ := datasetFile_format e
  apply h.dataset m hm
  rw [e1]
  decide

theorem NamesApart.same {l : List DirMeta} (h : NamesApart l) {m m' : DirMeta} (hm : m ∈ l) (hm' : m' ∈ l)
    {k : NpyKind} (e : k.file m = k.file m') : m = m' := by
  obtain ⟨e1, e2, e3, e4, e5, e6⟩ := (C71_same_file_iff_partial m m' k k (h.slash m hm) (h.slash m' hm')).1 e
  have e7 : m.name = m'.name := by
    rcases e6 with ⟨_, e6⟩ | ⟨a, b, _⟩ | ⟨a, b, _⟩
    · exact e6
    · rw [a] at b; cases b
    · rw [a] at b; cases b
  have e8 := h.rectangle m hm m' hm' e1 e7 e2 e3 e4 e5
  obtain ⟨⟨_, _, _, _, _, _⟩, _⟩ := m
  obtain ⟨⟨_, _, _, _, _, _⟩, _⟩ := m'
  simp only at e1 e2 e3 e4 e5 e7 e8
  subst e1 e2 e3 e4 e5 e7 e8
  rfl

theorem NamesApart.kinds {l : List DirMeta} (h : NamesApart l) {m m' : DirMeta} (hm : m ∈ l) (hm' : m' ∈ l) :
    m.datasetFile ≠ m'.distancesFile := by
  intro e
  obtain ⟨_, _, _, _, _, e6⟩ :=
    (C71_same_file_iff_partial m m' .dataset .distances (h.slash m hm) (h.slash m' hm')).1 e
  rcases e6 with ⟨a, _⟩ | ⟨_, _, e6⟩ | ⟨a, _⟩
  · cases a
  · refine h.distances m hm m'.name ?_
    rw [e6]
    congr 1
  · cases a

theorem NamesApart.distances_not_cache {l : List DirMeta} (h : NamesApart l) {m : DirMeta} (hm : m ∈ l)
    (ys ye spd : Int) : m.distancesFile ≠ formatByYear datasetName ys ye spd := by
  rw [formatByYear_eq _ _ _ _ m.region]
  intro e
  obtain ⟨_, _, _, _, _, e6⟩ := (C71_same_file_iff_partial m
    ⟨⟨datasetName, m.region, ys, ye, spd, false⟩, sRaw⟩ .distances .dataset (h.slash m hm)
    (by show '/' ∉ datasetName; decide)).1 e
  rcases e6 with ⟨a, _⟩ | ⟨a, _⟩ | ⟨_, _, e6⟩
  · cases a
  · cases a
  · have e7 : datasetName = sDistances ++ m.name := e6
    have := congrArg List.head? e7
    simp [datasetName, sDistances] at this

/-! ### What a command keeps -/

/-- The file of the matrix that a measure computes. -/
theorem computeMatrix_ok (env : AnalysisEnv K) (junk : Nat → K) {g : Grid (List (Option K))} (hg : g.WF)
    (w : AnalysisWorld K) : ∃ m, computeMatrix env junk g w = (.ok m, { w with held := some m }) ∧
      AllDistances env.measure g m := by
  obtain ⟨m, h1, h2, h3, h4, h5⟩ := C35_sequential (measure := env.measure) (junk := npEmpty junk (g.xLen * g.yLen))
    hg (by simp [Grid.WF, npEmpty]) rfl rfl
  exact ⟨m, by simp only [computeMatrix, h1], h2, h3, h4, h5⟩

theorem computeMatrix_files (env : AnalysisEnv K) (junk : Nat → K) (g : Grid (List (Option K)))
    (w : AnalysisWorld K) : (computeMatrix env junk g w).2.file = w.file ∧
      (computeMatrix env junk g w).2.raw = w.raw := by
  unfold computeMatrix
  split <;> exact ⟨rfl, rfl⟩

theorem kmedoidsCommand_files (env : AnalysisEnv K) (junk : Nat → K) (a : KmedoidsAnalysis K)
    (w : AnalysisWorld K) : (kmedoidsCommand env junk a w).2.file = w.file ∧
      (kmedoidsCommand env junk a w).2.raw = w.raw := by
  unfold kmedoidsCommand
  split
  · exact ⟨rfl, rfl⟩
  · rename_i s _
    dsimp only
    have hcm := computeMatrix_files env junk s.data.grid w
    split
    · exact ⟨rfl, rfl⟩
    · split <;> exact ⟨rfl, rfl⟩
    · split
      · rename_i e; rw [e] at hcm; exact hcm
      · rename_i e; rw [e] at hcm
        split <;> exact hcm

theorem showCommand_files (a : KmedoidsAnalysis K) (w : AnalysisWorld K) :
    (showCommand a w).2.file = w.file ∧ (showCommand a w).2.raw = w.raw := by
  unfold showCommand
  split
  · exact ⟨rfl, rfl⟩
  · dsimp only
    split <;> exact ⟨rfl, rfl⟩

/-- What the command `distances` writes. -/
theorem distancesCommand_files (env : AnalysisEnv K) (junk : Nat → K) (a : KmedoidsAnalysis K)
    (w : AnalysisWorld K) : (distancesCommand env junk a w).2.raw = w.raw ∧
      (∀ q, q ≠ a.md.distancesFile → (distancesCommand env junk a w).2.file q = w.file q) ∧
      ((distancesCommand env junk a w).2.file a.md.distancesFile = w.file a.md.distancesFile ∨
        ∃ m, (distancesCommand env junk a w).2.file a.md.distancesFile = .matrix m) := by
  unfold distancesCommand
  split
  · exact ⟨rfl, fun _ _ => rfl, .inl rfl⟩
  · rename_i s _
    have hcm := computeMatrix_files env junk s.data.grid w
    split
    · rename_i e; rw [e] at hcm
      exact ⟨hcm.2, fun q _ => by rw [hcm.1], .inl (by rw [hcm.1])⟩
    · rename_i m w' e; rw [e] at hcm
      refine ⟨hcm.2, fun q hq => ?_, .inr ⟨m, ?_⟩⟩
      · simp only [AnalysisWorld.saveMatrix, if_neg hq]
        exact congrFun hcm.1 q
      · simp only [AnalysisWorld.saveMatrix, if_true]

theorem loadSaved_cube {w : AnalysisWorld K} {m : DirMeta} {c : Cube (Option K)}
    (h : w.file m.datasetFile = .cube c) : loadSaved w.disk m = .ok (.plain c) := by
  simp only [loadSaved, disk_npy_cube.2 h]

/-- The command `distances` with a saved dataset. -/
theorem distancesCommand_ok (env : AnalysisEnv K) (junk : Nat → K) (a : KmedoidsAnalysis K) (w : AnalysisWorld K)
    {c : Cube (Option K)} (h : w.file a.md.datasetFile = .cube c) (hc : c.grid.WF) :
    (distancesCommand env junk a w).1 = .ok .nothing ∧ ∃ m,
      (distancesCommand env junk a w).2.file a.md.distancesFile = .matrix m ∧ AllDistances env.measure c.grid m := by
  obtain ⟨m, h1, h2⟩ := computeMatrix_ok env junk hc w
  unfold distancesCommand
  rw [loadSaved_cube h]
  have h1' : computeMatrix env junk (Stack.plain c).data.grid w = (.ok m, { w with held := some m }) := h1
  simp only [h1', true_and]
  exact ⟨m, by simp only [AnalysisWorld.saveMatrix, if_true], h2⟩

/-- The state of the files in a session: the cached intervals of the dataset are right. -/
def FilesRight (raw : Cube (Option K)) (w : AnalysisWorld K) : Prop := CacheOK (some raw) w.disk

theorem FilesRight.keep {raw : Cube (Option K)} {w w' : AnalysisWorld K} (h : FilesRight raw w)
    (hraw : w'.raw = w.raw) (hf : ∀ q c, w'.file q = .cube c → w.file q = .cube c) : FilesRight raw w' := by
  refine ⟨hraw.trans h.1, fun ys ye spd c hc => h.2 ys ye spd c ?_⟩
  exact disk_npy_cube.2 (hf _ _ (disk_npy_cube.1 hc))

theorem FilesRight.run {raw : Cube (Option K)} {w : AnalysisWorld K} (h : FilesRight raw w) (env : AnalysisEnv K)
    (run : CommandRun K) (hs : (DiskOp.save run.analysis.md).Safe) :
    FilesRight raw (executeCommand env run w).2 := by
  obtain ⟨a, cmd, junk⟩ := run
  cases cmd with
  | save =>
    show FilesRight raw (saveCommand a w).2
    rw [saveCommand_world]
    have h2 := DiskOp.run_ok h (.save a.md) hs
    refine ⟨h.1, fun ys ye spd c hc => ?_⟩
    have hc := disk_npy_cube.1 hc
    cases hd : (DiskOp.run w.disk (.save a.md)).npy (formatByYear datasetName ys ye spd) with
    | none =>
      simp only [AnalysisWorld.written, hd] at hc
      exact h.2 ys ye spd c (disk_npy_cube.2 hc)
    | some o =>
      cases o with
      | none =>
        simp only [AnalysisWorld.written, hd] at hc
        exact h.2 ys ye spd c (disk_npy_cube.2 hc)
      | some c' =>
        rw [written_cube hd] at hc
        cases hc
        exact h2.2 ys ye spd c hd
  | distances =>
    obtain ⟨h1, h2, h3⟩ := distancesCommand_files env junk a w
    refine h.keep h1 fun q c hq => ?_
    by_cases hf : q = a.md.distancesFile
    · subst hf
      rcases h3 with h3 | ⟨m, h3⟩
      · exact h3.symm.trans hq
      · have : (distancesCommand env junk a w).2.file a.md.distancesFile = .cube c := hq
        rw [h3] at this
        cases this
    · exact (h2 q hf).symm.trans hq
  | kmedoids =>
    obtain ⟨h1, h2⟩ := kmedoidsCommand_files env junk a w
    exact h.keep h2 fun q c hq => (congrFun h1 q).symm.trans hq
  | showDistances =>
    obtain ⟨h1, h2⟩ := showCommand_files a w
    exact h.keep h2 fun q c hq => (congrFun h1 q).symm.trans hq

/-- The saved dataset of a region stays what it is. -/
theorem dataset_kept {raw : Cube (Option K)} {w : AnalysisWorld K} (h : FilesRight raw w) (env : AnalysisEnv K)
    (run : CommandRun K) {l : List DirMeta} (hl : NamesApart l) (hrun : run.analysis.md ∈ l) {m : DirMeta}
    (hm : m ∈ l) {c : Cube (Option K)} (hc : uncached (some raw) m.yearStart m.yearEnd m.spd = .ok c)
    (hf : w.file m.datasetFile = .cube (c.regionSlice m.region)) :
    (executeCommand env run w).2.file m.datasetFile = .cube (c.regionSlice m.region) := by
  obtain ⟨a, cmd, junk⟩ := run
  cases cmd with
  | save =>
    show (saveCommand a w).2.file _ = _
    rw [saveCommand_world]
    rcases save_npy w.disk a.md m.datasetFile (hl.not_cache hm _ _ _) with e | ⟨e1, _, c', e2, e3⟩
    · rw [written_file e, hf]
    · have : m = a.md := hl.same (k := .dataset) hm hrun e1
      subst this
      rw [(retrieve_spec h _ _ _).1, hc] at e2
      cases e2
      exact written_cube e3
  | distances =>
    obtain ⟨_, h2, _⟩ := distancesCommand_files env junk a w
    exact (h2 _ (hl.kinds hm hrun)).trans hf
  | kmedoids => exact (congrFun (kmedoidsCommand_files env junk a w).1 _).trans hf
  | showDistances => exact (congrFun (showCommand_files a w).1 _).trans hf

/-- The saved distances of a region stay right. -/
theorem distances_kept {w : AnalysisWorld K} (env : AnalysisEnv K)
    (run : CommandRun K) {l : List DirMeta} (hl : NamesApart l) (hrun : run.analysis.md ∈ l) {m : DirMeta}
    (hm : m ∈ l) {c : Cube (Option K)} (hwf : c.grid.WF) (hf : w.file m.datasetFile = .cube c)
    (hd : ∃ dm, w.file m.distancesFile = .matrix dm ∧ AllDistances env.measure c.grid dm) :
    ∃ dm, (executeCommand env run w).2.file m.distancesFile = .matrix dm ∧
      AllDistances env.measure c.grid dm := by
  obtain ⟨a, cmd, junk⟩ := run
  obtain ⟨dm, hd1, hd2⟩ := hd
  cases cmd with
  | save =>
    refine ⟨dm, ?_, hd2⟩
    show (saveCommand a w).2.file _ = _
    rw [saveCommand_world]
    rcases save_npy w.disk a.md m.distancesFile (hl.distances_not_cache hm _ _ _) with e | ⟨e1, _⟩
    · rw [written_file e, hd1]
    · exact absurd e1.symm (hl.kinds hrun hm)
  | distances =>
    by_cases e : a.md.distancesFile = m.distancesFile
    · have : a.md = m := hl.same (k := .distances) hrun hm e
      obtain ⟨_, dm', g1, g2⟩ := distancesCommand_ok env junk a w (c := c) (by rw [this]; exact hf) hwf
      exact ⟨dm', by rw [← e]; exact g1, g2⟩
    · obtain ⟨_, h2, _⟩ := distancesCommand_files env junk a w
      exact ⟨dm, (h2 _ (Ne.symm e)).trans hd1, hd2⟩
  | kmedoids => exact ⟨dm, (congrFun (kmedoidsCommand_files env junk a w).1 _).trans hd1, hd2⟩
  | showDistances => exact ⟨dm, (congrFun (showCommand_files a w).1 _).trans hd1, hd2⟩

/-! ### Sessions -/

theorem runCommands_append (env : AnalysisEnv K) (l l' : List (CommandRun K)) (w : AnalysisWorld K) :
    runCommands env (l ++ l') w = runCommands env l' (runCommands env l w) := by
  simp only [runCommands, List.foldl_append]

theorem runCommands_cons (env : AnalysisEnv K) (r : CommandRun K) (l : List (CommandRun K)) (w : AnalysisWorld K) :
    runCommands env (r :: l) w = runCommands env l (executeCommand env r w).2 := rfl

theorem session_right {raw : Cube (Option K)} (env : AnalysisEnv K) {l : List DirMeta} (hl : NamesApart l) :
    ∀ (runs : List (CommandRun K)) (w : AnalysisWorld K), FilesRight raw w → (∀ r ∈ runs, r.analysis.md ∈ l) →
      FilesRight raw (runCommands env runs w) := by
  intro runs
  induction runs with
  | nil => intro w h _; exact h
  | cons r runs ih =>
    intro w h hr
    rw [runCommands_cons]
    exact ih _ (h.run env r (hl.safe (hr r (by simp)))) fun r' hr' => hr r' (by simp [hr'])

theorem session_dataset {raw : Cube (Option K)} (env : AnalysisEnv K) {l : List DirMeta} (hl : NamesApart l)
    {m : DirMeta} (hm : m ∈ l) {c : Cube (Option K)}
    (hc : uncached (some raw) m.yearStart m.yearEnd m.spd = .ok c) :
    ∀ (runs : List (CommandRun K)) (w : AnalysisWorld K), FilesRight raw w → (∀ r ∈ runs, r.analysis.md ∈ l) →
      w.file m.datasetFile = .cube (c.regionSlice m.region) →
      (runCommands env runs w).file m.datasetFile = .cube (c.regionSlice m.region) := by
  intro runs
  induction runs with
  | nil => intro w _ _ h; exact h
  | cons r runs ih =>
    intro w h hr hf
    rw [runCommands_cons]
    exact ih _ (h.run env r (hl.safe (hr r (by simp)))) (fun r' hr' => hr r' (by simp [hr']))
      (dataset_kept h env r hl (hr r (by simp)) hm hc hf)

theorem session_distances {raw : Cube (Option K)} (env : AnalysisEnv K) {l : List DirMeta} (hl : NamesApart l)
    {m : DirMeta} (hm : m ∈ l) {c : Cube (Option K)}
    (hc : uncached (some raw) m.yearStart m.yearEnd m.spd = .ok c) (hwf : (c.regionSlice m.region).grid.WF) :
    ∀ (runs : List (CommandRun K)) (w : AnalysisWorld K), FilesRight raw w → (∀ r ∈ runs, r.analysis.md ∈ l) →
      w.file m.datasetFile = .cube (c.regionSlice m.region) →
      (∃ dm, w.file m.distancesFile = .matrix dm ∧ AllDistances env.measure (c.regionSlice m.region).grid dm) →
      ∃ dm, (runCommands env runs w).file m.distancesFile = .matrix dm ∧
        AllDistances env.measure (c.regionSlice m.region).grid dm := by
  intro runs
  induction runs with
  | nil => intro w _ _ _ h; exact h
  | cons r runs ih =>
    intro w h hr hf hd
    rw [runCommands_cons]
    exact ih _ (h.run env r (hl.safe (hr r (by simp)))) (fun r' hr' => hr r' (by simp [hr']))
      (dataset_kept h env r hl (hr r (by simp)) hm hc hf)
      (distances_kept env r hl (hr r (by simp)) hm hwf hf hd)

/-- The region of a metadata in the retrieved dataset. -/
theorem rawRegion_slice {raw : Cube (Option K)} (hraw : CoversAllYears raw) {m : DirMeta} (h : CreatableFrom raw m) :
    ∃ c, uncached (some raw) m.yearStart m.yearEnd m.spd = .ok c ∧ (c.regionSlice m.region).grid.WF ∧
      RawRegion raw m (c.regionSlice m.region).grid := by
  obtain ⟨c, a1, a2, a3, a4, a5, a6⟩ := uncached_value hraw h.spd h.first h.order h.last
  have hsub : (c.regionSlice m.region).WF := Cube.regionSlice_wf a2 m.region
  have hxl : min m.region.x2 c.grid.xLen = m.region.x2 := by rw [a4]; exact min_eq_left h.x.2
  have hyl : min m.region.y2 c.grid.yLen = m.region.y2 := by rw [a5]; exact min_eq_left h.y.2
  refine ⟨c, a1, hsub.1, hsub.1, ?_, ?_, fun p s hpx hpy hp => ?_⟩
  · show min m.region.x2 c.grid.xLen - m.region.x1 = _; rw [hxl]
  · show min m.region.y2 c.grid.yLen - m.region.y1 = _; rw [hyl]
  · obtain ⟨out, o1, o2⟩ := a6 _ s hp
    refine ⟨out, ?_, o2⟩
    show (c.grid.slice m.region).get p = _
    rw [Grid.get_slice _ a2.1 _ (by rw [hxl]; exact hpx) (by rw [hyl]; exact hpy), ← o1]

/-- The commands after a session in which the region was saved and its distances were calculated. -/
theorem session_commands (env : AnalysisEnv K) (w : AnalysisWorld K) {raw : Cube (Option K)}
    (hw : w.raw = some raw) (hraw : CoversAllYears raw)
    (hn : ∀ ys ye spd c, w.file (formatByYear datasetName ys ye spd) ≠ .cube c) {m : DirMeta}
    (hm : CreatableFrom raw m) (hsc : m.scaled = false) (pre mid post : List (CommandRun K)) (r1 r2 : CommandRun K)
    (h1 : r1.command = .save ∧ r1.analysis.md = m) (h2 : r2.command = .distances ∧ r2.analysis.md = m)
    (hl : NamesApart ((pre ++ r1 :: (mid ++ r2 :: post)).map fun r => r.analysis.md)) :
    ∃ g dm, RawRegion raw m g ∧ AllDistances env.measure g dm ∧
      (executeCommand env r1 (runCommands env pre w)).1 = .ok .nothing ∧
      (executeCommand env r2 (runCommands env (pre ++ r1 :: mid) w)).1 = .ok .nothing ∧
      ∀ (a : KmedoidsAnalysis K) (junk : Nat → K), a.md = m →
        (executeCommand env ⟨a, .kmedoids, junk⟩ (runCommands env (pre ++ r1 :: (mid ++ r2 :: post)) w)).1 =
          (silhouetteCommand (.matrix dm) m.region (.ok dm) g env.outcome a.params a.tol a.verbose
            a.showGraphs).map .best ∧
        (executeCommand env ⟨a, .showDistances, junk⟩
            (runCommands env (pre ++ r1 :: (mid ++ r2 :: post)) w)).1 =
          (showDistances (.matrix dm) m.region m.name (m.region.x2 - m.region.x1)
            (m.region.y2 - m.region.y1)).map .figures := by
  obtain ⟨c, hc, hwf, hg⟩ := rawRegion_slice hraw hm
  have h0 : FilesRight raw w := by
    refine ⟨hw, fun ys ye spd c hc => absurd (disk_npy_cube.1 hc) (hn ys ye spd c)⟩
  have hmem : ∀ r ∈ pre ++ r1 :: (mid ++ r2 :: post), r.analysis.md ∈
      (pre ++ r1 :: (mid ++ r2 :: post)).map fun r => r.analysis.md :=
    fun r hr => List.mem_map.2 ⟨r, hr, rfl⟩
  have hm1 : m ∈ (pre ++ r1 :: (mid ++ r2 :: post)).map fun r => r.analysis.md := by
    rw [← h1.2]; exact hmem r1 (by simp)
  -- saving
  have w1 := session_right env hl pre w h0 fun r hr => hmem r (by simp [hr])
  have hret : (retrieve (runCommands env pre w).disk m.yearStart m.yearEnd m.spd datasetName).1 = .ok c :=
    (retrieve_spec w1 _ _ _).1.trans hc
  have hs := saveCommand_ok (a := r1.analysis) (w := runCommands env pre w) (by rw [h1.2]; exact hsc)
    (by rw [h1.2]; exact hret)
  have e1 : executeCommand env r1 (runCommands env pre w) = saveCommand r1.analysis (runCommands env pre w) := by
    simp only [executeCommand, h1.1]
  rw [← e1, h1.2] at hs
  have w2 := w1.run env r1 (hl.safe (hmem r1 (by simp)))
  have hmid : ∀ r ∈ mid, r.analysis.md ∈ (pre ++ r1 :: (mid ++ r2 :: post)).map fun r => r.analysis.md :=
    fun r hr => hmem r (by simp [hr])
  have hpost : ∀ r ∈ post, r.analysis.md ∈ (pre ++ r1 :: (mid ++ r2 :: post)).map fun r => r.analysis.md :=
    fun r hr => hmem r (by simp [hr])
  have f3 := session_dataset env hl hm1 hc mid _ w2 hmid hs.2
  have w3 := session_right env hl mid _ w2 hmid
  -- distances
  have e3 : runCommands env (pre ++ r1 :: mid) w =
      runCommands env mid (executeCommand env r1 (runCommands env pre w)).2 := by
    rw [runCommands_append, runCommands_cons]
  rw [← e3] at f3 w3
  have e4 : executeCommand env r2 (runCommands env (pre ++ r1 :: mid) w) =
      distancesCommand env r2.junk r2.analysis (runCommands env (pre ++ r1 :: mid) w) := by
    simp only [executeCommand, h2.1]
  have hd := distancesCommand_ok env r2.junk r2.analysis (runCommands env (pre ++ r1 :: mid) w)
    (by rw [h2.2]; exact f3) hwf
  rw [← e4, h2.2] at hd
  have w4 := w3.run env r2 (hl.safe (hmem r2 (by simp)))
  have f4 := dataset_kept w3 env r2 hl (hmem r2 (by simp)) hm1 hc f3
  have f5 := session_dataset env hl hm1 hc post _ w4 hpost f4
  obtain ⟨dm, f6, f7⟩ := session_distances env hl hm1 hc hwf post _ w4 hpost f4 hd.2
  have e5 : runCommands env (pre ++ r1 :: (mid ++ r2 :: post)) w =
      runCommands env post (executeCommand env r2 (runCommands env (pre ++ r1 :: mid) w)).2 := by
    rw [e3, runCommands_append, runCommands_cons, runCommands_append, runCommands_cons]
  rw [← e5] at f5 f6
  refine ⟨_, dm, hg, f7, hs.1, hd.1, fun a junk ha => ⟨?_, ?_⟩⟩
  all_goals
    have hfit : FitsRegion dm m.region := by
      have hp : m.region.points = (m.region.x2 - m.region.x1) * (m.region.y2 - m.region.y1) := rfl
      refine ⟨?_, ?_⟩
      · rw [f7.xLen, hg.xLen, hg.yLen, hp]
      · rw [f7.yLen, hg.xLen, hg.yLen, hp]
    subst ha
  · have hdata : (Stack.plain (c.regionSlice a.md.region)).data = c.regionSlice a.md.region := rfl
    cases hr : silhouetteCommand (.matrix dm) a.md.region (.ok dm) (c.regionSlice a.md.region).grid env.outcome
      a.params a.tol a.verbose a.showGraphs <;>
    simp only [executeCommand, kmedoidsCommand, loadSaved_cube f5, f6, StoredArray.asMatrix,
      loadMatrix2d_fits hfit, hdata, hr] <;> rfl
  · have hdata : (Stack.plain (c.regionSlice a.md.region)).data = c.regionSlice a.md.region := rfl
    cases hr : showDistances (.matrix dm) a.md.region a.md.name (a.md.region.x2 - a.md.region.x1)
      (a.md.region.y2 - a.md.region.y1) <;>
    simp only [executeCommand, showCommand, loadSaved_cube f5, f6, StoredArray.asMatrix, hdata, hg.xLen, hg.yLen,
      hr] <;> rfl

/-- The matrix of all distances as the distances of the samples of k-medoids. -/
theorem AllDistances.realises {S : Type} {measure : S → S → K} {g : Grid S} (hg : g.WF) {m : Grid K}
    (h : AllDistances measure g m) : Realises (.matrix m) g.data (indexDistance measure g.data) := by
  have hgl : g.data.length = g.xLen * g.yLen := hg
  have hget : ∀ a < g.data.length, ∃ p : Point, ∃ s, p.x * g.yLen + p.y = a ∧ g.data[a]? = some s ∧
      g.get p = .ok s := by
    intro a ha
    have ha' := ha
    rw [hgl] at ha'
    have hy0 : 0 < g.yLen := Nat.pos_of_mul_pos_left (Nat.lt_of_le_of_lt (Nat.zero_le _) ha')
    refine ⟨⟨a / g.yLen, a % g.yLen⟩, g.data[a], Nat.div_add_mod' _ _, List.getElem?_eq_getElem ha,
      (Grid.get_eq_ok_iff _ _ _).2
      ⟨Nat.div_lt_of_lt_mul (by rw [Nat.mul_comm]; exact ha'), Nat.mod_lt _ hy0, ?_⟩⟩
    simp only
    rw [Nat.div_add_mod', List.getElem?_eq_getElem ha]
  refine ⟨by rw [h.xLen, hgl], by rw [h.yLen, hgl], fun a ha i hi => ?_⟩
  obtain ⟨p, s, p1, p2, p3⟩ := hget a ha
  obtain ⟨q, t, q1, q2, q3⟩ := hget i hi
  have := h.entry p q s t p3 q3
  rw [p1, q1] at this
  rw [this]
  simp only [indexDistance, p2, q2]

/-- **C146** (partial): in any session of commands for any number of regions, in which at some time the region
was saved and later its distances were calculated, both succeed, and a command `kmedoids` at the end shows the
first clustering with the best silhouette of the distances of the series of the raw dataset. -/
theorem C146_kmedoids_partial (env : AnalysisEnv K) (w : AnalysisWorld K) (raw : Cube (Option K))
    (hw : w.raw = some raw) (hraw : CoversAllYears raw)
    (hn : ∀ ys ye spd c, w.file (formatByYear datasetName ys ye spd) ≠ .cube c) (a : KmedoidsAnalysis K)
    (hm : CreatableFrom raw a.md) (hsc : a.md.scaled = false) (pre mid post : List (CommandRun K))
    (r1 r2 : CommandRun K) (h1 : r1.command = .save ∧ r1.analysis.md = a.md)
    (h2 : r2.command = .distances ∧ r2.analysis.md = a.md)
    (hl : NamesApart ((pre ++ r1 :: (mid ++ r2 :: post)).map fun r => r.analysis.md)) (junk : Nat → K) :
    (executeCommand env r1 (runCommands env pre w)).1 = .ok .nothing ∧
    (executeCommand env r2 (runCommands env (pre ++ r1 :: mid) w)).1 = .ok .nothing ∧
    ∃ g, RawRegion raw a.md g ∧
      (ApartDistances (indexDistance env.measure g.data) g.data.length →
       SilhouetteOK a.params env.outcome g.data.length →
        ∃ (dm : Grid K) (before after : List (Int × Nat)) (s : Int) (k : Nat) (sc : Int × Nat → K)
          (medoids labels : List Nat) (fig : SilhouetteFigure K), AllDistances env.measure g dm ∧
        (executeCommand env ⟨a, .kmedoids, junk⟩ (runCommands env (pre ++ r1 :: (mid ++ r2 :: post)) w)).1 =
          .ok (.best ((k, some s, some medoids, labels), fig)) ∧
        (a.params.seedValues.flatMap fun s => a.params.kValues.map fun k => (s, k)) =
          before ++ (s, k) :: after ∧
        kmedoidsForSilhouette g.data dm env.outcome a.params a.tol a.verbose k s
          (a.params.initial.map (List.take k)) = .ok (medoids, labels) ∧
        plot2dClusters labels g.xLen g.yLen = .ok fig.map ∧
        plotClusteringSilhouette dm labels = .ok (sc (s, k), fig.plot) ∧
        (∀ s ∈ a.params.seedValues, ∀ k ∈ a.params.kValues, ∃ medoids labels,
          kmedoidsForSilhouette g.data dm env.outcome a.params a.tol a.verbose k s
            (a.params.initial.map (List.take k)) = .ok (medoids, labels) ∧
          IsScore (indexDistance env.measure g.data) labels (sc (s, k))) ∧
        (∀ q ∈ before, sc q < sc (s, k)) ∧ ∀ q ∈ after, sc q ≤ sc (s, k)) := by
  obtain ⟨g, dm, b1, b2, b3, b4, b5⟩ := session_commands env w hw hraw hn hm hsc pre mid post r1 r2 h1 h2 hl
  refine ⟨b3, b4, g, b1, fun hd hp => ?_⟩
  have hfit : FitsRegion dm a.md.region := by
    have hp : a.md.region.points = (a.md.region.x2 - a.md.region.x1) * (a.md.region.y2 - a.md.region.y1) := rfl
    refine ⟨?_, ?_⟩
    · rw [b2.xLen, b1.xLen, b1.yLen, hp]
    · rw [b2.yLen, b1.xLen, b1.yLen, hp]
  obtain ⟨before, after, s, k, sc, medoids, labels, fig, c1, c2, c3, c4, c5, c6, c7, c8⟩ :=
    C126_command_partial (.matrix dm) a.md.region (.ok dm) g b1.wf dm
      ((C126_matrix (.matrix dm) a.md.region (.ok dm)).1 dm rfl hfit) (indexDistance env.measure g.data)
      (b2.realises b1.wf) hd a.params env.outcome a.tol a.verbose a.showGraphs hp
  refine ⟨dm, before, after, s, k, sc, medoids, labels, fig, b2, ?_, c2, c3, c4, c5, c6, c7, c8⟩
  rw [(b5 a junk rfl).1, c1]
  rfl

/-- **C146** (partial): and a command `show_distances` shows the distances between the series of the raw dataset,
from the corner and from the centre of the region. -/
theorem C146_show_partial (env : AnalysisEnv K) (w : AnalysisWorld K) (raw : Cube (Option K))
    (hw : w.raw = some raw) (hraw : CoversAllYears raw)
    (hn : ∀ ys ye spd c, w.file (formatByYear datasetName ys ye spd) ≠ .cube c) (a : KmedoidsAnalysis K)
    (hm : CreatableFrom raw a.md) (hsc : a.md.scaled = false) (pre mid post : List (CommandRun K))
    (r1 r2 : CommandRun K) (h1 : r1.command = .save ∧ r1.analysis.md = a.md)
    (h2 : r2.command = .distances ∧ r2.analysis.md = a.md)
    (hl : NamesApart ((pre ++ r1 :: (mid ++ r2 :: post)).map fun r => r.analysis.md)) (junk : Nat → K) :
    ∃ g, RawRegion raw a.md g ∧ ∃ corner center : Grid K, ∃ c : Point, IsCentre g.xLen g.yLen c ∧
      (executeCommand env ⟨a, .showDistances, junk⟩ (runCommands env (pre ++ r1 :: (mid ++ r2 :: post)) w)).1 =
        .ok (.figures [("plots/distances_0_0_".toList ++ a.md.name ++ ".eps".toList, corner),
          ("plots/distances_center_".toList ++ a.md.name ++ ".eps".toList, center)]) ∧
      (corner.xLen = g.xLen ∧ corner.yLen = g.yLen ∧ corner.WF) ∧
      (center.xLen = g.xLen ∧ center.yLen = g.yLen ∧ center.WF) ∧
      ∀ p s s0 sc, g.get p = .ok s → g.get ⟨0, 0⟩ = .ok s0 → g.get c = .ok sc →
        corner.get p = .ok (env.measure s0 s) ∧ center.get p = .ok (env.measure sc s) := by
  obtain ⟨g, dm, b1, b2, b3, b4, b5⟩ := session_commands env w hw hraw hn hm hsc pre mid post r1 r2 h1 h2 hl
  have hfit : FitsRegion dm a.md.region := by
    have hp : a.md.region.points = (a.md.region.x2 - a.md.region.x1) * (a.md.region.y2 - a.md.region.y1) := rfl
    refine ⟨?_, ?_⟩
    · rw [b2.xLen, b1.xLen, b1.yLen, hp]
    · rw [b2.yLen, b1.xLen, b1.yLen, hp]
  obtain ⟨corner, center, c, c1, c2, c3, c4, c5⟩ :=
    C128_show_distances dm b2.wf a.md.region hfit a.md.name hm.x.1 hm.y.1
  rw [← b1.xLen, ← b1.yLen] at c1 c3 c4 c5
  refine ⟨g, b1, corner, center, c, c1, ?_, c3, c4, fun p s s0 sc hp h0 hc => ?_⟩
  · rw [(b5 a junk rfl).2, c2]
    rfl
  · obtain ⟨x1, x2, _⟩ := (Grid.get_eq_ok_iff _ _ _).1 hp
    obtain ⟨⟨v, v1, v2⟩, u, u1, u2⟩ := c5 p x1 x2
    have e1 := b2.entry ⟨0, 0⟩ p s0 s h0 hp
    have e2 := b2.entry c p sc s hc hp
    simp only [Nat.zero_mul, Nat.zero_add] at e1
    rw [e1] at v2
    rw [e2] at u2
    exact ⟨v1.trans v2.symm, u1.trans u2.symm⟩

/-- **C146** (order): without a saved dataset the other commands raise IOError and change nothing. -/
theorem C146_order (env : AnalysisEnv K) (w : AnalysisWorld K) (a : KmedoidsAnalysis K) (junk : Nat → K)
    (h : w.file a.md.datasetFile = .missing) (cmd : AnalysisCommand) (hc : cmd ≠ .save) :
    executeCommand env ⟨a, cmd, junk⟩ w = (.error .ioError, w) := by
  have hl : loadSaved w.disk a.md = .error .ioError := by
    simp only [loadSaved, AnalysisWorld.disk, h]
  cases cmd with
  | save => exact absurd rfl hc
  | distances => simp only [executeCommand, distancesCommand, hl]
  | kmedoids => simp only [executeCommand, kmedoidsCommand, hl]
  | showDistances => simp only [executeCommand, showCommand, hl]

theorem AllDistances.unique {S : Type} {measure : S → S → K} {g : Grid S} (hg : g.WF) {m m' : Grid K}
    (h : AllDistances measure g m) (h' : AllDistances measure g m') : m = m' := by
  obtain ⟨a1, a2, a3⟩ := h.realises hg
  obtain ⟨b1, b2, b3⟩ := h'.realises hg
  have hwf : m.data.length = m.xLen * m.yLen := h.wf
  have hwf' : m'.data.length = m'.xLen * m'.yLen := h'.wf
  obtain ⟨x, y, data⟩ := m
  obtain ⟨x', y', data'⟩ := m'
  simp only at a1 a2 b1 b2 hwf hwf'
  subst a1 a2 b1 b2
  congr 1
  refine List.ext_getElem? fun i => ?_
  by_cases hi : i < g.data.length * g.data.length
  · have hn : 0 < g.data.length := Nat.pos_of_mul_pos_left (Nat.lt_of_le_of_lt (Nat.zero_le _) hi)
    have ha : i / g.data.length < g.data.length := Nat.div_lt_of_lt_mul hi
    have hb : i % g.data.length < g.data.length := Nat.mod_lt _ hn
    have e1 := ((Grid.get_eq_ok_iff _ _ _).1 (a3 _ ha _ hb)).2.2
    have e2 := ((Grid.get_eq_ok_iff _ _ _).1 (b3 _ ha _ hb)).2.2
    simp only [Nat.div_add_mod'] at e1 e2
    rw [e1, e2]
  · rw [List.getElem?_eq_none (by omega), List.getElem?_eq_none (by omega)]

/-- **C146** (calculating at once): as long as the measure has no matrix, the command `kmedoids` without a file of
distances gives the same as after the command `distances`. -/
theorem C146_at_once (env : AnalysisEnv K) (w : AnalysisWorld K) (a : KmedoidsAnalysis K) (junk junk' junk'' : Nat → K)
    (c : Cube (Option K)) (hf : w.file a.md.datasetFile = .cube c) (hc : c.grid.WF)
    (hfit : c.grid.xLen * c.grid.yLen = (a.md.region.x2 - a.md.region.x1) * (a.md.region.y2 - a.md.region.y1))
    (hno : w.file a.md.distancesFile = .missing) (hheld : w.held = none) :
    (executeCommand env ⟨a, .kmedoids, junk⟩ w).1 =
      (executeCommand env ⟨a, .kmedoids, junk'⟩ (executeCommand env ⟨a, .distances, junk''⟩ w).2).1 := by
  have hne : a.md.datasetFile ≠ a.md.distancesFile := by
    intro e; rw [e, hno] at hf; cases hf
  obtain ⟨m, h1, h2⟩ := computeMatrix_ok env junk hc w
  obtain ⟨_, m', h3, h4⟩ := distancesCommand_ok env junk'' a w hf hc
  obtain rfl := h2.unique hc h4
  obtain ⟨_, h5, _⟩ := distancesCommand_files env junk'' a w
  have h6 := (h5 _ hne).trans hf
  have hr : FitsRegion m a.md.region := by
    have hp : a.md.region.points = (a.md.region.x2 - a.md.region.x1) * (a.md.region.y2 - a.md.region.y1) := rfl
    exact ⟨by rw [h2.xLen, hfit, hp], by rw [h2.yLen, hfit, hp]⟩
  have hdata : (Stack.plain c).data = c := rfl
  have hsame : silhouetteCommand .unreadable a.md.region (.ok m) c.grid env.outcome a.params a.tol a.verbose
      a.showGraphs = silhouetteCommand (.matrix m) a.md.region (.ok m) c.grid env.outcome a.params a.tol a.verbose
      a.showGraphs := by
    unfold silhouetteCommand
    rw [(C126_matrix (.matrix m) a.md.region (.ok m)).1 m rfl hr,
      (C126_matrix .unreadable a.md.region (.ok m)).2.1 rfl]
  have e1 : (executeCommand env ⟨a, .kmedoids, junk⟩ w).1 = (silhouetteCommand (.matrix m) a.md.region (.ok m) c.grid
      env.outcome a.params a.tol a.verbose a.showGraphs).map .best := by
    rw [← hsame]
    cases hr : silhouetteCommand .unreadable a.md.region (.ok m) c.grid env.outcome a.params a.tol a.verbose
      a.showGraphs <;>
    simp only [executeCommand, kmedoidsCommand, loadSaved_cube hf, hno, StoredArray.asMatrix, loadMatrix2d, hheld,
      hdata, h1, hr] <;> rfl
  rw [e1]
  show _ = (executeCommand env ⟨a, .kmedoids, junk'⟩ (distancesCommand env junk'' a w).2).1
  cases hs : silhouetteCommand (.matrix m) a.md.region (.ok m) c.grid env.outcome a.params a.tol a.verbose
    a.showGraphs <;>
  simp only [executeCommand, kmedoidsCommand, loadSaved_cube h6, h3, StoredArray.asMatrix, loadMatrix2d_fits hr,
    hdata, hs] <;> rfl

/-- **C146 refuted** for scaled regions, which are the default: in every session that starts without their dataset
file, every command for them raises an exception. -/
theorem C146_scaled_refuted (env : AnalysisEnv K) (w : AnalysisWorld K) (a : KmedoidsAnalysis K)
    (hsc : a.md.scaled = true) (hf : w.file a.md.datasetFile = .missing) (runs : List (CommandRun K))
    (hl : NamesApart (a.md :: runs.map fun r => r.analysis.md)) (cmd : AnalysisCommand) (junk : Nat → K) :
    ∃ e, (executeCommand env ⟨a, cmd, junk⟩ (runCommands env runs w)).1 = .error e := by
  have key : ∀ (runs' : List (CommandRun K)) (w : AnalysisWorld K),
      (∀ r ∈ runs', r.analysis.md ∈ a.md :: runs.map fun r => r.analysis.md) →
      w.file a.md.datasetFile = .missing → (runCommands env runs' w).file a.md.datasetFile = .missing := by
    intro runs'
    induction runs' with
    | nil => intro w _ h; exact h
    | cons r runs' ih =>
      intro w hr h
      rw [runCommands_cons]
      refine ih _ (fun r' hr' => hr r' (by simp [hr'])) ?_
      have hrm := hr r (by simp)
      have ham : a.md ∈ a.md :: runs.map fun r => r.analysis.md := by simp
      obtain ⟨b, c, j⟩ := r
      cases c with
      | save =>
        show (saveCommand b w).2.file _ = _
        rw [saveCommand_world]
        rcases save_npy w.disk b.md a.md.datasetFile (hl.not_cache ham _ _ _) with e | ⟨e1, e2, _⟩
        · rw [written_file e, h]
        · have : a.md = b.md := hl.same (k := .dataset) ham hrm e1
          rw [← this, hsc] at e2
          cases e2
      | distances => exact ((distancesCommand_files env j b w).2.1 _ (hl.kinds ham hrm)).trans h
      | kmedoids => exact (congrFun (kmedoidsCommand_files env j b w).1 _).trans h
      | showDistances => exact (congrFun (showCommand_files b w).1 _).trans h
  have h2 := key runs w (fun r hr => List.mem_cons_of_mem _ (List.mem_map.2 ⟨r, hr, rfl⟩)) hf
  by_cases hc : cmd = .save
  · subst hc
    show ∃ e, (saveCommand a (runCommands env runs w)).1 = .error e
    rcases hi : createInstance (runCommands env runs w).disk a.md with ⟨e | r, d⟩
    · exact ⟨e, by simp only [saveCommand, hi]⟩
    · have := C73_scaled_not_saved_refuted _ _ _ hsc r hi
      exact ⟨.valueError, by simp only [saveCommand, hi, this]⟩
  · exact ⟨.ioError, by rw [C146_order env _ a junk h2 cmd hc]⟩

end

/-! ### The shared measure -/

/-- The difference of the first samples. -/
def firstDifference : List (Option ℚ) → List (Option ℚ) → ℚ
  | some a :: _, some b :: _ => |a - b|
  | _, _ => 0

/-- An analysis of a line of four points with two clusters. -/
def lineAnalysis (name : Char) : KmedoidsAnalysis ℚ :=
  ⟨⟨⟨[name], ⟨0, 1, 0, 4⟩, 2014, 2015, 1, false⟩, sRaw⟩, ⟨[2], [0], .lite, none, 1000⟩, 1 / 1000, true, false⟩

/-- The random choices of the example. -/
def lineEnv : AnalysisEnv ℚ := ⟨firstDifference, fun _ _ => [0, 1]⟩

/-- The datasets of two such lines were saved: the pairs of near points are the first two and the last two points
of `a`, and the outer two and the inner two points of `b`. -/
def lineWorld : AnalysisWorld ℚ :=
  ⟨none, fun q =>
    if q = (lineAnalysis 'a').md.datasetFile then .cube ⟨1, ⟨1, 4, [[some 0], [some 1], [some 5], [some 6]]⟩⟩
    else if q = (lineAnalysis 'b').md.datasetFile then .cube ⟨1, ⟨1, 4, [[some 0], [some 5], [some 6], [some 1]]⟩⟩
    else .missing, none⟩

/-- The labels of the clustering that a command shows. -/
def AnalysisOutput.labels : AnalysisOutput ℚ → List Nat
  | .best ((_, _, _, labels), _) => labels
  | _ => []

set_option synthInstance.maxSize 1024 in
/-- **C146 refuted**: the analyses share the matrix of the measure. After the distances of `a` were calculated, the
command `kmedoids` for `b`, without a file of distances, gives the clusters of `a`. -/
theorem C146_shared_refuted :
    ((executeCommand lineEnv ⟨lineAnalysis 'b', .kmedoids, fun _ => 0⟩ lineWorld).1.map
      AnalysisOutput.labels = .ok [0, 1, 1, 0]) ∧
    ((executeCommand lineEnv ⟨lineAnalysis 'b', .kmedoids, fun _ => 0⟩
      (runCommands lineEnv [⟨lineAnalysis 'a', .distances, fun _ => 0⟩] lineWorld)).1.map
      AnalysisOutput.labels = .ok [0, 0, 1, 1]) :=
  ⟨by decide +kernel, by decide +kernel⟩

/-! ### Example -/

/-- A complete raw dataset with four points, whose series are constant. -/
def lineRaw : Cube (Option ℚ) :=
  ⟨54056, ⟨1, 4, [0, 1, 5, 6].map fun v => List.replicate 54056 (some v)⟩⟩

theorem lineRaw_covers : CoversAllYears lineRaw := by
  refine ⟨⟨rfl, ?_⟩, ?_⟩
  · intro s hs
    obtain ⟨v, _, rfl⟩ := List.mem_map.1 hs
    rw [List.length_replicate]
    rfl
  · show (54056 : Int) = daysOfYears 1979 37 * 4
    decide

/-- Analyses of the line with 4 samples per day. -/
def lineSamples (name : Char) : KmedoidsAnalysis ℚ :=
  { lineAnalysis name with md := ⟨⟨[name], ⟨0, 1, 0, 4⟩, 2014, 2015, 4, false⟩, sRaw⟩ }

theorem lineSamples_creatable : CreatableFrom lineRaw (lineSamples 'a').md :=
  ⟨.inr rfl, by decide, by decide, by decide, ⟨by decide, Nat.le_refl 1⟩, ⟨by decide, Nat.le_refl 4⟩⟩

/-- A session with the commands for `a`, among others. -/
def lineSession : List (CommandRun ℚ) × CommandRun ℚ × List (CommandRun ℚ) × CommandRun ℚ × List (CommandRun ℚ) :=
  ([⟨lineSamples 'b', .kmedoids, fun _ => 0⟩], ⟨lineSamples 'a', .save, fun _ => 0⟩,
    [⟨lineSamples 'b', .save, fun _ => 0⟩, ⟨lineSamples 'a', .showDistances, fun _ => 0⟩],
    ⟨lineSamples 'a', .distances, fun _ => 7⟩, [⟨lineSamples 'b', .distances, fun _ => 1⟩])

theorem lineSession_names : NamesApart
    ((lineSession.1 ++ lineSession.2.1 :: (lineSession.2.2.1 ++ lineSession.2.2.2.1 :: lineSession.2.2.2.2)).map
      fun r => r.analysis.md) := by
  have hmem : ∀ m ∈ (lineSession.1 ++ lineSession.2.1 ::
      (lineSession.2.2.1 ++ lineSession.2.2.2.1 :: lineSession.2.2.2.2)).map fun r => r.analysis.md,
      m = (lineSamples 'a').md ∨ m = (lineSamples 'b').md := by
    intro m hm
    simp only [lineSession, List.cons_append, List.nil_append, List.map_cons, List.map_nil, List.mem_cons,
      List.not_mem_nil, or_false] at hm
    tauto
  refine ⟨fun m hm => ?_, fun m hm s => ?_, fun m hm => ?_, fun m hm m' hm' _ h _ _ _ _ => ?_⟩
  · rcases hmem m hm with rfl | rfl <;> decide
  · rcases hmem m hm with rfl | rfl <;> intro e <;> simp [lineSamples] at e
  · rcases hmem m hm with rfl | rfl <;> decide
  · rcases hmem m hm with rfl | rfl <;> rcases hmem m' hm' with rfl | rfl <;> rfl

/-- The first samples of the series of the region are those of the points. -/
theorem lineRegion_first {g : Grid (List (Option ℚ))} (h : RawRegion lineRaw (lineSamples 'a').md g) {p : Nat} {v : ℚ}
    (hv : [0, 1, 5, 6][p]? = some v) : ∃ rest, g.data[p]? = some (some v :: rest) := by
  have hp : p < 4 := by
    by_contra hc
    rw [List.getElem?_eq_none (by simpa using hc)] at hv
    cases hv
  have hraw : lineRaw.grid.get ⟨0 + 0, 0 + p⟩ = .ok (List.replicate 54056 (some v)) := by
    rw [Grid.get_eq_ok_iff]
    refine ⟨Nat.one_pos, by show 0 + p < 4; omega, ?_⟩
    show ([0, 1, 5, 6].map fun v => List.replicate 54056 (some v))[(0 + 0) * 4 + (0 + p)]? = _
    rw [show (0 + 0) * 4 + (0 + p) = p by omega, List.getElem?_map, hv]
    rfl
  obtain ⟨out, h1, h2⟩ := h.series ⟨0, p⟩ _ Nat.one_pos hp hraw
  have h3 : YearSamples 1979 2014 2015 4 (List.replicate 54056 (some v)) out := by
    rcases h2 with ⟨_, h2⟩ | ⟨h2, _⟩
    · exact h2
    · exact absurd h2 (by decide)
  have hlen : (out.length : Int) = 2920 := h3.len.trans (by decide)
  have h4 := h3.samples 0 (by omega)
  rw [show (daysOfYears 1979 (2014 - 1979 : Int).toNat * (4 : Nat)).toNat + 0 = 51136 by decide,
    List.getElem?_replicate, if_pos (by norm_num)] at h4
  obtain ⟨_, _, h5⟩ := (Grid.get_eq_ok_iff _ _ _).1 h1
  have h6 : g.data[p]? = some out := by
    simpa using h5
  cases out with
  | nil => simp at h4
  | cons x rest =>
    simp only [List.getElem?_cons_zero, Option.some.injEq] at h4
    subst h4
    exact ⟨rest, h6⟩

/-- In this session everything succeeds, and the command shows the best clustering. -/
example : ∃ labels fig k s medoids,
    (executeCommand lineEnv ⟨lineSamples 'a', .kmedoids, fun _ => 0⟩ (runCommands lineEnv
      (lineSession.1 ++ lineSession.2.1 :: (lineSession.2.2.1 ++ lineSession.2.2.2.1 :: lineSession.2.2.2.2))
      ⟨some lineRaw, fun _ => .missing, none⟩)).1 = .ok (.best ((k, some s, some medoids, labels), fig)) := by
  obtain ⟨_, _, g, hg, h⟩ := C146_kmedoids_partial lineEnv ⟨some lineRaw, fun _ => .missing, none⟩ lineRaw rfl
    lineRaw_covers (fun _ _ _ _ e => by cases e) (lineSamples 'a') lineSamples_creatable rfl lineSession.1
    lineSession.2.2.1 lineSession.2.2.2.2 lineSession.2.1 lineSession.2.2.2.1 ⟨rfl, rfl⟩ ⟨rfl, rfl⟩
    lineSession_names (fun _ => 0)
  have hlen : g.data.length = 4 := by
    have : g.data.length = g.xLen * g.yLen := hg.wf
    rw [this, hg.xLen, hg.yLen]
    decide
  have hdist : ∀ i j, i < 4 → j < 4 → indexDistance lineEnv.measure g.data i j =
      |([0, 1, 5, 6] : List ℚ)[i]?.getD 0 - ([0, 1, 5, 6] : List ℚ)[j]?.getD 0| := by
    intro i j hi hj
    obtain ⟨v, hv⟩ : ∃ v, ([0, 1, 5, 6] : List ℚ)[i]? = some v := ⟨_, List.getElem?_eq_getElem hi⟩
    obtain ⟨u, hu⟩ : ∃ v, ([0, 1, 5, 6] : List ℚ)[j]? = some v := ⟨_, List.getElem?_eq_getElem hj⟩
    obtain ⟨r1, e1⟩ := lineRegion_first hg hv
    obtain ⟨r2, e2⟩ := lineRegion_first hg hu
    simp only [indexDistance, e1, e2, hv, hu, Option.getD_some]
    rfl
  obtain ⟨dm, _, _, s, k, _, medoids, labels, fig, _, h1, _⟩ := h
    ⟨fun i hi => by rw [hdist i i (by omega) (by omega), sub_self, abs_zero],
      fun i hi j hj hne => by
        rw [hlen] at hi hj
        rw [hdist i j hi hj]
        interval_cases i <;> interval_cases j <;> first | exact absurd rfl hne | (norm_num),
      fun i hi j hj => by
        rw [hlen] at hi hj
        rw [hdist i j hi hj, hdist j i hj hi, abs_sub_comm]⟩
    ⟨by decide, by decide, by decide, fun k hk => by
        rw [hlen]
        simp only [lineSamples, lineAnalysis, List.mem_singleton] at hk
        omega, fun k hk s hs => by
        rw [hlen]
        simp only [lineSamples, lineAnalysis, List.mem_singleton] at hk hs
        subst hk hs
        exact ⟨by decide, by decide, by decide⟩⟩
  exact ⟨labels, fig, k, s, medoids, h1⟩

/-- A scaled region among others, which can not be analysed. -/
example : ∃ e, (executeCommand lineEnv ⟨{ lineSamples 'a' with md := ⟨⟨['a'], ⟨0, 1, 0, 4⟩, 2014, 2015, 4, true⟩, sRaw⟩ },
    .kmedoids, fun _ => 0⟩ (runCommands lineEnv [⟨lineSamples 'a', .save, fun _ => 0⟩,
      ⟨{ lineSamples 'a' with md := ⟨⟨['a'], ⟨0, 1, 0, 4⟩, 2014, 2015, 4, true⟩, sRaw⟩ }, .save, fun _ => 0⟩]
      ⟨some lineRaw, fun _ => .missing, none⟩)).1 = .error e := by
  refine C146_scaled_refuted lineEnv _ _ rfl rfl _ ?_ _ _
  have hmem : ∀ m ∈ (⟨⟨['a'], ⟨0, 1, 0, 4⟩, 2014, 2015, 4, true⟩, sRaw⟩ : DirMeta) :: [(lineSamples 'a').md,
      ⟨⟨['a'], ⟨0, 1, 0, 4⟩, 2014, 2015, 4, true⟩, sRaw⟩],
      ∃ b, m = ⟨⟨['a'], ⟨0, 1, 0, 4⟩, 2014, 2015, 4, b⟩, sRaw⟩ := by
    intro m hm
    simp only [List.mem_cons, List.not_mem_nil, or_false] at hm
    rcases hm with rfl | rfl | rfl
    · exact ⟨_, rfl⟩
    · exact ⟨false, rfl⟩
    · exact ⟨_, rfl⟩
  refine ⟨fun m hm => ?_, fun m hm s => ?_, fun m hm => ?_, fun m hm m' hm' _ _ _ _ _ _ => ?_⟩
  · obtain ⟨b, rfl⟩ := hmem m hm
    show '/' ∉ ['a']
    decide
  · obtain ⟨b, rfl⟩ := hmem m hm
    intro e
    simp at e
  · obtain ⟨b, rfl⟩ := hmem m hm
    show ['a'] ≠ _
    decide
  · obtain ⟨b, rfl⟩ := hmem m hm
    obtain ⟨b', rfl⟩ := hmem m' hm'
    rfl

theorem lineWorld_b : lineWorld.file (lineAnalysis 'b').md.datasetFile =
      .cube ⟨1, ⟨1, 4, [[some 0], [some 5], [some 6], [some 1]]⟩⟩ ∧
    lineWorld.file (lineAnalysis 'b').md.distancesFile = .missing := by
  refine ⟨?_, ?_⟩
  · unfold lineWorld
    simp only
    rw [if_neg (by decide +kernel)]
    rfl
  · unfold lineWorld
    simp only
    rw [if_neg (by decide +kernel), if_neg (by decide +kernel)]

/-- Calculating the distances at once, in the world of two lines. -/
example : (executeCommand lineEnv ⟨lineAnalysis 'b', .kmedoids, fun _ => 0⟩ lineWorld).1 =
    (executeCommand lineEnv ⟨lineAnalysis 'b', .kmedoids, fun _ => 3⟩
      (executeCommand lineEnv ⟨lineAnalysis 'b', .distances, fun _ => 5⟩ lineWorld).2).1 :=
  C146_at_once lineEnv lineWorld (lineAnalysis 'b') _ _ _ _ lineWorld_b.1 rfl rfl lineWorld_b.2 rfl

/-- Without its saved region a command does nothing. -/
example : executeCommand lineEnv ⟨lineAnalysis 'c', .distances, fun _ => 0⟩ lineWorld =
    (.error .ioError, lineWorld) := by
  refine C146_order lineEnv lineWorld (lineAnalysis 'c') _ ?_ .distances (by decide)
  unfold lineWorld
  simp only
  rw [if_neg (by decide +kernel), if_neg (by decide +kernel)]

/-- The figures of the session above. -/
example : ∃ figs, (executeCommand lineEnv ⟨lineSamples 'a', .showDistances, fun _ => 0⟩ (runCommands lineEnv
      (lineSession.1 ++ lineSession.2.1 :: (lineSession.2.2.1 ++ lineSession.2.2.2.1 :: lineSession.2.2.2.2))
      ⟨some lineRaw, fun _ => .missing, none⟩)).1 = .ok (.figures figs) := by
  obtain ⟨_, _, _, _, _, _, h, _⟩ := C146_show_partial lineEnv ⟨some lineRaw, fun _ => .missing, none⟩ lineRaw rfl
    lineRaw_covers (fun _ _ _ _ e => by cases e) (lineSamples 'a') lineSamples_creatable rfl lineSession.1
    lineSession.2.2.1 lineSession.2.2.2.2 lineSession.2.1 lineSession.2.2.2.1 ⟨rfl, rfl⟩ ⟨rfl, rfl⟩
    lineSession_names (fun _ => 0)
  exact ⟨_, h⟩

end Spta
