import Verif.Spec.ErrorSuites
import Verif.Props.SolverDnn
import Verif.Props.MedoidErrors
import Verif.Props.ClusterRun

/-!
# C143: the programs that measure errors over a suite of clusterings
-/

set_option linter.unusedSectionVars false

namespace Spta

variable {K : Type} [Field K] [LinearOrder K] [IsStrictOrderedRing K] {P Q M : Type} {w : SolverWorld K P Q M} {dnn : DnnTools K}
variable {tools : ErrorTools K M} {regions : List RegionMeta}

/-! ### The pickle files -/

/-- A clustering of the suite is one of the solver programs. -/
theorem plain_training {a : ErrorArgs} (ha : a.Accepted regions) {c : ClusterMeta} (hc : PlainClustering c) :
    ∃ t : SolverArgs, t.metadata = a.metadata c ∧ t.Accepted regions := by
  obtain ⟨k, seed, rfl | rfl⟩ := hc
  · exact ⟨⟨.autoArima, a.region, .regular, k, seed, a.flen, a.errorType⟩, rfl, ha.1, ha.2.1⟩
  · exact ⟨⟨.autoArima, a.region, .kmedoids, k, seed, a.flen, a.errorType⟩, rfl, ha.1, ha.2.1⟩

theorem partitionOf_flag (m : SolverMeta) (b b' : Bool) (store : SolverStore K M (Partition × List Point)) :
    partitionOf w.compute m b store = partitionOf w.compute m b' store := by
  unfold partitionOf
  rw [compute_request, compute_request]

theorem clusterStep_store (a : ErrorArgs) (c : ClusterMeta) (st : LabFiles K M) :
    (clusterStep w tools a c st).2.1 = st.1 ∨
      (clusterStep w tools a c st).2.1 = (partitionOf w.compute (a.metadata c) true st.1).2 := by
  unfold clusterStep
  split
  · exact .inl rfl
  · generalize partitionOf w.compute (a.metadata c) true st.1 = r
    obtain ⟨r1, store⟩ := r
    cases r1 with
    | error e => exact .inl rfl
    | ok p =>
      simp only
      split
      · exact .inl rfl
      · exact .inr rfl

theorem betweenStep_store (a : ErrorArgs) (s : Stack K) (c : ClusterMeta) (st : LabFiles K M) :
    (betweenStep w tools a s c st).2.1 = st.1 ∨
      (betweenStep w tools a s c st).2.1 = (partitionOf w.compute (a.metadata c) true st.1).2 := by
  have h := clusterStep_store (w := w) (tools := tools) a c st
  unfold betweenStep
  generalize clusterStep w tools a c st = r at h ⊢
  obtain ⟨r1, st'⟩ := r
  cases r1 with
  | error e => exact h
  | ok p =>
    simp only
    split <;> exact h

theorem distanceStep_store (a : ErrorArgs) (s : Stack K) (c : ClusterMeta) (st : LabFiles K M) :
    (distanceStep w tools a s c st).2.1 = st.1 ∨
      (distanceStep w tools a s c st).2.1 = (partitionOf w.compute (a.metadata c) true st.1).2 := by
  have h := clusterStep_store (w := w) (tools := tools) a c st
  unfold distanceStep
  generalize clusterStep w tools a c st = r at h ⊢
  obtain ⟨r1, st'⟩ := r
  cases r1 with
  | error e => exact h
  | ok p =>
    simp only
    split_ifs <;> exact h

/-- For the pickle files, a loop over a suite is like some predictions. -/
theorem suiteLoop_store {a : ErrorArgs} (ha : a.Accepted regions)
    {step : ClusterMeta → LabFiles K M → Except PyErr Unit × LabFiles K M}
    (hstep : ∀ c st, (step c st).2.1 = st.1 ∨ (step c st).2.1 = (partitionOf w.compute (a.metadata c) true st.1).2) :
    ∀ (suite : List ClusterMeta) (st : LabFiles K M), (∀ c ∈ suite, PlainClustering c) →
      ∃ plain : List SolverCommand, (suiteLoop step suite st).2.1 = plain.foldl (SolverCommand.run w) st.1 ∧
        (∀ c ∈ plain, c.args.Accepted regions) ∧ plain.filterMap SolverCommand.trains = []
  | [], st, _ => ⟨[], rfl, by simp, rfl⟩
  | c :: cs, st, h => by
    have hc := hstep c st
    obtain ⟨t, ht, hacc⟩ := plain_training ha (h c (by simp))
    have hone : ∃ plain : List SolverCommand, (step c st).2.1 = plain.foldl (SolverCommand.run w) st.1 ∧
        (∀ c ∈ plain, c.args.Accepted regions) ∧ plain.filterMap SolverCommand.trains = [] := by
      rcases hc with hc | hc
      · exact ⟨[], hc, by simp, rfl⟩
      · refine ⟨[.predict t ⟨0, 0, 0, 0⟩ 0], ?_, ?_, rfl⟩
        · rw [hc, List.foldl_cons, List.foldl_nil, SolverCommand.run, predictCommand_store, ht,
            partitionOf_flag _ true false]
        · intro c' hc'
          rw [List.mem_singleton.1 hc']
          exact hacc
    obtain ⟨plain, h1, h2, h3⟩ := hone
    unfold suiteLoop
    generalize step c st = r at h1 ⊢
    obtain ⟨r1, st'⟩ := r
    cases r1 with
    | error e => exact ⟨plain, h1, h2, h3⟩
    | ok u =>
      obtain ⟨more, k1, k2, k3⟩ := suiteLoop_store ha hstep cs st' fun c hc => h c (by simp [hc])
      simp only at h1 ⊢
      refine ⟨plain ++ more, by rw [k1, h1, List.foldl_append], ?_, by rw [List.filterMap_append, h3, k3]; rfl⟩
      intro c' hc'
      rcases List.mem_append.1 hc' with hc' | hc'
      · exact h2 c' hc'
      · exact k2 c' hc'

/-- For the pickle files, a run of one of the programs is like some runs of the solver programs. -/
theorem labRun_store (hl : dnn.GoodLabels) (c : LabRun) (hc : c.Accepted regions)
    (store : SolverStore K M (Partition × List Point)) :
    ∃ more : List SolverCommand, c.run w dnn tools store = more.foldl (SolverCommand.run w) store ∧
      (∀ c ∈ more, c.args.Accepted regions) ∧ more.filterMap SolverCommand.trains = [c].filterMap LabRun.trains := by
  cases c with
  | any r =>
    cases r with
    | solver c =>
      refine ⟨[c], rfl, ?_, rfl⟩
      intro c' hc'
      rw [List.mem_singleton.1 hc']
      exact hc
    | dnn a =>
      obtain ⟨ks, hk⟩ := dnnCommand_store (w := w) hl a store fun _ => none
      refine ⟨ks.map fun x => SolverCommand.predict (a.training x.1 x.2) a.prediction 0, ?_, ?_, ?_⟩
      · show (dnnCommand w dnn a store fun _ => none).2.1 = _
        rw [hk, afterRequests_eq a a.prediction]
      · intro c' hc'
        obtain ⟨x, -, rfl⟩ := List.mem_map.1 hc'
        exact training_accepted hc _ _
      · simp [LabRun.trains, AnyRun.trains, SolverCommand.trains, List.filterMap_map, Function.comp_def]
  | between a =>
    have hc : a.Accepted regions := hc
    show ∃ more, (betweenCommand w tools a (store, fun _ => none)).2.1 = _ ∧ _
    unfold betweenCommand
    cases w.region a.region with
    | error er => exact ⟨[], rfl, by simp, rfl⟩
    | ok s => exact suiteLoop_store hc (betweenStep_store a s) a.suite _ hc.2.2
  | distance a =>
    have hc : a.Accepted regions := hc
    show ∃ more, (distanceCommand w tools a (store, fun _ => none)).2.1 = _ ∧ _
    unfold distanceCommand
    cases w.region a.region with
    | error er => exact ⟨[], rfl, by simp, rfl⟩
    | ok s => exact suiteLoop_store hc (distanceStep_store a s) a.suite _ hc.2.2

/-- **C143** (sessions): for the pickle files, a run of one of the two programs is like some predictions: a session of all
programs leaves the files of a session of the solver programs with the same trainings in the same order. So C120 and
C142 hold for sessions with these programs. -/
theorem C143_session (hl : dnn.GoodLabels) (session : List LabRun) (ha : ∀ c ∈ session, c.Accepted regions) :
    ∃ plain : List SolverCommand, labStore w dnn tools session = sessionStore w plain ∧
      (∀ c ∈ plain, c.args.Accepted regions) ∧
      plain.filterMap SolverCommand.trains = session.filterMap LabRun.trains := by
  induction session using List.reverseRecOn with
  | nil => exact ⟨[], rfl, by simp, rfl⟩
  | append_singleton session c ih =>
    obtain ⟨plain, h1, h2, h3⟩ := ih fun c' hc' => ha c' (by simp [hc'])
    have e : labStore w dnn tools (session ++ [c]) = c.run w dnn tools (labStore w dnn tools session) := by
      simp [labStore]
    have hc := ha c (by simp)
    have key : ∃ more : List SolverCommand,
        c.run w dnn tools (sessionStore w plain) = more.foldl (SolverCommand.run w) (sessionStore w plain) ∧
        (∀ c ∈ more, c.args.Accepted regions) ∧ more.filterMap SolverCommand.trains = [c].filterMap LabRun.trains := by
      exact labRun_store hl c hc (sessionStore w plain)
    obtain ⟨more, k1, k2, k3⟩ := key
    rw [e, h1]
    refine ⟨plain ++ more, by rw [k1]; simp [sessionStore], ?_, by
      rw [List.filterMap_append, List.filterMap_append, h3, k3]⟩
    intro c' hc'
    rcases List.mem_append.1 hc' with hc' | hc'
    · exact h2 c' hc'
    · exact k2 c' hc'

/-! ### Texts -/

theorem fileText_rows (rows : List (List Str)) (h : ∀ row ∈ rows, row ≠ [[]]) :
    fileText (rows.map csvRow) = csvWrite rows := by
  unfold fileText csvWrite
  rw [List.map_map]
  congr 1
  apply List.map_congr_left
  intro row hrow
  simp [csvRecord, h row hrow]

theorem readable_literals : Readable "cluster".toList ∧ Readable "points".toList ∧ Readable "coverage".toList ∧
    Readable "position".toList ∧ Readable "distance_dtw".toList ∧ Readable "forecast_error".toList := by
  refine ⟨⟨by decide, by decide⟩, ⟨by decide, by decide⟩, ⟨by decide, by decide⟩, ⟨by decide, by decide⟩,
    ⟨by decide, by decide⟩, ⟨by decide, by decide⟩⟩

/-! ### The report -/

theorem reportLoop_ok (show1 : K → Str) (pt : Partition) (h : pt.labels.xLen * pt.labels.yLen ≠ 0) :
    ∀ is : List Nat, reportLoop show1 pt is = (.ok (), is.map fun i => [natStr i, natStr (pt.clusterLen i),
      show1 (((pt.clusterLen i : Nat) : K) * 100 / ((pt.labels.xLen * pt.labels.yLen : Nat) : K))])
  | [] => rfl
  | i :: is => by
    rw [reportLoop, reportRow, if_neg h]
    simp only [reportLoop_ok show1 pt h is, List.map_cons]

theorem reportRows_ok (show1 : K → Str) (h1 : ∀ v, Readable (show1 v)) {pt : Partition} (hv : pt.Valid)
    (h0 : 0 < pt.labels.xLen * pt.labels.yLen) (hs : pt.labels.xLen * pt.labels.yLen < 10 ^ 9) (hk : pt.k < 10 ^ 9) :
    ∃ rows, reportRows show1 pt pt.k = (.ok (), rows) ∧ ReportText show1 pt (csvWrite rows) := by
  have hne : pt.labels.xLen * pt.labels.yLen ≠ 0 := by omega
  have hne' : ((pt.labels.xLen * pt.labels.yLen : Nat) : K) ≠ 0 := by exact_mod_cast hne
  have hlen : ∀ i, pt.clusterLen i = (membersOf pt.labels i).length := fun i => Grid.count_eq_filter _ hv.wf _
  obtain ⟨reported, r1, -, -, -, r5⟩ := C103_report (K := K) pt hv.wf pt.k hv.lt h0
  have r1' : clusteringReport (K := K) pt pt.k = .ok ((List.range pt.k).map fun i => (i, pt.clusterLen i,
      ((pt.clusterLen i : Nat) : K) * 100 / ((pt.labels.xLen * pt.labels.yLen : Nat) : K))) := by
    unfold clusteringReport
    exact mapM_ok _ _ _ fun i _ => if_neg hne
  rw [r1'] at r1
  injection r1 with r1
  refine ⟨_, by rw [reportRows, reportLoop_ok show1 pt hne],
    fun i => ((pt.clusterLen i : Nat) : K) * 100 / ((pt.labels.xLen * pt.labels.yLen : Nat) : K), ?_, ?_, ?_⟩
  · rw [C132_round_trip]
    · simp only [hlen]
    · intro row hrow fd hfd
      obtain ⟨l1, l2, l3, -⟩ := readable_literals
      rcases List.mem_cons.1 hrow with rfl | hrow
      · simp only [List.mem_cons, List.not_mem_nil, or_false] at hfd
        rcases hfd with rfl | rfl | rfl <;> assumption
      · obtain ⟨i, hi, rfl⟩ := List.mem_map.1 hrow
        have hi := List.mem_range.1 hi
        simp only [List.mem_cons, List.not_mem_nil, or_false] at hfd
        rcases hfd with rfl | rfl | rfl
        · exact natStr_readable_short (by omega)
        · refine natStr_readable_short (lt_of_le_of_lt ?_ hs)
          rw [hlen, membersOf]
          exact (List.length_filter_le _ _).trans (by rw [rowMajor_length])
        · exact h1 _
  · intro i
    rw [div_mul_cancel₀ _ hne', hlen, mul_comm]
  · rw [← r1, List.map_map] at r5
    exact r5

/-! ### One clustering -/

/-- There are not more clusters than points. -/
theorem clusters_le {pt : Partition} {medoids : List Point} (hcount : medoids.length = pt.k)
    (hmember : ∀ i m, medoids[i]? = some m → pt.labels.get m = .ok i) : pt.k ≤ pt.labels.xLen * pt.labels.yLen := by
  rw [← hcount, ← rowMajor_length pt.labels.xLen pt.labels.yLen]
  have hnd : medoids.Nodup := by
    rw [List.nodup_iff_getElem?_ne_getElem?]
    intro i j hij hj e
    have e1 := hmember i _ (List.getElem?_eq_getElem (by omega : i < medoids.length))
    have e2 := hmember j _ (List.getElem?_eq_getElem hj)
    rw [List.getElem?_eq_getElem (by omega : i < medoids.length), List.getElem?_eq_getElem hj] at e
    rw [Option.some.inj e, e2] at e1
    injection e1 with e1
    omega
  refine (hnd.subperm ?_).length_le
  intro p hp
  obtain ⟨i, hi⟩ := List.mem_iff_getElem?.1 hp
  have := (Grid.get_eq_ok_iff _ _ _).1 (hmember i p hi)
  exact mem_rowMajor.2 ⟨this.1, this.2.1⟩

theorem ClusterReady.clusters {a : ErrorArgs} {s : Stack K} {c : ClusterMeta} {pt : Partition} {medoids : List Point}
    (hr : ClusterReady w a s c pt medoids) : pt.k ≤ pt.labels.xLen * pt.labels.yLen :=
  clusters_le hr.setup.count hr.setup.member

/-- The partition is the one that would be computed, and the report is written. -/
theorem clusterStep_text (hc : GoodCatalogue regions) {a : ErrorArgs} (ha : a.Accepted regions) {c : ClusterMeta}
    (hp : PlainClustering c) (hmat : w.matrix a.region = .ok ()) (hone : ∀ v, Readable (tools.show1 v))
    {pt : Partition} {medoids : List Point} (hpart : w.partition a.region .dtw c = .ok (pt, medoids)) (hv : pt.Valid)
    (hsmall : pt.labels.xLen * pt.labels.yLen < 10 ^ 9) (hcount : medoids.length = pt.k)
    (hmember : ∀ i m, medoids[i]? = some m → pt.labels.get m = .ok i) (hk : (pt.k : Int) = c.k) {st : LabFiles K M}
    (hg : GoodPartitions w regions st.1) :
    ∃ store text, clusterStep w tools a c st =
        (.ok (pt, medoids), (store, Function.update st.2 ((a.metadata c).reportPath sOutputs) (some text))) ∧
      GoodPartitions w regions store ∧ ReportText tools.show1 pt text := by
  obtain ⟨t, htm, hacc⟩ := plain_training ha hp
  have hfst := partitionOf_fst hg hacc true
  have hgood := partitionOf_good hc hg hacc true
  rw [htm] at hfst hgood
  have hfst' : (partitionOf w.compute (a.metadata c) true st.1).1 = .ok (pt, medoids) := hfst.trans hpart
  obtain ⟨m, hm⟩ : ∃ m, medoids[0]? = some m :=
    ⟨_, List.getElem?_eq_getElem (by rw [hcount]; exact hv.pos)⟩
  have hr0 := (Grid.get_eq_ok_iff _ _ _).1 (hmember 0 m hm)
  have hpos : 0 < pt.labels.xLen * pt.labels.yLen := Nat.mul_pos (by omega) (by omega)
  obtain ⟨rows, h1, h2⟩ := reportRows_ok tools.show1 hone hv hpos hsmall
    (lt_of_le_of_lt (clusters_le hcount hmember) hsmall)
  have hck : c.k.toNat = pt.k := by rw [← hk]; rfl
  unfold clusterStep
  rw [hmat]
  generalize partitionOf w.compute (a.metadata c) true st.1 = r at hfst' hgood
  obtain ⟨r1, store⟩ := r
  simp only at hfst'
  subst hfst'
  refine ⟨store, csvWrite rows, ?_, hgood, h2⟩
  simp only [hck, h1]

theorem clusterStep_ok (hc : GoodCatalogue regions) {a : ErrorArgs} (ha : a.Accepted regions) {c : ClusterMeta}
    (hp : PlainClustering c) {s : Stack K} {f : ErrorFun K} {d : Point → Point → Option K}
    (hw : ErrorReady w tools a s f d) (ht : tools.GoodTexts a s) {pt : Partition} {medoids : List Point}
    (hr : ClusterReady w a s c pt medoids) {st : LabFiles K M} (hg : GoodPartitions w regions st.1) :
    ∃ store text, clusterStep w tools a c st =
        (.ok (pt, medoids), (store, Function.update st.2 ((a.metadata c).reportPath sOutputs) (some text))) ∧
      GoodPartitions w regions store ∧ ReportText tools.show1 pt text :=
  clusterStep_text hc ha hp hw.matrix ht.one hr.partition hr.setup.valid
    (by rw [hr.setup.shape.1, hr.setup.shape.2]; exact ht.small) hr.setup.count hr.setup.member hr.count hg

/-! ### Paths -/

theorem outputs_dir : DirName sOutputs := ⟨by decide, by decide⟩

theorem errorArgs_good (hc : GoodCatalogue regions) {a : ErrorArgs} (ha : a.Accepted regions) {c : ClusterMeta}
    (hp : PlainClustering c) : GoodSolver (a.metadata c) := by
  obtain ⟨t, htm, hacc⟩ := plain_training ha hp
  rw [← htm]
  exact accepted_good hc hacc

theorem errorArgs_same (hc : GoodCatalogue regions) {a : ErrorArgs} (ha : a.Accepted regions) {c c' : ClusterMeta}
    (hp : PlainClustering c) (hp' : PlainClustering c')
    (h : SameSettings (a.metadata c).md (a.metadata c').md (a.metadata c).clustering (a.metadata c').clustering) :
    c = c' := by
  obtain ⟨t, htm, hacc⟩ := plain_training ha hp
  obtain ⟨t', htm', hacc'⟩ := plain_training ha hp'
  rw [← htm, ← htm'] at h
  have := (accepted_settings hc hacc hacc' h).2
  rw [htm, htm'] at this
  exact this

/-- The name of the report. -/
def reportName (m : SolverMeta) : Str := "clustering__".toList ++ (m.clustering.repr ++ ".csv".toList)

theorem reportName_name {m : SolverMeta} (h : GoodSolver m) : FileName (reportName m) := by
  have hne : ∀ a b : Str, a ≠ [] → a ++ b ≠ [] := fun a b h => by simp [h]
  unfold reportName
  refine ⟨hne _ _ (by decide), ?_⟩
  simp only [List.mem_append, not_or]
  exact ⟨by decide, h.1.repr.1, by decide⟩

theorem reportPath_eq {m : SolverMeta} (h : GoodSolver m) : m.reportPath sOutputs =
    osJoin (osJoin sOutputs m.md.repr) (osJoin m.dist.repr m.clustering.repr) ++ '/' :: reportName m :=
  osJoin_file (subdir_dir outputs_dir m.dist h.1) (reportName_name h)

theorem outputPath_eq {m : SolverMeta} (h : GoodSolver m) {f : Str} (hf : FileName f) :
    osJoin (m.outputDir sOutputs) f =
      (osJoin (osJoin sOutputs m.md.repr) (osJoin m.dist.repr m.clustering.repr) ++ '/' :: m.params.repr) ++
        '/' :: f := by
  have p1 : FileName m.params.repr := ⟨m.params.repr_good.2, m.params.repr_good.1⟩
  rw [SolverMeta.outputDir, osJoin_file (subdir_dir outputs_dir m.dist h.1) p1, osJoin_file p1.dir.join hf]

theorem reportPath_same {m m' : SolverMeta} (h : GoodSolver m) (h' : GoodSolver m')
    (e : m.reportPath sOutputs = m'.reportPath sOutputs) : SameSettings m.md m'.md m.clustering m'.clustering := by
  rw [reportPath_eq h, reportPath_eq h'] at e
  obtain ⟨e, -⟩ := append_slash_inj (reportName_name h).2 (reportName_name h').2 e
  exact (subdir_inj outputs_dir h.1 h'.1).1 e

theorem reportPath_other {m m' : SolverMeta} (h : GoodSolver m) (h' : GoodSolver m') {f : Str} (hf : FileName f)
    (hc : f[0]? ≠ some 'c') : m.reportPath sOutputs ≠ osJoin (m'.outputDir sOutputs) f := by
  intro e
  rw [reportPath_eq h, outputPath_eq h' hf] at e
  obtain ⟨-, e⟩ := append_slash_inj (reportName_name h).2 hf.2 e
  have h0 : (reportName m)[0]? = some 'c' := rfl
  rw [e] at h0
  exact hc h0

theorem report_ne_between {m m' : SolverMeta} (h : GoodSolver m) (h' : GoodSolver m') :
    m.reportPath sOutputs ≠ medoidErrorsPath m' sOutputs := by
  have h1 : (betweenName m')[0]? = some 'e' := rfl
  exact reportPath_other (f := betweenName m') h h' (betweenName_name h') (by rw [h1]; decide)

theorem report_ne_distance {m m' : SolverMeta} (h : GoodSolver m) (h' : GoodSolver m') (i : Nat) (p d q : Int) :
    m.reportPath sOutputs ≠ distanceErrorsPath m' sOutputs i p d q := by
  have h1 : (distErrorName m' i p d q)[0]? = some 'd' := rfl
  exact reportPath_other (f := distErrorName m' i p d q) h h' (distErrorName_name h' i p d q) (by rw [h1]; decide)

theorem errorType_plain {a : ErrorArgs} (ha : a.Accepted regions) : '_' ∉ a.errorType := by
  have he := ha.2.1
  simp only [List.mem_cons, List.not_mem_nil, or_false] at he
  rcases he with e | e | e <;> rw [e] <;> decide

/-! ### Suites -/

/-- A loop over a suite whose steps all succeed and write their own files. -/
theorem suiteLoop_ok {S : Type} {step : ClusterMeta → S → Except PyErr Unit × S} {proj : S → Str → Option Str}
    {Good : S → Prop} {Own : ClusterMeta → Str → Prop} {Files : ClusterMeta → (Str → Option Str) → Prop}
    (hframe : ∀ c files files', Files c files → (∀ path, Own c path → files' path = files path) → Files c files') :
    ∀ (suite : List ClusterMeta), (∀ c ∈ suite, ∀ st, Good st → ∃ st', step c st = (.ok (), st') ∧ Good st' ∧
        Files c (proj st') ∧ ∀ path, ¬ Own c path → proj st' path = proj st path) →
      (∀ c ∈ suite, ∀ c' ∈ suite, ∀ path, Own c path → Own c' path → c = c') → ∀ st, Good st →
      ∃ st', suiteLoop step suite st = (.ok (), st') ∧ Good st' ∧ (∀ c ∈ suite, Files c (proj st')) ∧
        ∀ path, (∀ c ∈ suite, ¬ Own c path) → proj st' path = proj st path
  | [], _, _, st, hg => ⟨st, rfl, hg, by simp, fun _ _ => rfl⟩
  | c :: cs, hstep, hdisj, st, hg => by
    obtain ⟨st1, e1, g1, f1, o1⟩ := hstep c (by simp) st hg
    obtain ⟨st2, e2, g2, f2, o2⟩ := suiteLoop_ok hframe cs (fun c hc => hstep c (by simp [hc]))
      (fun c hc c' hc' => hdisj c (by simp [hc]) c' (by simp [hc'])) st1 g1
    refine ⟨st2, by rw [suiteLoop, e1]; exact e2, g2, ?_, ?_⟩
    · intro c' hc'
      by_cases hin : c' ∈ cs
      · exact f2 c' hin
      · rw [List.mem_cons] at hc'
        obtain rfl := hc'.resolve_right hin
        refine hframe c' _ _ f1 ?_
        intro path hp
        refine o2 path ?_
        intro c'' hc'' hp''
        exact hin (by rw [hdisj c' (by simp) c'' (by simp [hc'']) path hp hp'']; exact hc'')
    · intro path hp
      rw [o2 path fun c hc => hp c (by simp [hc]), o1 path (hp c (by simp))]

theorem suiteLoop_append {S : Type} {step : ClusterMeta → S → Except PyErr Unit × S} :
    ∀ (pre post : List ClusterMeta) (st st' : S), suiteLoop step pre st = (.ok (), st') →
      suiteLoop step (pre ++ post) st = suiteLoop step post st'
  | [], post, st, st', h => by cases h; rfl
  | c :: cs, post, st, st', h => by
    rw [suiteLoop] at h
    rw [List.cons_append, suiteLoop]
    generalize step c st = r at h ⊢
    obtain ⟨r1, st1⟩ := r
    cases r1 with
    | error e => cases h
    | ok u => exact suiteLoop_append cs post st1 st' h

/-! ### Errors between medoids -/

theorem between_text {a : ErrorArgs} {s : Stack K} {f : ErrorFun K} {d : Point → Point → Option K} {c : ClusterMeta}
    (hw : ErrorReady w tools a s f d) (ht : tools.GoodTexts a s) {pt : Partition} {medoids : List Point}
    (hr : ClusterReady w a s c pt medoids) (hk : pt.k < 10 ^ 9) :
    ∃ lines, medoidErrorsFile (w.trainer (a.metadata c).params a.region) w.forecast (String.ofList a.errorType)
        tools.showError s a.flen c.k.toNat medoids w.zero = (.ok (), some lines) ∧
      BetweenText (w.trainer simpleArima a.region) w.forecast f tools.showError s a.flen medoids (fileText lines) := by
  have hck : c.k.toNat = medoids.length := by rw [← hr.count, hr.setup.count]; rfl
  obtain ⟨errs, h1, h2⟩ := medoidErrorsFile_ok hr.setup.medoidTraining hw.forecasts hw.error hw.mase tools.showError
    c.k.toNat w.zero
  refine ⟨_, h1, medoids.map errs, ?_, ?_⟩
  · have hrows : medoidErrorHeader c.k.toNat ::
          medoids.mapIdx (fun j m => csvRow (natStr j :: (errs m).map tools.showError)) =
        (("cluster".toList :: (List.range medoids.length).map natStr) ::
          (medoids.map errs).mapIdx fun i row => natStr i :: row.map tools.showError).map csvRow := by
      rw [hck, List.map_cons]
      congr 1
      refine List.ext_getElem? fun i => ?_
      rw [List.getElem?_mapIdx, List.getElem?_map, List.getElem?_mapIdx, List.getElem?_map]
      cases medoids[i]? <;> rfl
    have hne : 0 < medoids.length := by rw [hr.setup.count]; exact hr.setup.valid.pos
    rw [hrows, fileText_rows, C132_round_trip]
    · intro row hrow fd hfd
      rcases List.mem_cons.1 hrow with rfl | hrow
      · rcases List.mem_cons.1 hfd with rfl | hfd
        · exact readable_literals.1
        · obtain ⟨i, hi, rfl⟩ := List.mem_map.1 hfd
          have := List.mem_range.1 hi
          rw [hr.setup.count] at this
          exact natStr_readable_short (by omega)
      · obtain ⟨i, hi, rfl⟩ := List.mem_mapIdx.1 hrow
        rw [List.length_map, hr.setup.count] at hi
        rcases List.mem_cons.1 hfd with rfl | hfd
        · exact natStr_readable_short (by omega)
        · obtain ⟨v, -, rfl⟩ := List.mem_map.1 hfd
          exact ht.error v
    · intro row hrow
      rcases List.mem_cons.1 hrow with rfl | hrow
      · intro e
        injection e with e
        exact absurd e (by decide)
      · obtain ⟨i, hi, rfl⟩ := List.mem_mapIdx.1 hrow
        intro e
        injection e with e
        exact natStr_ne_nil i e
  · rw [List.forall₂_map_right_iff, List.forall₂_same]
    intro m hm
    obtain ⟨k1, k2⟩ := h2 m hm
    rw [List.forall₂_iff_get]
    refine ⟨k1.symm, ?_⟩
    intro i hi hi'
    exact k2 i _ _ (List.getElem?_eq_getElem hi) (List.getElem?_eq_getElem hi')

theorem betweenStep_ok (hc : GoodCatalogue regions) {a : ErrorArgs} (ha : a.Accepted regions) {c : ClusterMeta}
    (hp : PlainClustering c) {s : Stack K} {f : ErrorFun K} {d : Point → Point → Option K}
    (hw : ErrorReady w tools a s f d) (ht : tools.GoodTexts a s) {pt : Partition} {medoids : List Point}
    (hr : ClusterReady w a s c pt medoids) {st : LabFiles K M} (hg : GoodPartitions w regions st.1) :
    ∃ st', betweenStep w tools a s c st = (.ok (), st') ∧ GoodPartitions w regions st'.1 ∧
      BetweenFiles w tools a s f c pt medoids st'.2 ∧ ∀ path, ¬ BetweenPath a c path → st'.2 path = st.2 path := by
  obtain ⟨store, text, h1, h2, h3⟩ := clusterStep_ok hc ha hp hw ht hr hg
  have hsmall : pt.labels.xLen * pt.labels.yLen < 10 ^ 9 := by
    rw [hr.setup.shape.1, hr.setup.shape.2]; exact ht.small
  obtain ⟨lines, k1, k2⟩ := between_text hw ht hr (lt_of_le_of_lt hr.clusters hsmall)
  have hgood := errorArgs_good hc ha hp
  refine ⟨(store, Function.update (Function.update st.2 ((a.metadata c).reportPath sOutputs) (some text))
    (medoidErrorsPath (a.metadata c) sOutputs) (some (fileText lines))), ?_, h2, ⟨⟨text, ?_, h3⟩, ⟨_, ?_, k2⟩⟩, ?_⟩
  · unfold betweenStep
    rw [h1]
    simp only [k1]
  · exact (Function.update_of_ne (report_ne_between hgood hgood) _ _).trans (Function.update_self ..)
  · exact Function.update_self ..
  · intro path hpath
    have n1 : path ≠ (a.metadata c).reportPath sOutputs := fun e => hpath (.inl e)
    have n2 : path ≠ medoidErrorsPath (a.metadata c) sOutputs := fun e => hpath (.inr e)
    exact (Function.update_of_ne n2 _ _).trans (Function.update_of_ne n1 _ _)

theorem between_disjoint (hc : GoodCatalogue regions) {a : ErrorArgs} (ha : a.Accepted regions) {c c' : ClusterMeta}
    (hp : PlainClustering c) (hp' : PlainClustering c') {path : Str} (h : BetweenPath a c path)
    (h' : BetweenPath a c' path) : c = c' := by
  have g := errorArgs_good hc ha hp
  have g' := errorArgs_good hc ha hp'
  refine errorArgs_same hc ha hp hp' ?_
  rcases h with rfl | rfl <;> rcases h' with h' | h'
  · exact reportPath_same g g' h'
  · exact absurd h' (report_ne_between g g')
  · exact absurd h'.symm (report_ne_between g' g)
  · exact ((C111_between_partial outputs_dir g g').1 h').1

/-! ### Distances and errors -/

theorem distanceLoop_ok {one : Nat → Except PyErr (Option M × List Str)} {path : Nat → Option M → Str}
    {model : Nat → Option M} {lines : Nat → List Str} :
    ∀ (is : List Nat) (files : Str → Option Str), is.Nodup → (∀ i ∈ is, one i = .ok (model i, lines i)) →
      (∀ i ∈ is, ∀ j ∈ is, path i (model i) = path j (model j) → i = j) →
      ∃ files', distanceLoop one path is files = (.ok (), files') ∧
        (∀ i ∈ is, files' (path i (model i)) = some (fileText (lines i))) ∧
        ∀ p, (∀ i ∈ is, p ≠ path i (model i)) → files' p = files p
  | [], files, _, _, _ => ⟨files, rfl, by simp, fun _ _ => rfl⟩
  | i :: is, files, hnd, h1, h2 => by
    obtain ⟨files', e, f, o⟩ := distanceLoop_ok is (Function.update files (path i (model i))
      (some (fileText (lines i)))) (List.nodup_cons.1 hnd).2 (fun j hj => h1 j (by simp [hj]))
      (fun j hj j' hj' => h2 j (by simp [hj]) j' (by simp [hj']))
    refine ⟨files', by rw [distanceLoop, h1 i (by simp)]; exact e, ?_, ?_⟩
    · intro j hj
      rcases List.mem_cons.1 hj with rfl | hj
      · rw [o]
        · exact Function.update_self ..
        · intro j' hj' e
          have := h2 j (by simp) j' (by simp [hj']) e
          exact (List.nodup_cons.1 hnd).1 (this ▸ hj')
      · exact f j hj
    · intro p hp
      rw [o p fun j hj => hp j (by simp [hj])]
      exact Function.update_of_ne (hp i (by simp)) _ _

theorem absolute_text (r : Region) (p : Point) : pointText (absolutePosition r p) =
    "Point(x=".toList ++ (natStr (r.x1 + p.x) ++ (", y=".toList ++ (natStr (r.y1 + p.y) ++ [')']))) := by
  unfold pointText absolutePosition
  rw [Nat.add_comm r.x1, Nat.add_comm r.y1]

theorem cluster_text {a : ErrorArgs} {s : Stack K} {f : ErrorFun K} {d : Point → Point → Option K} {c : ClusterMeta}
    (hw : ErrorReady w tools a s f d) (ht : tools.GoodTexts a s) {pt : Partition} {medoids : List Point}
    (hr : ClusterReady w a s c pt medoids) {i : Nat} {m : Point} (hi : medoids[i]? = some m) :
    ∃ model lines, distanceErrorsOf (w.trainer (a.metadata c).params a.region) w.forecast (String.ofList a.errorType)
        tools.showDistance tools.showError a.region.region (tools.distances a.region) s a.flen pt i m w.zero =
          .ok (model, lines) ∧
      ModelFrom (w.trainer simpleArima a.region) s a.flen m model ∧
      ClusterText (w.trainer simpleArima a.region) w.forecast f tools.showDistance tools.showError a.region.region s
        a.flen (d m) m (membersOf pt.labels i) (fileText lines) := by
  have h := hr.setup
  have hm := h.medoidTraining
  have hl := h.member i m hi
  have hmem := List.mem_of_getElem? hi
  have hrange : ∀ p l, pt.labels.get p = .ok l → p.x < s.data.grid.xLen ∧ p.y < s.data.grid.yLen := by
    intro p l hp
    have := (Grid.get_eq_ok_iff _ _ _).1 hp
    exact ⟨by rw [← h.shape.1]; exact this.1, by rw [← h.shape.2]; exact this.2.1⟩
  obtain ⟨model, e, k1, k2, k3⟩ := distanceErrorsOf_ok h.created h.valid.wf h.shape.1 h.shape.2 hl
    (MedoidTraining.mk (t := w.trainer simpleArima a.region) hm.ok hm.one hm.enough
      (fun a ha => hm.inside a (by rw [List.mem_singleton.1 ha]; exact hmem)) hm.params
      (fun a ha => hm.trains a (by rw [List.mem_singleton.1 ha]; exact hmem))) hw.forecasts hw.error hw.mase
    tools.showDistance tools.showError a.region.region (tools.distances a.region) (d m)
    (fun p hp => hw.distances m p (hrange _ _ hl).1 (hrange _ _ hl).2 (hrange _ _ hp).1 (hrange _ _ hp).2) w.zero
  have hmembers : clusterPoints pt i = membersOf pt.labels i := by
    unfold clusterPoints membersOf
    apply List.filter_congr
    intro p _
    rw [Bool.eq_iff_iff, pt.has_iff, decide_eq_true_iff]
  refine ⟨model, _, k1, k2, (membersOf pt.labels i).map e, ?_, ?_⟩
  · have hrows : distanceErrorHeader :: (clusterPoints pt i).map (fun p =>
          csvRow [pointText (absolutePosition a.region.region p), tools.showDistance (d m p), tools.showError (e p)]) =
        (["position".toList, "distance_dtw".toList, "forecast_error".toList] ::
          (clusterPoints pt i).map fun p => [pointText (absolutePosition a.region.region p),
            tools.showDistance (d m p), tools.showError (e p)]).map csvRow := by
      rw [List.map_cons, List.map_map]
      rfl
    rw [hrows, fileText_rows, C132_round_trip]
    · rw [hmembers, List.zipWith_map_right, List.zipWith_self]
      congr 2
      apply List.map_congr_left
      intro p _
      rw [absolute_text]
    · intro row hrow fd hfd
      obtain ⟨-, -, -, l1, l2, l3⟩ := readable_literals
      rcases List.mem_cons.1 hrow with rfl | hrow
      · simp only [List.mem_cons, List.not_mem_nil, or_false] at hfd
        rcases hfd with rfl | rfl | rfl <;> assumption
      · obtain ⟨p, hp, rfl⟩ := List.mem_map.1 hrow
        simp only [List.mem_cons, List.not_mem_nil, or_false] at hfd
        have hb := hrange p i (mem_clusterPoints.1 hp)
        have hx := ht.x
        have hy := ht.y
        rcases hfd with rfl | rfl | rfl
        · exact pointText_readable (by simp only [absolutePosition]; omega) (by simp only [absolutePosition]; omega)
        · exact ht.distance _
        · exact ht.error _
    · intro row hrow
      rcases List.mem_cons.1 hrow with rfl | hrow
      · intro e
        injection e with e
        exact absurd e (by decide)
      · obtain ⟨p, hp, rfl⟩ := List.mem_map.1 hrow
        intro e
        injection e with _ e
        cases e
  · rw [List.forall₂_map_right_iff, List.forall₂_same]
    intro p hp
    exact k3 p (by rw [hmembers]; exact hp)

theorem distanceStep_ok (hc : GoodCatalogue regions) {a : ErrorArgs} (ha : a.Accepted regions) {c : ClusterMeta}
    (hp : PlainClustering c) {s : Stack K} {f : ErrorFun K} {d : Point → Point → Option K}
    (hw : ErrorReady w tools a s f d) (ht : tools.GoodTexts a s) {pt : Partition} {medoids : List Point}
    (hr : ClusterReady w a s c pt medoids) {st : LabFiles K M} (hg : GoodPartitions w regions st.1) :
    ∃ st', distanceStep w tools a s c st = (.ok (), st') ∧ GoodPartitions w regions st'.1 ∧
      DistanceFiles w tools a s f d c pt medoids st'.2 ∧
      ∀ path, ¬ DistancePath w tools a s c path → st'.2 path = st.2 path := by
  obtain ⟨store, text, h1, h2, h3⟩ := clusterStep_ok hc ha hp hw ht hr hg
  have hgood := errorArgs_good hc ha hp
  have hone : ∀ i, ∃ (m : Point) (model : Option M) (lines : List Str), i < pt.k → medoids[i]? = some m ∧
      distanceErrorsOf (w.trainer (a.metadata c).params a.region) w.forecast (String.ofList a.errorType)
        tools.showDistance tools.showError a.region.region (tools.distances a.region) s a.flen pt i m w.zero =
          .ok (model, lines) ∧
      ModelFrom (w.trainer simpleArima a.region) s a.flen m model ∧
      ClusterText (w.trainer simpleArima a.region) w.forecast f tools.showDistance tools.showError a.region.region s
        a.flen (d m) m (membersOf pt.labels i) (fileText lines) := by
    intro i
    by_cases hi : i < pt.k
    · have hm : medoids[i]? = some _ := List.getElem?_eq_getElem (by rw [hr.setup.count]; exact hi)
      obtain ⟨model, lines, e⟩ := cluster_text hw ht hr hm
      exact ⟨_, model, lines, fun _ => ⟨hm, e⟩⟩
    · exact ⟨⟨0, 0⟩, none, [], fun h => absurd h hi⟩
  choose m model lines hall using hone
  have hfile : ∀ i, i < pt.k → DistanceFile w tools a s c i (m i) (a.clusterPath tools c i (model i)) := by
    intro i hi
    exact ⟨model i, _, _, _, (hall i hi).2.2.1, rfl, rfl⟩
  obtain ⟨files', l1, l2, l3⟩ := distanceLoop_ok (path := a.clusterPath tools c) (model := model) (lines := lines)
    (one := distanceOne w tools a s c pt medoids)
    (List.range pt.k) (Function.update st.2 ((a.metadata c).reportPath sOutputs) (some text)) List.nodup_range
    (by
      intro i hi
      obtain ⟨e1, e2, -⟩ := hall i (List.mem_range.1 hi)
      simp only [distanceOne, e1, e2])
    (by
      intro i _ j _ e
      exact ((C111_distance_partial outputs_dir hgood hgood (errorType_plain ha) (errorType_plain ha) _ _ _ _ _ _ _
        _).1 e).2.2.2.1)
  refine ⟨(store, files'), ?_, h2, ⟨⟨text, ?_, h3⟩, ?_⟩, ?_⟩
  · unfold distanceStep
    rw [h1]
    simp only
    rw [if_neg (by rintro ⟨-, h⟩; exact h hr.setup.shape),
      if_neg (by rintro ⟨-, h⟩; rw [hr.setup.count] at h; omega), l1]
  · refine (l3 _ ?_).trans (Function.update_self ..)
    intro i _
    exact report_ne_distance hgood hgood _ _ _ _
  · intro i m' hi
    have hlt : i < pt.k := by rw [← hr.setup.count]; exact (List.getElem?_eq_some_iff.1 hi).1
    obtain ⟨e1, -, -, e4⟩ := hall i hlt
    rw [hi] at e1
    injection e1 with e1
    subst e1
    exact ⟨_, _, hfile i hlt, l2 i (List.mem_range.2 hlt), e4⟩
  · intro path hpath
    show files' path = st.2 path
    rw [l3 path]
    · exact Function.update_of_ne (fun e => hpath (.inl e)) _ _
    · intro i hi e
      have hi := List.mem_range.1 hi
      refine hpath (.inr ⟨pt, medoids, i, m i, hr.partition, (hall i hi).1, ?_⟩)
      rw [e]
      exact hfile i hi

theorem distance_disjoint (hc : GoodCatalogue regions) {a : ErrorArgs} (ha : a.Accepted regions) {s : Stack K}
    {c c' : ClusterMeta} (hp : PlainClustering c) (hp' : PlainClustering c') {path : Str}
    (h : DistancePath w tools a s c path) (h' : DistancePath w tools a s c' path) : c = c' := by
  have g := errorArgs_good hc ha hp
  have g' := errorArgs_good hc ha hp'
  refine errorArgs_same hc ha hp hp' ?_
  rcases h with rfl | ⟨_, _, i, _, _, _, _, p, e, q, _, _, rfl⟩ <;>
    rcases h' with h' | ⟨_, _, i', _, _, _, _, p', e', q', _, _, h'⟩
  · exact reportPath_same g g' h'
  · exact absurd h' (report_ne_distance g g' _ _ _ _)
  · exact absurd h'.symm (report_ne_distance g' g _ _ _ _)
  · exact ((C111_distance_partial outputs_dir g g' (errorType_plain ha) (errorType_plain ha) _ _ _ _ _ _ _ _).1 h').1

/-! ### The programs -/

theorem labStore_good (hc : GoodCatalogue regions) (hl : dnn.GoodLabels) {session : List LabRun}
    (hs : ∀ c ∈ session, c.Accepted regions) : GoodPartitions w regions (labStore w dnn tools session) := by
  obtain ⟨plain, h1, h2, -⟩ := C143_session (w := w) (tools := tools) hl session hs
  rw [h1]
  exact (sessionFiles hc h2).part

/-- The clusterings before the first one that fails. -/
theorem betweenLoop_ok (hc : GoodCatalogue regions) {a : ErrorArgs} (ha : a.Accepted regions) {s : Stack K}
    {f : ErrorFun K} {d : Point → Point → Option K} (hw : ErrorReady w tools a s f d) (ht : tools.GoodTexts a s)
    {pre : List ClusterMeta} (hp : ∀ c ∈ pre, PlainClustering c)
    (hr : ∀ c ∈ pre, ∃ pt medoids, ClusterReady w a s c pt medoids) (st : LabFiles K M)
    (hg : GoodPartitions w regions st.1) :
    ∃ st', suiteLoop (betweenStep w tools a s) pre st = (.ok (), st') ∧ GoodPartitions w regions st'.1 ∧
      (∀ c ∈ pre, ∀ pt medoids, w.partition a.region .dtw c = .ok (pt, medoids) →
        BetweenFiles w tools a s f c pt medoids st'.2) ∧
      ∀ path, (∀ c ∈ pre, ¬ BetweenPath a c path) → st'.2 path = st.2 path := by
  refine suiteLoop_ok (proj := Prod.snd) (Good := fun st => GoodPartitions w regions st.1) (Own := BetweenPath a)
    (Files := fun c files => ∀ pt medoids, w.partition a.region .dtw c = .ok (pt, medoids) →
        BetweenFiles w tools a s f c pt medoids files) ?_ pre ?_ ?_ st hg
  · intro c files files' h he pt medoids e
    obtain ⟨⟨t1, a1, b1⟩, ⟨t2, a2, b2⟩⟩ := h pt medoids e
    exact ⟨⟨t1, by rw [he _ (.inl rfl), a1], b1⟩, ⟨t2, by rw [he _ (.inr rfl), a2], b2⟩⟩
  · intro c hcm st hg
    obtain ⟨pt, medoids, hrc⟩ := hr c hcm
    obtain ⟨st', e1, e2, e3, e4⟩ := betweenStep_ok hc ha (hp c hcm) hw ht hrc hg
    refine ⟨st', e1, e2, ?_, e4⟩
    intro pt' medoids' e
    rw [hrc.partition] at e
    cases e
    exact e3
  · intro c h c' h' path
    exact between_disjoint hc ha (hp c h) (hp c' h')

theorem distanceSuite_ok (hc : GoodCatalogue regions) {a : ErrorArgs} (ha : a.Accepted regions) {s : Stack K}
    {f : ErrorFun K} {d : Point → Point → Option K} (hw : ErrorReady w tools a s f d) (ht : tools.GoodTexts a s)
    {pre : List ClusterMeta} (hp : ∀ c ∈ pre, PlainClustering c)
    (hr : ∀ c ∈ pre, ∃ pt medoids, ClusterReady w a s c pt medoids) (st : LabFiles K M)
    (hg : GoodPartitions w regions st.1) :
    ∃ st', suiteLoop (distanceStep w tools a s) pre st = (.ok (), st') ∧ GoodPartitions w regions st'.1 ∧
      (∀ c ∈ pre, ∀ pt medoids, w.partition a.region .dtw c = .ok (pt, medoids) →
        DistanceFiles w tools a s f d c pt medoids st'.2) ∧
      ∀ path, (∀ c ∈ pre, ¬ DistancePath w tools a s c path) → st'.2 path = st.2 path := by
  refine suiteLoop_ok (proj := Prod.snd) (Good := fun st => GoodPartitions w regions st.1)
    (Own := DistancePath w tools a s)
    (Files := fun c files => ∀ pt medoids, w.partition a.region .dtw c = .ok (pt, medoids) →
        DistanceFiles w tools a s f d c pt medoids files) ?_ pre ?_ ?_ st hg
  · intro c files files' h he pt medoids e
    obtain ⟨⟨t1, a1, b1⟩, h2⟩ := h pt medoids e
    refine ⟨⟨t1, by rw [he _ (.inl rfl), a1], b1⟩, ?_⟩
    intro i m hi
    obtain ⟨path, text, k1, k2, k3⟩ := h2 i m hi
    exact ⟨path, text, k1, by rw [he _ (.inr ⟨pt, medoids, i, m, e, hi, k1⟩), k2], k3⟩
  · intro c hcm st hg
    obtain ⟨pt, medoids, hrc⟩ := hr c hcm
    obtain ⟨st', e1, e2, e3, e4⟩ := distanceStep_ok hc ha (hp c hcm) hw ht hrc hg
    refine ⟨st', e1, e2, ?_, e4⟩
    intro pt' medoids' e
    rw [hrc.partition] at e
    cases e
    exact e3
  · intro c h c' h' path
    exact distance_disjoint hc ha (hp c h) (hp c' h')

/-- **C143** (errors between medoids): after any session of all programs, a run for a suite whose clusterings can all be
computed succeeds. For every clustering of the suite there are then the report of the partition and the file of the
errors between its medoids; the other files are as before. -/
theorem C143_between (hc : GoodCatalogue regions) (hl : dnn.GoodLabels) {session : List LabRun}
    (hs : ∀ c ∈ session, c.Accepted regions) {a : ErrorArgs} (ha : a.Accepted regions) {s : Stack K} {f : ErrorFun K}
    {d : Point → Point → Option K} (hw : ErrorReady w tools a s f d) (ht : tools.GoodTexts a s)
    (hr : ∀ c ∈ a.suite, ∃ pt medoids, ClusterReady w a s c pt medoids) (files : Str → Option Str) :
    ∃ store files', betweenCommand w tools a (labStore w dnn tools session, files) = (.ok (), (store, files')) ∧
      (∀ c ∈ a.suite, ∀ pt medoids, w.partition a.region .dtw c = .ok (pt, medoids) →
        BetweenFiles w tools a s f c pt medoids files') ∧
      ∀ path, (∀ c ∈ a.suite, ¬ BetweenPath a c path) → files' path = files path := by
  obtain ⟨st', e1, -, e2, e3⟩ := betweenLoop_ok hc ha hw ht ha.2.2 hr (labStore w dnn tools session, files)
    (labStore_good hc hl hs)
  refine ⟨st'.1, st'.2, ?_, e2, e3⟩
  unfold betweenCommand
  rw [hw.region]
  exact e1

/-- **C143** (distances and errors): after any session of all programs, a run for a suite whose clusterings can all be
computed succeeds. For every clustering of the suite there are then the report of the partition and the files of all its
clusters, with the order of the model of the medoid in their names; the other files are as before. -/
theorem C143_distance (hc : GoodCatalogue regions) (hl : dnn.GoodLabels) {session : List LabRun}
    (hs : ∀ c ∈ session, c.Accepted regions) {a : ErrorArgs} (ha : a.Accepted regions) {s : Stack K} {f : ErrorFun K}
    {d : Point → Point → Option K} (hw : ErrorReady w tools a s f d) (ht : tools.GoodTexts a s)
    (hr : ∀ c ∈ a.suite, ∃ pt medoids, ClusterReady w a s c pt medoids) (files : Str → Option Str) :
    ∃ store files', distanceCommand w tools a (labStore w dnn tools session, files) = (.ok (), (store, files')) ∧
      (∀ c ∈ a.suite, ∀ pt medoids, w.partition a.region .dtw c = .ok (pt, medoids) →
        DistanceFiles w tools a s f d c pt medoids files') ∧
      ∀ path, (∀ c ∈ a.suite, ¬ DistancePath w tools a s c path) → files' path = files path := by
  obtain ⟨st', e1, -, e2, e3⟩ := distanceSuite_ok hc ha hw ht ha.2.2 hr (labStore w dnn tools session, files)
    (labStore_good hc hl hs)
  refine ⟨st'.1, st'.2, ?_, e2, e3⟩
  unfold distanceCommand
  rw [hw.region]
  exact e1

theorem clusterStep_failed {a : ErrorArgs} (ha : a.Accepted regions) {c : ClusterMeta} (hp : PlainClustering c)
    (hm : w.matrix a.region = .ok ()) {e : PyErr} (he : w.partition a.region .dtw c = .error e) {st : LabFiles K M}
    (hg : GoodPartitions w regions st.1) : clusterStep w tools a c st = (.error e, st) := by
  obtain ⟨t, htm, hacc⟩ := plain_training ha hp
  have hfst := partitionOf_fst hg hacc true
  rw [htm] at hfst
  have hfst' : (partitionOf w.compute (a.metadata c) true st.1).1 = .error e := hfst.trans he
  unfold clusterStep
  rw [hm]
  generalize partitionOf w.compute (a.metadata c) true st.1 = r at hfst'
  obtain ⟨r1, store⟩ := r
  simp only at hfst'
  subst hfst'
  rfl

/-- **C143** (failure): if a clustering of the suite fails, for example a regular one with more clusters than the region
has room for, both programs end with its error; the files of the clusterings before it are complete, and no other file is
written. -/
theorem C143_failed (hc : GoodCatalogue regions) (hl : dnn.GoodLabels) {session : List LabRun}
    (hs : ∀ c ∈ session, c.Accepted regions) {a : ErrorArgs} (ha : a.Accepted regions) {s : Stack K} {f : ErrorFun K}
    {d : Point → Point → Option K} (hw : ErrorReady w tools a s f d) (ht : tools.GoodTexts a s)
    {pre post : List ClusterMeta} {c : ClusterMeta} (hsuite : a.suite = pre ++ c :: post)
    (hr : ∀ c ∈ pre, ∃ pt medoids, ClusterReady w a s c pt medoids) {e : PyErr}
    (he : w.partition a.region .dtw c = .error e) (files : Str → Option Str) :
    (∃ store files', betweenCommand w tools a (labStore w dnn tools session, files) = (.error e, (store, files')) ∧
      (∀ c ∈ pre, ∀ pt medoids, w.partition a.region .dtw c = .ok (pt, medoids) →
        BetweenFiles w tools a s f c pt medoids files') ∧
      ∀ path, (∀ c ∈ pre, ¬ BetweenPath a c path) → files' path = files path) ∧
    ∃ store files', distanceCommand w tools a (labStore w dnn tools session, files) = (.error e, (store, files')) ∧
      (∀ c ∈ pre, ∀ pt medoids, w.partition a.region .dtw c = .ok (pt, medoids) →
        DistanceFiles w tools a s f d c pt medoids files') ∧
      ∀ path, (∀ c ∈ pre, ¬ DistancePath w tools a s c path) → files' path = files path := by
  have hg : GoodPartitions w regions (labStore w dnn tools session) := labStore_good hc hl hs
  have hpre : ∀ c ∈ pre, PlainClustering c := fun c h => ha.2.2 c (by rw [hsuite]; simp [h])
  have hpc : PlainClustering c := ha.2.2 c (by rw [hsuite]; simp)
  obtain ⟨st1, a1, a2, a3, a4⟩ := betweenLoop_ok hc ha hw ht hpre hr (labStore w dnn tools session, files) hg
  obtain ⟨st2, b1, b2, b3, b4⟩ := distanceSuite_ok hc ha hw ht hpre hr (labStore w dnn tools session, files) hg
  refine ⟨⟨st1.1, st1.2, ?_, a3, a4⟩, ⟨st2.1, st2.2, ?_, b3, b4⟩⟩
  · unfold betweenCommand
    rw [hw.region]
    simp only
    rw [hsuite, suiteLoop_append _ _ _ _ a1, suiteLoop, betweenStep, clusterStep_failed ha hpc hw.matrix he a2]
  · unfold distanceCommand
    rw [hw.region]
    simp only
    rw [hsuite, suiteLoop_append _ _ _ _ b1, suiteLoop, distanceStep, clusterStep_failed ha hpc hw.matrix he b2]

theorem distanceLoop_failed {one : Nat → Except PyErr (Option M × List Str)} {path : Nat → Option M → Str} {i : Nat}
    {e : PyErr} (hi : one i = .error e) (hpath : ∀ j m j' m', path j m = path j' m' → j = j') (post : List Nat) :
    ∀ (pre : List Nat) (files : Str → Option Str), pre.Nodup →
    (∀ j ∈ pre, ∃ r, one j = .ok r) → ∃ files', distanceLoop one path (pre ++ i :: post) files = (.error e, files') ∧
      (∀ j ∈ pre, ∀ m lines, one j = .ok (m, lines) → files' (path j m) = some (fileText lines)) ∧
      ∀ p, (∀ j ∈ pre, ∀ m lines, one j = .ok (m, lines) → p ≠ path j m) → files' p = files p
  | [], files, _, _ => ⟨files, by rw [List.nil_append, distanceLoop, hi], by simp, fun _ _ => rfl⟩
  | j :: js, files, hnd, h => by
    obtain ⟨⟨m, lines⟩, hj⟩ := h j (by simp)
    obtain ⟨files', h1, h3, h2⟩ := distanceLoop_failed hi hpath post js
      (Function.update files (path j m) (some (fileText lines))) (List.nodup_cons.1 hnd).2 fun k hk => h k (by simp [hk])
    refine ⟨files', by rw [List.cons_append, distanceLoop, hj]; exact h1, ?_, fun p hp => ?_⟩
    · intro k hk m' lines' hk'
      rcases List.mem_cons.1 hk with rfl | hk
      · rw [hj] at hk'
        cases hk'
        rw [h2]
        · exact Function.update_self ..
        · intro l hl _ _ _ e
          exact (List.nodup_cons.1 hnd).1 (hpath _ _ _ _ e ▸ hl)
      · exact h3 k hk m' lines' hk'
    · rw [h2 p fun k hk => hp k (by simp [hk]), Function.update_of_ne (hp j (by simp) m lines hj)]

theorem suiteLoop_stops {S : Type} {step : ClusterMeta → S → Except PyErr Unit × S} {e : PyErr} :
    ∀ (pre post : List ClusterMeta) (st st' : S), suiteLoop step pre st = (.error e, st') →
      suiteLoop step (pre ++ post) st = (.error e, st')
  | [], post, st, st', h => by cases h
  | c :: cs, post, st, st', h => by
    rw [suiteLoop] at h
    rw [List.cons_append, suiteLoop]
    generalize step c st = r at h ⊢
    obtain ⟨r1, st1⟩ := r
    cases r1 with
    | error e => exact h
    | ok u => exact suiteLoop_stops cs post st1 st' h

/-- **C143** (suites in parts): a run for two suites, one after the other, does the same as a run for the first and then one
for the second, whatever the files are; if the first run fails, so does the run for both, with the same files. So a suite
can be worked on in parts, and after a failure the clusterings that are done can be left out. -/
theorem C143_parts (a : ErrorArgs) (pre post : List ClusterMeta) (st st' : LabFiles K M) :
    (betweenCommand w tools { a with suite := pre } st = (.ok (), st') →
      betweenCommand w tools { a with suite := pre ++ post } st = betweenCommand w tools { a with suite := post } st') ∧
    (∀ e, betweenCommand w tools { a with suite := pre } st = (.error e, st') →
      betweenCommand w tools { a with suite := pre ++ post } st = (.error e, st')) ∧
    (distanceCommand w tools { a with suite := pre } st = (.ok (), st') →
      distanceCommand w tools { a with suite := pre ++ post } st = distanceCommand w tools { a with suite := post } st') ∧
    ∀ e, distanceCommand w tools { a with suite := pre } st = (.error e, st') →
      distanceCommand w tools { a with suite := pre ++ post } st = (.error e, st') := by
  unfold betweenCommand distanceCommand
  simp only
  cases w.region a.region with
  | error e => simp
  | ok s =>
    exact ⟨fun h => suiteLoop_append (step := betweenStep w tools a s) pre post st st' h,
      fun e h => suiteLoop_stops (step := betweenStep w tools a s) pre post st st' h,
      fun h => suiteLoop_append (step := distanceStep w tools a s) pre post st st' h,
      fun e h => suiteLoop_stops (step := distanceStep w tools a s) pre post st st' h⟩

/-- **C143** (failing work): if the partition of the first clustering can be computed but the models of its medoids
cannot, `error_between_medoids` ends with that error, and only the report of the clustering was written; if the work on
one of its clusters fails, `distance_errors` ends with that error, and only the report and the files of the clusters
before it were written, completely. -/
theorem C143_work_failed (hc : GoodCatalogue regions) (hl : dnn.GoodLabels) {session : List LabRun}
    (hs : ∀ c ∈ session, c.Accepted regions) {a : ErrorArgs} (ha : a.Accepted regions) {s : Stack K}
    (hreg : w.region a.region = .ok s) (hmat : w.matrix a.region = .ok ()) (hone : ∀ v, Readable (tools.show1 v))
    {post : List ClusterMeta} {c : ClusterMeta} (hsuite : a.suite = c :: post) {pt : Partition} {medoids : List Point}
    (hpart : w.partition a.region .dtw c = .ok (pt, medoids)) (hv : pt.Valid)
    (hsmall : pt.labels.xLen * pt.labels.yLen < 10 ^ 9) (hcount : medoids.length = pt.k)
    (hmember : ∀ i m, medoids[i]? = some m → pt.labels.get m = .ok i) (hk : (pt.k : Int) = c.k)
    (files : Str → Option Str) {e : PyErr} :
    ((w.trainer (a.metadata c).params a.region).applyAtRepresentatives medoids w.zero (splitLast s a.flen).1 = .error e →
      ∃ store files', betweenCommand w tools a (labStore w dnn tools session, files) = (.error e, (store, files')) ∧
        (∃ text, files' ((a.metadata c).reportPath sOutputs) = some text ∧ ReportText tools.show1 pt text) ∧
        ∀ path, path ≠ (a.metadata c).reportPath sOutputs → files' path = files path) ∧
    (pt.labels.xLen = s.data.grid.xLen → pt.labels.yLen = s.data.grid.yLen →
      ∀ i m, medoids[i]? = some m →
      (∀ j < i, ∃ r, distanceOne w tools a s c pt medoids j = .ok r) →
      distanceErrorsOf (w.trainer (a.metadata c).params a.region) w.forecast (String.ofList a.errorType)
        tools.showDistance tools.showError a.region.region (tools.distances a.region) s a.flen pt i m w.zero = .error e →
      ∃ store files', distanceCommand w tools a (labStore w dnn tools session, files) = (.error e, (store, files')) ∧
        (∃ text, files' ((a.metadata c).reportPath sOutputs) = some text ∧ ReportText tools.show1 pt text) ∧
        (∀ j < i, ∀ model lines, distanceOne w tools a s c pt medoids j = .ok (model, lines) →
          files' (a.clusterPath tools c j model) = some (fileText lines)) ∧
        ∀ path, path ≠ (a.metadata c).reportPath sOutputs →
          (∀ j < i, ∀ model lines, distanceOne w tools a s c pt medoids j = .ok (model, lines) →
            path ≠ a.clusterPath tools c j model) →
          files' path = files path) := by
  have hg : GoodPartitions w regions (labStore w dnn tools session) := labStore_good hc hl hs
  have hpc : PlainClustering c := ha.2.2 c (by rw [hsuite]; simp)
  obtain ⟨store, text, h1, -, h3⟩ := clusterStep_text (tools := tools) hc ha hpc hmat hone hpart hv hsmall hcount hmember hk
    (st := (labStore w dnn tools session, files)) hg
  constructor
  · intro ht
    refine ⟨store, Function.update files ((a.metadata c).reportPath sOutputs) (some text), ?_,
      ⟨text, Function.update_self .., h3⟩, fun path hp => Function.update_of_ne hp ..⟩
    unfold betweenCommand
    rw [hreg]
    simp only [hsuite, suiteLoop, betweenStep, h1, medoidErrorsFile, ht]
  · intro hx hy i m hm hbefore he
    have hi : i < pt.k := by rw [← hcount]; exact (List.getElem?_eq_some_iff.1 hm).1
    have hrange : List.range pt.k = List.range i ++ i :: (List.range (pt.k - i - 1)).map (i + 1 + ·) := by
      rw [← List.singleton_append, ← List.append_assoc, ← List.range_succ, ← List.range_add]
      congr 1
      omega
    have hgood := errorArgs_good hc ha hpc
    obtain ⟨files', h4, h6, h5⟩ := distanceLoop_failed (path := a.clusterPath tools c)
      (one := distanceOne w tools a s c pt medoids) (i := i) (e := e) (by simp only [distanceOne, hm, he])
      (fun j m j' m' e => ((C111_distance_partial outputs_dir hgood hgood (errorType_plain ha) (errorType_plain ha) _ _ _ _ _
        _ _ _).1 e).2.2.2.1)
      ((List.range (pt.k - i - 1)).map (i + 1 + ·)) (List.range i)
      (Function.update files ((a.metadata c).reportPath sOutputs) (some text)) List.nodup_range
      fun j hj => hbefore j (List.mem_range.1 hj)
    refine ⟨store, files', ?_, ⟨text, (h5 _ fun j _ _ _ _ => report_ne_distance hgood hgood _ _ _ _).trans
      (Function.update_self ..), h3⟩, fun j hj => h6 j (List.mem_range.2 hj), fun path hp hj => ?_⟩
    · unfold distanceCommand
      rw [hreg]
      simp only [hsuite, suiteLoop, distanceStep, h1]
      rw [if_neg (by simp [hx, hy]), if_neg (by omega), hrange, h4]
    · rw [h5 path fun j hj' => hj j (List.mem_range.1 hj'), Function.update_of_ne hp]

/-- **C143** (empty region): the report of a partition of no points divides by their number, which ends both programs. -/
theorem C143_empty (hc : GoodCatalogue regions) (hl : dnn.GoodLabels) {session : List LabRun}
    (hs : ∀ c ∈ session, c.Accepted regions) {a : ErrorArgs} (ha : a.Accepted regions) {s : Stack K}
    (hreg : w.region a.region = .ok s) (hmat : w.matrix a.region = .ok ())
    {post : List ClusterMeta} {c : ClusterMeta} (hsuite : a.suite = c :: post) (hk : 0 < c.k) {pt : Partition}
    {medoids : List Point} (hpart : w.partition a.region .dtw c = .ok (pt, medoids))
    (h0 : pt.labels.xLen * pt.labels.yLen = 0) (files : Str → Option Str) :
    (betweenCommand w tools a (labStore w dnn tools session, files)).1 = .error .zeroDivisionError ∧
    (distanceCommand w tools a (labStore w dnn tools session, files)).1 = .error .zeroDivisionError := by
  have hg : GoodPartitions w regions (labStore w dnn tools session) := labStore_good hc hl hs
  have hpc : PlainClustering c := ha.2.2 c (by rw [hsuite]; simp)
  have hrows : (reportRows tools.show1 pt c.k.toNat).1 = .error .zeroDivisionError := by
    obtain ⟨n, hn⟩ : ∃ n, c.k.toNat = n + 1 := ⟨c.k.toNat - 1, by omega⟩
    simp only [reportRows, hn, List.range_succ_eq_map, reportLoop, reportRow, if_pos h0]
  obtain ⟨t, htm, hacc⟩ := plain_training ha hpc
  have hfst := partitionOf_fst hg hacc true
  rw [htm] at hfst
  have hstep : (clusterStep w tools a c (labStore w dnn tools session, files)).1 = .error .zeroDivisionError := by
    have hfst' : (partitionOf w.compute (a.metadata c) true (labStore w dnn tools session)).1 = .ok (pt, medoids) :=
      hfst.trans hpart
    unfold clusterStep
    rw [hmat]
    generalize partitionOf w.compute (a.metadata c) true (labStore w dnn tools session) = r at hfst'
    obtain ⟨r1, store⟩ := r
    simp only at hfst'
    subst hfst'
    simp only [hrows]
  unfold betweenCommand distanceCommand
  rw [hreg]
  simp only [hsuite, suiteLoop, betweenStep, distanceStep]
  generalize clusterStep w tools a c (labStore w dnn tools session, files) = r at hstep
  obtain ⟨r1, st⟩ := r
  simp only at hstep
  subst hstep
  exact ⟨rfl, rfl⟩

/-! ### Examples -/

/-- The world of the earlier examples, where only clusterings with two clusters succeed. -/
def labWorld : SolverWorld ℚ Nat Nat (Option ℚ) :=
  { trainedWorld with
    partition := fun _ _ c => if c.k = 2 then .ok (trainedPartition, [⟨0, 1⟩, ⟨0, 2⟩]) else .error .valueError }

/-- Distances, orders and texts of the examples. -/
def labTools : ErrorTools ℚ (Option ℚ) where
  distances _ := ⟨3, 3, [some 0, some 4, some 6, some 4, some 0, some 5, some 6, some 5, some 0]⟩
  order model := if model = none then (-1, -1, -1) else (2, 0, 1)
  show1 v := if v = 200/3 then "66.7".toList else if v = 100/3 then "33.3".toList else "?".toList
  showError e := match e with
    | some (some v) => if v = 9 then "9.000".toList else if v = 9/4 then "2.250".toList else
      if v = 0 then "0.000".toList else if v = 36 then "36.000".toList else if v = 1/4 then "0.250".toList else "?".toList
    | _ => "?".toList
  showDistance v := if v = some 0 then "0.000".toList else if v = some 4 then "4.000".toList else "?".toList

/-- Two clusterings. -/
def labArgs (suite : List ClusterMeta) : ErrorArgs :=
  { region := ⟨['b'], ⟨5, 6, 7, 10⟩, 2015, 2015, 1, true⟩, suite := suite, flen := 1, errorType := ['M', 'S', 'E'] }

def labSuite : List ClusterMeta := [.kmedoids { k := 2, seed := 0 }, .regular 2]

theorem labSuite_plain : ∀ c ∈ labSuite, PlainClustering c := by
  intro c hc
  simp only [labSuite, List.mem_cons, List.not_mem_nil, or_false] at hc
  rcases hc with rfl | rfl
  · exact ⟨2, 0, .inr rfl⟩
  · exact ⟨2, 0, .inl rfl⟩

theorem labArgs_accepted {suite : List ClusterMeta} (h : ∀ c ∈ suite, PlainClustering c) :
    (labArgs suite).Accepted [(labArgs []).region] :=
  ⟨by simp [labArgs], by show ['M', 'S', 'E'] ∈ _; decide, h⟩

theorem lab_ready (suite : List ClusterMeta) : ∀ c ∈ labSuite, ∃ pt medoids,
    ClusterReady labWorld (labArgs suite) trainedRegion c pt medoids := by
  intro c hc
  have hk : c.k = 2 := by
    simp only [labSuite, List.mem_cons, List.not_mem_nil, or_false] at hc
    rcases hc with rfl | rfl <;> rfl
  exact ⟨trainedPartition, [⟨0, 1⟩, ⟨0, 2⟩], if_pos hk, trainedSetup, hk.symm⟩

/-- The distances, as a function. -/
def labDistance (p q : Point) : Option ℚ :=
  match (labTools.distances (labArgs []).region).get ⟨p.x * 3 + p.y, q.x * 3 + q.y⟩ with
  | .ok v => v
  | .error _ => none

theorem lab_open (suite : List ClusterMeta) : ∃ f, ErrorReady labWorld labTools (labArgs suite) trainedRegion f
    labDistance := by
  obtain ⟨f, hf⟩ : ∃ f, getErrorFunc (K := ℚ) (String.ofList ['M', 'S', 'E']) = .ok f :=
    exists_ok_of_isSome (by decide +kernel)
  refine ⟨f, rfl, rfl, ?_, fun _ _ m _ => ⟨_, rfl, List.length_replicate ..⟩, hf,
    fun e => absurd e (by show ¬ String.ofList ['M', 'S', 'E'] = "MASE"; decide +kernel)⟩
  intro p q h1 h2 h3 h4
  have h1 : p.x < 1 := h1
  have h2 : p.y < 3 := h2
  have h3 : q.x < 1 := h3
  have h4 : q.y < 3 := h4
  obtain ⟨v, hv⟩ := Grid.exists_get (labTools.distances (labArgs []).region) (by decide +kernel)
    (p := ⟨p.x * 3 + p.y, q.x * 3 + q.y⟩) (by show _ < 3; simp only; omega) (by show _ < 3; simp only; omega)
  show (labTools.distances (labArgs []).region).get ⟨p.x * 3 + p.y, q.x * 3 + q.y⟩ = _
  unfold labDistance
  rw [hv]

theorem lab_texts (suite : List ClusterMeta) : labTools.GoodTexts (labArgs suite) trainedRegion where
  one := by
    intro v
    dsimp only [labTools]
    split_ifs <;> (unfold Readable; decide +kernel)
  error := by
    intro v
    dsimp only [labTools]
    split
    · split_ifs <;> (unfold Readable; decide +kernel)
    · unfold Readable; decide +kernel
  distance := by
    intro v
    dsimp only [labTools]
    split_ifs <;> (unfold Readable; decide +kernel)
  small := by decide +kernel
  x := by show 5 + 1 ≤ 10 ^ 9; decide
  y := by show 7 + 3 ≤ 10 ^ 9; decide

/-- A session with a training and both programs, and the programs once more. -/
def labSession : List LabRun :=
  [.any (.solver (.train (exampleDnn.training 2 0))), .distance (labArgs labSuite), .between (labArgs labSuite)]

theorem labSession_accepted : ∀ c ∈ labSession, c.Accepted [(labArgs []).region] := by
  intro c hc
  simp only [labSession, List.mem_cons, List.not_mem_nil, or_false] at hc
  rcases hc with rfl | rfl | rfl
  · exact exampleDnn_training 2 0
  · exact labArgs_accepted labSuite_plain
  · exact labArgs_accepted labSuite_plain

/-- The pickle files of this session are those of a session with the same training. -/
example : ∃ plain : List SolverCommand,
    labStore labWorld exampleTools labTools labSession = sessionStore labWorld plain ∧
    plain.filterMap SolverCommand.trains = [exampleDnn.training 2 0] := by
  obtain ⟨plain, h1, -, h3⟩ := C143_session (w := labWorld) (tools := labTools) exampleTools_labels labSession
    labSession_accepted
  exact ⟨plain, h1, h3⟩

/-- The hypotheses of the theorems hold of it. -/
example (files : Str → Option Str) : ∃ f store files' store2 files2,
    betweenCommand labWorld labTools (labArgs labSuite) (labStore labWorld exampleTools labTools labSession, files) =
      (.ok (), (store, files')) ∧
    BetweenFiles labWorld labTools (labArgs labSuite) trainedRegion f (.regular 2) trainedPartition [⟨0, 1⟩, ⟨0, 2⟩]
      files' ∧
    distanceCommand labWorld labTools (labArgs labSuite) (labStore labWorld exampleTools labTools labSession, files) =
      (.ok (), (store2, files2)) ∧
    DistanceFiles labWorld labTools (labArgs labSuite) trainedRegion f labDistance (.regular 2) trainedPartition
      [⟨0, 1⟩, ⟨0, 2⟩] files2 := by
  obtain ⟨f, hf⟩ := lab_open labSuite
  obtain ⟨st, fs, h1, h2, -⟩ := C143_between (dnn := exampleTools) (regions := [(labArgs []).region])
    (by unfold GoodCatalogue; decide +kernel) exampleTools_labels labSession_accepted
    (labArgs_accepted labSuite_plain) hf (lab_texts _) (lab_ready _) files
  obtain ⟨st', fs', k1, k2, -⟩ := C143_distance (dnn := exampleTools) (regions := [(labArgs []).region])
    (by unfold GoodCatalogue; decide +kernel) exampleTools_labels labSession_accepted
    (labArgs_accepted labSuite_plain) hf (lab_texts _) (lab_ready _) files
  exact ⟨f, st, fs, st', fs', h1, h2 _ (by decide) _ _ rfl, k1, k2 _ (by decide) _ _ rfl⟩

/-- The third clustering of the suite fails. -/
example (files : Str → Option Str) : ∃ f store files',
    betweenCommand labWorld labTools (labArgs (labSuite ++ [.regular 7, .regular 2]))
      (labStore labWorld exampleTools labTools labSession, files) = (.error .valueError, (store, files')) ∧
    BetweenFiles labWorld labTools (labArgs (labSuite ++ [.regular 7, .regular 2])) trainedRegion f (.regular 2)
      trainedPartition [⟨0, 1⟩, ⟨0, 2⟩] files' := by
  obtain ⟨f, hf⟩ := lab_open (labSuite ++ [.regular 7, .regular 2])
  have hp : ∀ c ∈ labSuite ++ [.regular 7, .regular 2], PlainClustering c := by
    intro c hc
    rcases List.mem_append.1 hc with hc | hc
    · exact labSuite_plain c hc
    · simp only [List.mem_cons, List.not_mem_nil, or_false] at hc
      rcases hc with rfl | rfl
      · exact ⟨7, 0, .inl rfl⟩
      · exact ⟨2, 0, .inl rfl⟩
  obtain ⟨⟨st, fs, h1, h2, -⟩, -⟩ := C143_failed (dnn := exampleTools) (regions := [(labArgs []).region])
    (by unfold GoodCatalogue; decide +kernel) exampleTools_labels labSession_accepted
    (labArgs_accepted hp) hf (lab_texts _) rfl (lab_ready _) (c := .regular 7) (e := .valueError) rfl files
  exact ⟨f, st, fs, h1, h2 _ (by decide) _ _ rfl⟩

/-- The two clusterings of the suite in two runs. -/
example : betweenCommand labWorld labTools (labArgs ([.kmedoids { k := 2, seed := 0 }] ++ [.regular 2]))
      (fun _ => none, fun _ => none) =
    betweenCommand labWorld labTools (labArgs [.regular 2]) (betweenCommand labWorld labTools
      (labArgs [.kmedoids { k := 2, seed := 0 }]) (fun _ => none, fun _ => none)).2 :=
  (C143_parts (labArgs []) [.kmedoids { k := 2, seed := 0 }] [.regular 2] (fun _ => none, fun _ => none) _).1
    (Prod.ext (by decide +kernel) rfl)

/-- The parameters of the trainer have another shape than the region: both programs end with an `AssertionError`. -/
example (files : Str → Option Str) : ∃ store files' store2 files2,
    betweenCommand { labWorld with trainer := fun _ _ => { (labWorld.trainer simpleArima (labArgs []).region) with
        params := Grid.const 2 2 0 } } labTools (labArgs labSuite)
      (labStore { labWorld with trainer := fun _ _ => { (labWorld.trainer simpleArima (labArgs []).region) with
        params := Grid.const 2 2 0 } } exampleTools labTools labSession, files) =
      (.error .assertionError, (store, files')) ∧
    distanceCommand { labWorld with trainer := fun _ _ => { (labWorld.trainer simpleArima (labArgs []).region) with
        params := Grid.const 2 2 0 } } labTools (labArgs labSuite)
      (labStore { labWorld with trainer := fun _ _ => { (labWorld.trainer simpleArima (labArgs []).region) with
        params := Grid.const 2 2 0 } } exampleTools labTools labSession, files) =
      (.error .assertionError, (store2, files2)) := by
  obtain ⟨h1, h2⟩ := C143_work_failed (dnn := exampleTools) (regions := [(labArgs []).region]) (tools := labTools)
    (w := { labWorld with trainer := fun _ _ => { (labWorld.trainer simpleArima (labArgs []).region) with
        params := Grid.const 2 2 0 } })
    (by unfold GoodCatalogue; decide +kernel) exampleTools_labels labSession_accepted
    (labArgs_accepted labSuite_plain) (s := trainedRegion) rfl rfl (lab_texts labSuite).one rfl (pt := trainedPartition)
    (medoids := [⟨0, 1⟩, ⟨0, 2⟩]) rfl trainedSetup.valid (by decide) rfl trainedSetup.member rfl files
    (e := .assertionError)
  obtain ⟨st, fs, k1, -⟩ := h1 (by decide +kernel)
  obtain ⟨st2, fs2, k2, -⟩ := h2 rfl rfl 0 ⟨0, 1⟩ rfl (fun j hj => absurd hj (by omega)) (by decide +kernel)
  exact ⟨st, fs, st2, fs2, k1, k2⟩

/-- A partition of an empty region. -/
example (files : Str → Option Str) :
    (betweenCommand { labWorld with partition := fun _ _ _ => .ok (⟨⟨0, 3, []⟩, 2, 0⟩, []) } labTools (labArgs labSuite)
      (labStore { labWorld with partition := fun _ _ _ => .ok (⟨⟨0, 3, []⟩, 2, 0⟩, []) } exampleTools labTools labSession,
        files)).1 = .error .zeroDivisionError :=
  (C143_empty (dnn := exampleTools) (regions := [(labArgs []).region]) (tools := labTools)
    (w := { labWorld with partition := fun _ _ _ => .ok (⟨⟨0, 3, []⟩, 2, 0⟩, []) })
    (by unfold GoodCatalogue; decide +kernel) exampleTools_labels labSession_accepted
    (labArgs_accepted labSuite_plain) rfl rfl rfl (by decide) rfl rfl files).1

/-- The names and texts of some of the files. -/
example :
    let files := (betweenCommand labWorld labTools (labArgs labSuite) (fun _ => none, fun _ => none)).2.2
    let files2 := (distanceCommand labWorld labTools (labArgs labSuite) (fun _ => none, fun _ => none)).2.2
    files "outputs/b_2015_2015_1spd_scaled/dtw/regular_k2/clustering__regular_k2.csv".toList =
      some "cluster points coverage\r\n0 2 66.7\r\n1 1 33.3\r\n".toList ∧
    files ("outputs/b_2015_2015_1spd_scaled/dtw/regular_k2/" ++
        "auto-arima-start_p1-start_q1-max_p3-max_q3-dNone-stepwiseTrue/" ++
        "error-between-medoids__regular_k2__MSE.csv").toList =
      some "cluster 0 1\r\n0 9.000 2.250\r\n1 0.000 36.000\r\n".toList ∧
    files2 ("outputs/b_2015_2015_1spd_scaled/dtw/regular_k2/" ++
        "auto-arima-start_p1-start_q1-max_p3-max_q3-dNone-stepwiseTrue/" ++
        "dist-error__regular_k2__MSE__cluster0__auto-arima-p2-d0-q1.csv").toList =
      some ("position distance_dtw forecast_error\r\n|Point(x=5, y=7)| 4.000 0.250\r\n" ++
        "|Point(x=5, y=8)| 0.000 9.000\r\n").toList := by
  refine ⟨?_, ?_, ?_⟩ <;> decide +kernel

end Spta
