import Verif.Spec.StudySuites
import Verif.Spec.SuiteFiles
import Verif.Props.ErrorSuites
import Verif.Props.TrainingErrors
import Verif.Props.PartitionAnalysis
import Verif.Props.SuiteFiles
import Verif.Props.FindElbows
import Verif.Props.CsvText

/-!
# C144: the other programs that work on suites of clusterings
-/

set_option linter.unusedSectionVars false

namespace Spta

variable {K : Type} [Field K] [LinearOrder K] [IsStrictOrderedRing K] {P Q M A L : Type} {w : SolverWorld K P Q M}
variable {dnn : DnnTools K} {tools : ErrorTools K M} {st : StudyTools K A L} {regions : List RegionMeta}

/-! ### The pickle files -/

theorem TableArgs.Accepted.error {a : TableArgs} (ha : a.Accepted regions) : a.error.Accepted regions :=
  ⟨ha.1, ha.2.1, ha.2.2.1⟩

theorem SuiteAccepted.error {md : RegionMeta} {suite suite' : List ClusterMeta} (ha : SuiteAccepted regions md suite)
    (hs : ∀ c ∈ suite', c ∈ suite) :
    (⟨md, suite', 8, "sMAPE".toList⟩ : ErrorArgs).Accepted regions :=
  ⟨ha.1, List.mem_cons_of_mem _ List.mem_cons_self, fun c hc => ha.2 c (hs c hc)⟩

theorem tableStep_store (a : TableArgs) (s : Stack K) (c : ClusterMeta) (fs : LabFiles K M) :
    (tableStep w tools st a s c fs).2.1 = fs.1 ∨
      (tableStep w tools st a s c fs).2.1 = (partitionOf w.compute (a.error.metadata c) true fs.1).2 := by
  have h := clusterStep_store (w := w) (tools := tools) a.error c fs
  unfold tableStep
  generalize clusterStep w tools a.error c fs = r at h ⊢
  obtain ⟨r1, fs'⟩ := r
  cases r1 with
  | error e => exact h
  | ok p =>
    simp only
    split_ifs
    · exact h
    · cases stacksWithMedoids s p.1 p.2 with
      | error e => exact h
      | ok cl =>
        simp only
        cases (studyTable tools st a s c p.1 p.2).2 <;> exact h

theorem analysisStep_store (a : AnalysisArgs) (c : ClusterMeta) (fs : LabFiles K M) :
    (analysisStep w tools st a c fs).2.1 = fs.1 ∨
      (analysisStep w tools st a c fs).2.1 = (partitionOf w.compute (a.error.metadata c) true fs.1).2 := by
  have h := clusterStep_store (w := w) (tools := tools) a.error c fs
  unfold analysisStep
  cases w.region a.region with
  | error e => exact .inl rfl
  | ok s =>
    simp only
    generalize clusterStep w tools a.error c fs = r at h ⊢
    obtain ⟨r1, fs'⟩ := r
    cases r1 with
    | error e => exact h
    | ok p =>
      simp only
      split <;> exact h

/-- For the pickle files, asking for all partitions is like some predictions. -/
theorem savedPartitions_store {md : RegionMeta} (hmd : md ∈ regions) :
    ∀ (suite : List ClusterMeta) (d : List (ClusterMeta × Partition × List Point))
      (store : SolverStore K M (Partition × List Point)), (∀ c ∈ suite, PlainClustering c) →
      ∃ plain : List SolverCommand,
        (savedPartitions w md suite d store).2 = plain.foldl (SolverCommand.run w) store ∧
        (∀ c ∈ plain, c.args.Accepted regions) ∧ plain.filterMap SolverCommand.trains = []
  | [], d, store, _ => ⟨[], rfl, by simp, rfl⟩
  | c :: cs, d, store, h => by
    obtain ⟨t, ht, hacc⟩ := plain_training (a := ⟨md, [], 8, "sMAPE".toList⟩)
      (SuiteAccepted.error (suite := []) (suite' := []) ⟨hmd, by simp⟩ (by simp)) (h c (by simp))
    have hrun : ∃ plain : List SolverCommand, (partitionOf w.compute
          ((⟨md, [], 8, "sMAPE".toList⟩ : ErrorArgs).metadata c) false store).2 = plain.foldl (SolverCommand.run w) store ∧
        (∀ c ∈ plain, c.args.Accepted regions) ∧ plain.filterMap SolverCommand.trains = [] := by
      refine ⟨[.predict t ⟨0, 0, 0, 0⟩ 0], ?_, ?_, rfl⟩
      · rw [List.foldl_cons, List.foldl_nil, SolverCommand.run, predictCommand_store, ht]
      · intro c' hc'
        rw [List.mem_singleton.1 hc']
        exact hacc
    obtain ⟨plain, h1, h2, h3⟩ := hrun
    unfold savedPartitions
    generalize partitionOf w.compute _ false store = r at h1 ⊢
    obtain ⟨r1, store'⟩ := r
    cases r1 with
    | error e => exact ⟨plain, h1, h2, h3⟩
    | ok p =>
      obtain ⟨more, k1, k2, k3⟩ := savedPartitions_store hmd cs (metaDictSet c p d) store' fun c hc => h c (by simp [hc])
      simp only at h1 ⊢
      refine ⟨plain ++ more, by rw [k1, h1, List.foldl_append], ?_, by rw [List.filterMap_append, h3, k3]; rfl⟩
      intro c' hc'
      rcases List.mem_append.1 hc' with hc' | hc'
      · exact h2 c' hc'
      · exact k2 c' hc'

/-- **C144** (sessions): for the pickle files, a run of one of these programs is like some predictions: a session of all
programs leaves the files of a session of the solver programs with the same trainings in the same order. So C120, C142
and C143 hold for sessions with these programs. -/
theorem C144_session (hl : dnn.GoodLabels) (session : List StudyRun) (ha : ∀ c ∈ session, c.Accepted regions) :
    ∃ plain : List SolverCommand, studyStore w dnn tools st session = sessionStore w plain ∧
      (∀ c ∈ plain, c.args.Accepted regions) ∧
      plain.filterMap SolverCommand.trains = session.filterMap StudyRun.trains := by
  induction session using List.reverseRecOn with
  | nil => exact ⟨[], rfl, by simp, rfl⟩
  | append_singleton session c ih =>
    obtain ⟨plain, h1, h2, h3⟩ := ih fun c' hc' => ha c' (by simp [hc'])
    have e : studyStore w dnn tools st (session ++ [c]) =
        c.run w dnn tools st (studyStore w dnn tools st session) := by
      simp [studyStore]
    have hc := ha c (by simp)
    have key : ∃ more : List SolverCommand,
        c.run w dnn tools st (sessionStore w plain) = more.foldl (SolverCommand.run w) (sessionStore w plain) ∧
        (∀ c ∈ more, c.args.Accepted regions) ∧ more.filterMap SolverCommand.trains = [c].filterMap StudyRun.trains := by
      cases c with
      | lab r => exact labRun_store hl r hc (sessionStore w plain)
      | table a =>
        have hc : a.Accepted regions := hc
        show ∃ more, (tableCommand w tools st a (sessionStore w plain, fun _ => none)).2.1 = _ ∧ _
        unfold tableCommand
        cases w.region a.region with
        | error er => exact ⟨[], rfl, by simp, rfl⟩
        | ok s =>
          cases w.matrix a.region with
          | error er => exact ⟨[], rfl, by simp, rfl⟩
          | ok u => exact suiteLoop_store hc.error (tableStep_store a s) a.suite _ hc.2.2.1
      | analysis a =>
        have hc : SuiteAccepted regions a.region a.suite := hc
        show ∃ more, (analysisCommand w tools st a (sessionStore w plain, fun _ => none)).2.1 = _ ∧ _
        unfold analysisCommand
        cases w.matrix a.region with
        | error er => exact ⟨[], rfl, by simp, rfl⟩
        | ok u => exact suiteLoop_store (a := a.error) (hc.error fun _ h => h) (analysisStep_store a) a.suite _ hc.2
      | medoids md suite => exact ⟨[], rfl, by simp, rfl⟩
      | elbows md suite =>
        have hc : SuiteAccepted regions md suite := hc
        show ∃ more, (elbowCommand w tools md suite (sessionStore w plain)).2 = _ ∧ _
        unfold elbowCommand
        cases w.region md with
        | error er => exact ⟨[], rfl, by simp, rfl⟩
        | ok s =>
          cases w.matrix md with
          | error er => exact ⟨[], rfl, by simp, rfl⟩
          | ok u =>
            have hh := savedPartitions_store (w := w) hc.1 suite [] (sessionStore w plain) hc.2
            simp only
            generalize savedPartitions w md suite [] (sessionStore w plain) = r at hh ⊢
            obtain ⟨r1, store⟩ := r
            cases r1 <;> exact hh
    obtain ⟨more, k1, k2, k3⟩ := key
    rw [e, h1]
    refine ⟨plain ++ more, by rw [k1]; simp [sessionStore], ?_, by
      rw [List.filterMap_append, List.filterMap_append, h3, k3]⟩
    intro c' hc'
    rcases List.mem_append.1 hc' with hc' | hc'
    · exact h2 c' hc'
    · exact k2 c' hc'

theorem studyStore_good (hc : GoodCatalogue regions) (hl : dnn.GoodLabels) {session : List StudyRun}
    (hs : ∀ c ∈ session, c.Accepted regions) : GoodPartitions w regions (studyStore w dnn tools st session) := by
  obtain ⟨plain, h1, h2, -⟩ := C144_session (w := w) (tools := tools) (st := st) hl session hs
  rw [h1]
  exact (sessionFiles hc h2).part

/-! ### Tables -/

theorem PartitionReady.small {md : RegionMeta} {s : Stack K} {c : ClusterMeta} {pt : Partition} {medoids : List Point}
    (hr : PartitionReady w md s c pt medoids) (hw : StudyReady w tools md s) :
    pt.labels.xLen * pt.labels.yLen < 10 ^ 9 := by
  rw [hr.shape.1, hr.shape.2]
  exact hw.small

theorem PartitionReady.setup {a : TableArgs} {s : Stack K} {c : ClusterMeta} {pt : Partition} {medoids : List Point}
    (hr : PartitionReady w a.region s c pt medoids) (hw : StudyReady w tools a.region s) {f : ErrorFun K}
    (ht : TableReady st a s f) : ErrorSetup a.region.scaled s 8 pt medoids (String.ofList a.errorType) f :=
  ⟨hw.created, ht.enough, ht.error, ht.mase, hr.valid.wf, hr.shape, hr.count, hr.member⟩

/-- A cluster has no more points than the region. -/
theorem ClusterReport.size_le {forecast : L → Nat → Except PyErr (List (Option K))} {f : ErrorFun K} {s : Stack K}
    {n : Nat} {pt : Partition} {want : List (Option K) → Option L} {i : Nat} {m : Point} {size failed : Nat}
    {errors : ForecastErrors K} (h : ClusterReport forecast f s n pt want i m size failed errors) :
    size ≤ pt.labels.xLen * pt.labels.yLen := by
  obtain ⟨points, h1, h2, rfl⟩ := h.size
  rw [← rowMajor_length pt.labels.xLen pt.labels.yLen]
  refine (h1.subperm ?_).length_le
  intro p hp
  have := (Grid.get_eq_ok_iff _ _ _).1 ((h2 p).1 hp)
  exact mem_rowMajor.2 ⟨this.1, this.2.1⟩

theorem flatMap_map_getElem? {α β : Type} (g : Nat → α → β) (l : List α) :
    ∀ (k i n : Nat) (x : α), i < k → l[n]? = some x →
      ((List.range k).flatMap fun i => l.map (g i))[i * l.length + n]? = some (g i x)
  | 0, i, n, x, hi, _ => absurd hi (Nat.not_lt_zero i)
  | k + 1, i, n, x, hi, hx => by
    have hlen : ((List.range k).flatMap fun i => l.map (g i)).length = k * l.length := by
      simp [List.length_flatMap]
    have hn : n < l.length := (List.getElem?_eq_some_iff.1 hx).1
    rw [List.range_succ, List.flatMap_append]
    by_cases h : i < k
    · have hb : i * l.length + n < k * l.length :=
        calc i * l.length + n < i * l.length + l.length := by omega
          _ = (i + 1) * l.length := by rw [Nat.add_mul, Nat.one_mul]
          _ ≤ k * l.length := Nat.mul_le_mul_right _ h
      rw [List.getElem?_append_left (by rw [hlen]; exact hb)]
      exact flatMap_map_getElem? g l k i n x h hx
    · obtain rfl : i = k := by omega
      rw [List.getElem?_append_right (by rw [hlen]; omega), hlen, Nat.add_sub_cancel_left]
      simp [hx]

theorem pdqHeader_readable : ∀ fd ∈ pdqHeader, Readable fd := by
  unfold pdqHeader Readable
  decide +kernel

theorem autoHeader_readable : ∀ fd ∈ autoHeader, Readable fd := by
  unfold autoHeader Readable
  decide +kernel

theorem orders_text {a : TableArgs} {s : Stack K} {f : ErrorFun K} {c : ClusterMeta} (hw : StudyReady w tools a.region s)
    (ht : TableReady st a s f) (hx : st.GoodTexts a) {pt : Partition} {medoids : List Point}
    (hr : PartitionReady w a.region s c pt medoids) {name : Str} {orders : List PDQ} (hk : a.kind = .orders name orders)
    (hplot : a.plots = true → ∀ want ∈ a.kind.models st, CanPlot (tools.distances a.region) s pt medoids want) :
    ∃ rows, studyTable tools st a s c pt medoids = (rows, none) ∧
      (∀ cells ∈ rows, ∀ fd ∈ cells, Readable fd) ∧ OrdersText st f s c pt medoids orders (csvWrite rows) := by
  have hck : c.k.toNat = pt.k := by rw [← hr.clusters]; rfl
  have hm : a.kind.models st = orders.map (pdqModel st.lib) := by rw [hk]; rfl
  obtain ⟨row, r1, -, r3, -⟩ := pdqTable_rows (lib := st.lib) (forecast := st.forecast) (hr.setup hw ht)
    (orders := orders) (fun o _ v => ht.fit o v)
    (fun o ho => ht.forecasts _ (by rw [hm]; exact List.mem_map_of_mem ho)) st.junk ht.root (tools.distances a.region)
    a.plots (fun hp o ho => hplot hp _ (by rw [hm]; exact List.mem_map_of_mem ho))
  have hrow : ∀ i < pt.k, ∃ m, medoids[i]? = some m := fun i hi =>
    ⟨_, List.getElem?_eq_getElem (by rw [hr.count]; exact hi)⟩
  have e1 : studyTable tools st a s c pt medoids = (pdqHeader :: timedRows (PdqRow.cells st.show3) (st.time c)
      ((List.range pt.k).flatMap fun i => orders.map (row i)), none) := by
    unfold studyTable
    rw [hk]
    simp only [hck, r1 pt.k (Nat.le_refl _)]
  have hread : ∀ cells ∈ pdqHeader :: timedRows (PdqRow.cells st.show3) (st.time c)
    ((List.range pt.k).flatMap fun i => orders.map (row i)),
      ∀ fd ∈ cells, Readable fd := by
    intro cells hcells fd hfd
    rcases List.mem_cons.1 hcells with rfl | hcells
    · exact pdqHeader_readable fd hfd
    · obtain ⟨j, hj, rfl⟩ := List.mem_mapIdx.1 hcells
      have hmem := List.getElem_mem hj
      generalize ((List.range pt.k).flatMap fun i => orders.map (row i))[j] = r at hmem hfd
      obtain ⟨i, hi, hmem⟩ := List.mem_flatMap.1 hmem
      obtain ⟨o, ho, rfl⟩ := List.mem_map.1 hmem
      have hi := List.mem_range.1 hi
      obtain ⟨m, hm⟩ := hrow i hi
      obtain ⟨q1, q2, q3⟩ := r3 i m hm o ho
      have hsz := q3.size_le
      have hfl := (C118_bounds q3).1
      have hsm := hr.small hw
      have hkk := clusters_le hr.count hr.member
      obtain ⟨o1, o2, o3⟩ := hx.orders name orders hk o ho
      rw [PdqRow.cells, q1, q2] at hfd
      simp only [List.mem_cons, List.not_mem_nil, or_false] at hfd
      rcases hfd with rfl | rfl | rfl | rfl | rfl | rfl | rfl | rfl | rfl | rfl | rfl | rfl | rfl
      · exact natStr_readable_short (by omega)
      · exact natStr_readable_short (by omega)
      · exact intStr_readable_short o1
      · exact intStr_readable_short o2
      · exact intStr_readable_short o3
      · exact natStr_readable_short (by omega)
      · exact (hx.time _ _).1
      · exact (hx.time _ _).2
      · exact hx.val _
      · exact hx.min _
      · exact hx.val _
      · exact hx.val _
      · exact hx.max _
  refine ⟨_, e1, hread, timedRows (PdqRow.cells st.show3) (st.time c)
    ((List.range pt.k).flatMap fun i => orders.map (row i)), ?_, ?_, ?_⟩
  · rw [C132_round_trip _ hread]
    rfl
  · simp [timedRows, List.length_flatMap]
  · intro i m n o hm hn
    obtain ⟨q1, q2, q3⟩ := r3 i m hm o (List.mem_of_getElem? hn)
    have hi : i < pt.k := by rw [← hr.count]; exact (List.getElem?_eq_some_iff.1 hm).1
    refine ⟨_, _, _, ?_, q3⟩
    rw [timedRows, List.getElem?_mapIdx, flatMap_map_getElem? row orders pt.k i n o hi hn, Option.map_some,
      PdqRow.cells, q1, q2]
    rfl

theorem auto_text {a : TableArgs} {s : Stack K} {f : ErrorFun K} {c : ClusterMeta} (hw : StudyReady w tools a.region s)
    (ht : TableReady st a s f) (hx : st.GoodTexts a) {pt : Partition} {medoids : List Point}
    (hr : PartitionReady w a.region s c pt medoids) (hk : a.kind = .auto)
    (hplot : a.plots = true → ∀ want ∈ a.kind.models st, CanPlot (tools.distances a.region) s pt medoids want) :
    ∃ rows, studyTable tools st a s c pt medoids = (rows, none) ∧
      (∀ cells ∈ rows, ∀ fd ∈ cells, Readable fd) ∧ AutoText st f s c pt medoids (csvWrite rows) := by
  have hck : c.k.toNat = pt.k := by rw [← hr.clusters]; rfl
  have hm : autoModel st.lib st.simple ∈ a.kind.models st := by rw [hk]; exact List.mem_singleton.2 rfl
  obtain ⟨row, r1, -, r3, -⟩ := autoTable_rows (lib := st.lib) (forecast := st.forecast) (hr.setup hw ht) st.simple
    ht.auto ht.fit (ht.forecasts _ hm) ht.small st.junk ht.root (tools.distances a.region)
    a.plots (fun hp => hplot hp _ hm)
  have hrow : ∀ i < pt.k, ∃ m, medoids[i]? = some m := fun i hi =>
    ⟨_, List.getElem?_eq_getElem (by rw [hr.count]; exact hi)⟩
  have e1 : studyTable tools st a s c pt medoids = (autoHeader :: timedRows (AutoRow.cells st.show3 st.showAic) (st.time c)
      ((List.range pt.k).map row), none) := by
    unfold studyTable
    rw [hk]
    simp only [hck, r1 pt.k (Nat.le_refl _)]
  have hread : ∀ cells ∈ autoHeader :: timedRows (AutoRow.cells st.show3 st.showAic) (st.time c) ((List.range pt.k).map row),
      ∀ fd ∈ cells, Readable fd := by
    intro cells hcells fd hfd
    rcases List.mem_cons.1 hcells with rfl | hcells
    · exact autoHeader_readable fd hfd
    · obtain ⟨j, hj, rfl⟩ := List.mem_mapIdx.1 hcells
      have hmem := List.getElem_mem hj
      generalize ((List.range pt.k).map row)[j] = r at hmem hfd
      obtain ⟨i, hi, rfl⟩ := List.mem_map.1 hmem
      have hi := List.mem_range.1 hi
      obtain ⟨m, hm⟩ := hrow i hi
      obtain ⟨q1, q2, q3⟩ := r3 i m hm
      obtain ⟨past, hp⟩ := ErrorSetup.pastOf (hr.setup hw ht) (hr.member i m hm)
      have hso : SmallOrder (row i).order := by
        rw [(q3 past hp).1]
        cases hmod : autoModel st.lib st.simple past with
        | none => show SmallOrder ⟨-1, -1, -1⟩; unfold SmallOrder; decide
        | some model => exact ht.small past model hmod
      have hsz := q2.size_le
      have hfl := (C118_bounds q2).1
      have hsm := hr.small hw
      have hkk := clusters_le hr.count hr.member
      obtain ⟨o1, o2, o3, o4, o5, o6⟩ := hso
      rw [AutoRow.cells, q1] at hfd
      simp only [List.mem_cons, List.not_mem_nil, or_false] at hfd
      rcases hfd with rfl | rfl | rfl | rfl | rfl | rfl | rfl | rfl | rfl | rfl | rfl | rfl | rfl | rfl
      · exact natStr_readable_short (by omega)
      · exact natStr_readable_short (by omega)
      · exact intStr_readable_short (by omega)
      · exact intStr_readable_short (by omega)
      · exact intStr_readable_short (by omega)
      · exact hx.aic _
      · exact natStr_readable_short (by omega)
      · exact (hx.time _ _).1
      · exact (hx.time _ _).2
      · exact hx.val _
      · exact hx.min _
      · exact hx.val _
      · exact hx.val _
      · exact hx.max _
  refine ⟨_, e1, hread, timedRows (AutoRow.cells st.show3 st.showAic) (st.time c) ((List.range pt.k).map row), ?_, ?_, ?_⟩
  · rw [C132_round_trip _ hread]
    rfl
  · simp [timedRows]
  · intro i m hm
    obtain ⟨q1, q2, q3⟩ := r3 i m hm
    have hi : i < pt.k := by rw [← hr.count]; exact (List.getElem?_eq_some_iff.1 hm).1
    refine ⟨(row i).order.p, (row i).order.d, (row i).order.q, (row i).aic, _, _, _, ?_, q2, ?_⟩
    · rw [timedRows, List.getElem?_mapIdx, List.getElem?_map, List.getElem?_range hi, Option.map_some, Option.map_some,
        AutoRow.cells, q1]
      rfl
    · intro past hp
      obtain ⟨e2, e3⟩ := q3 past hp
      rw [e2, e3]
      cases autoModel st.lib st.simple past <;> exact ⟨rfl, rfl⟩

theorem table_text {a : TableArgs} {s : Stack K} {f : ErrorFun K} {c : ClusterMeta} (hw : StudyReady w tools a.region s)
    (ht : TableReady st a s f) (hx : st.GoodTexts a) {pt : Partition} {medoids : List Point}
    (hr : PartitionReady w a.region s c pt medoids)
    (hplot : a.plots = true → ∀ want ∈ a.kind.models st, CanPlot (tools.distances a.region) s pt medoids want) :
    ∃ rows, studyTable tools st a s c pt medoids = (rows, none) ∧
      (∀ cells ∈ rows, ∀ fd ∈ cells, Readable fd) ∧ TableText st f s c pt medoids a.kind (csvWrite rows) := by
  unfold TableText
  cases hk : a.kind with
  | orders name orders => exact orders_text hw ht hx hr hk hplot
  | auto => exact auto_text hw ht hx hr hk hplot

/-! ### Paths -/

theorem tableRun_good (hc : GoodCatalogue regions) {a : TableArgs} (ha : a.Accepted regions) {c : ClusterMeta}
    (hp : PlainClustering c) : ErrorRun.Good ⟨a.region, .dtw, c, a.kind.run, a.errorType⟩ := by
  have h := errorArgs_good hc ha.error hp
  refine ⟨h.1, ?_, h.2⟩
  intro name e
  have e : a.kind.run = .suite name := e
  cases hk : a.kind with
  | orders name' orders =>
    rw [hk] at e
    cases e
    exact ha.2.2.2 _ _ hk
  | auto => rw [hk] at e; cases e

theorem tablePath_eq {r : ErrorRun} (h : r.Good) : r.tablePath sOutputs =
    (osJoin (osJoin sOutputs r.md.repr) (osJoin r.dist.repr r.clustering.repr) ++ '/' :: r.kind.subdir) ++
      '/' :: tableName r := by
  have p1 := ErrorRunKind.subdir_file h.suite
  have : r.tablePath sOutputs = osJoin (r.outputDir sOutputs) (tableName r) := rfl
  rw [this, ErrorRun.outputDir, osJoin_file (subdir_dir outputs_dir r.dist h.names) p1,
    osJoin_file p1.dir.join (tableName_file h)]

theorem report_ne_table {m : SolverMeta} {r : ErrorRun} (h : GoodSolver m) (h' : r.Good) :
    m.reportPath sOutputs ≠ r.tablePath sOutputs := by
  intro e
  rw [reportPath_eq h, tablePath_eq h'] at e
  obtain ⟨-, e⟩ := append_slash_inj (reportName_name h).2 (tableName_file h').2 e
  have h0 : (reportName m)[0]? = some 'c' := rfl
  have h1 : (tableName r)[0]? = some 'e' := rfl
  rw [e, h1] at h0
  exact absurd h0 (by decide)

theorem table_disjoint (hc : GoodCatalogue regions) {a : TableArgs} (ha : a.Accepted regions) {c c' : ClusterMeta}
    (hp : PlainClustering c) (hp' : PlainClustering c') {path : Str} (h : TablePath a c path)
    (h' : TablePath a c' path) : c = c' := by
  have g := errorArgs_good hc ha.error hp
  have g' := errorArgs_good hc ha.error hp'
  have r := tableRun_good hc ha hp
  have r' := tableRun_good hc ha hp'
  refine errorArgs_same hc ha.error hp hp' ?_
  rcases h with rfl | rfl <;> rcases h' with h' | h'
  · exact reportPath_same g g' h'
  · exact absurd h' (report_ne_table g r')
  · exact absurd h'.symm (report_ne_table g' r)
  · exact ((C118_files outputs_dir r r').1 h').1

theorem tableStep_ok (hc : GoodCatalogue regions) {a : TableArgs} (ha : a.Accepted regions) {c : ClusterMeta}
    (hp : PlainClustering c) {s : Stack K} {f : ErrorFun K} (hw : StudyReady w tools a.region s)
    (ht : TableReady st a s f) (hx : st.GoodTexts a) {pt : Partition} {medoids : List Point}
    (hr : PartitionReady w a.region s c pt medoids)
    (hplot : a.plots = true → ∀ want ∈ a.kind.models st, CanPlot (tools.distances a.region) s pt medoids want)
    {fs : LabFiles K M} (hg : GoodPartitions w regions fs.1) :
    ∃ fs', tableStep w tools st a s c fs = (.ok (), fs') ∧ GoodPartitions w regions fs'.1 ∧
      TableFiles tools st a s f c pt medoids fs'.2 ∧ ∀ path, ¬ TablePath a c path → fs'.2 path = fs.2 path := by
  obtain ⟨store, text, h1, h2, h3⟩ := clusterStep_text (a := a.error) hc ha.error hp hw.matrix hw.one hr.partition
    hr.valid (hr.small hw) hr.count hr.member hr.clusters hg
  obtain ⟨rows, k1, -, k2⟩ := table_text hw ht hx hr hplot
  obtain ⟨cl, l1, -⟩ := stacksWithMedoids_ok (s := s) hr.count
  have hne := report_ne_table (errorArgs_good hc ha.error hp) (tableRun_good hc ha hp)
  refine ⟨(store, Function.update (Function.update fs.2 ((a.error.metadata c).reportPath sOutputs) (some text))
    (a.path c) (some (csvWrite rows))), ?_, h2, ⟨⟨text, ?_, h3⟩, ⟨_, ?_, k2⟩⟩, ?_⟩
  · unfold tableStep
    rw [h1]
    simp only
    rw [if_neg (by rintro ⟨-, h⟩; exact h hr.shape), l1]
    simp only [k1]
  · exact (Function.update_of_ne hne _ _).trans (Function.update_self ..)
  · exact Function.update_self ..
  · intro path hpath
    have n1 : path ≠ (a.error.metadata c).reportPath sOutputs := fun e => hpath (.inl e)
    have n2 : path ≠ a.path c := fun e => hpath (.inr e)
    exact (Function.update_of_ne n2 _ _).trans (Function.update_of_ne n1 _ _)

theorem tableLoop_ok (hc : GoodCatalogue regions) {a : TableArgs} (ha : a.Accepted regions) {s : Stack K}
    {f : ErrorFun K} (hw : StudyReady w tools a.region s) (ht : TableReady st a s f) (hx : st.GoodTexts a)
    {pre : List ClusterMeta} (hp : ∀ c ∈ pre, PlainClustering c)
    (hr : ∀ c ∈ pre, ∃ pt medoids, PartitionReady w a.region s c pt medoids ∧
      (a.plots = true → ∀ want ∈ a.kind.models st, CanPlot (tools.distances a.region) s pt medoids want))
    (fs : LabFiles K M) (hg : GoodPartitions w regions fs.1) :
    ∃ fs', suiteLoop (tableStep w tools st a s) pre fs = (.ok (), fs') ∧ GoodPartitions w regions fs'.1 ∧
      (∀ c ∈ pre, ∀ pt medoids, w.partition a.region .dtw c = .ok (pt, medoids) →
        TableFiles tools st a s f c pt medoids fs'.2) ∧
      ∀ path, (∀ c ∈ pre, ¬ TablePath a c path) → fs'.2 path = fs.2 path := by
  refine suiteLoop_ok (proj := Prod.snd) (Good := fun fs => GoodPartitions w regions fs.1) (Own := TablePath a)
    (Files := fun c files => ∀ pt medoids, w.partition a.region .dtw c = .ok (pt, medoids) →
        TableFiles tools st a s f c pt medoids files) ?_ pre ?_ ?_ fs hg
  · intro c files files' h he pt medoids e
    obtain ⟨⟨t1, a1, b1⟩, ⟨t2, a2, b2⟩⟩ := h pt medoids e
    exact ⟨⟨t1, by rw [he _ (.inl rfl), a1], b1⟩, ⟨t2, by rw [he _ (.inr rfl), a2], b2⟩⟩
  · intro c hcm fs hg
    obtain ⟨pt, medoids, hrc, hpl⟩ := hr c hcm
    obtain ⟨fs', e1, e2, e3, e4⟩ := tableStep_ok hc ha (hp c hcm) hw ht hx hrc hpl hg
    refine ⟨fs', e1, e2, ?_, e4⟩
    intro pt' medoids' e
    rw [hrc.partition] at e
    cases e
    exact e3
  · intro c h c' h' path
    exact table_disjoint hc ha (hp c h) (hp c' h')

/-- **C144** (tables): after any session of all programs, a run of one of the two programs that train ARIMA models in
clusters succeeds, for a suite of orders and for auto-ARIMA, if all clusterings of the suite can be computed. For every
clustering there are then the report of the partition and the table; the other files are as before. With plots, a model
is needed at every medoid. -/
theorem C144_tables (hc : GoodCatalogue regions) (hl : dnn.GoodLabels) {session : List StudyRun}
    (hs : ∀ c ∈ session, c.Accepted regions) {a : TableArgs} (ha : a.Accepted regions) {s : Stack K}
    {f : ErrorFun K} (hw : StudyReady w tools a.region s) (ht : TableReady st a s f) (hx : st.GoodTexts a)
    (hr : ∀ c ∈ a.suite, ∃ pt medoids, PartitionReady w a.region s c pt medoids ∧
      (a.plots = true → ∀ want ∈ a.kind.models st, CanPlot (tools.distances a.region) s pt medoids want))
    (files : Str → Option Str) :
    ∃ store files', tableCommand w tools st a (studyStore w dnn tools st session, files) = (.ok (), (store, files')) ∧
      (∀ c ∈ a.suite, ∀ pt medoids, w.partition a.region .dtw c = .ok (pt, medoids) →
        TableFiles tools st a s f c pt medoids files') ∧
      ∀ path, (∀ c ∈ a.suite, ¬ TablePath a c path) → files' path = files path := by
  obtain ⟨fs', e1, -, e2, e3⟩ := tableLoop_ok hc ha hw ht hx ha.2.2.1 hr (studyStore w dnn tools st session, files)
    (studyStore_good hc hl hs)
  refine ⟨fs'.1, fs'.2, ?_, e2, e3⟩
  unfold tableCommand
  rw [hw.region, hw.matrix]
  exact e1

/-! ### Analysis -/

theorem csvWrite_append (a b : List (List Str)) : csvWrite (a ++ b) = csvWrite a ++ csvWrite b := by
  unfold csvWrite
  rw [List.map_append, List.flatten_append]

theorem analysisPath_eq (hc : GoodCatalogue regions) {a : AnalysisArgs} (ha : SuiteAccepted regions a.region a.suite) :
    a.path = (sOutputs ++ '/' :: a.region.repr) ++ '/' :: DistKind.dtw.repr ++ '/' :: a.id.analysisFile := by
  rw [AnalysisArgs.path, SuiteId.analysisPath, suiteCsvDir_eq outputs_dir (hc.1 _ ha.1)]

theorem report_ne_analysis (hc : GoodCatalogue regions) {a : AnalysisArgs} (hi : a.id.Good)
    (ha : SuiteAccepted regions a.region a.suite) {c : ClusterMeta} (hp : PlainClustering c) :
    (a.error.metadata c).reportPath sOutputs ≠ a.path := by
  have g := errorArgs_good (a := a.error) hc (ha.error fun _ h => h) hp
  intro e
  rw [reportPath_eq g, analysisPath_eq hc ha, subdir_eq outputs_dir _ g.1] at e
  obtain ⟨e, -⟩ := append_slash_inj (reportName_name g).2 (SuiteId.analysisFile_name hi).2 e
  obtain ⟨-, e⟩ := append_slash_inj g.1.repr.1 (distRepr_name .dtw).2 e
  have h0 : DistKind.dtw.repr[0]? = some 'd' := rfl
  have h1 : (c.repr)[0]? ≠ some 'd' := by
    obtain ⟨k, seed, rfl | rfl⟩ := hp
    · show some 'r' ≠ some 'd'
      decide
    · show some 'k' ≠ some 'd'
      decide
  have e : c.repr = DistKind.dtw.repr := e
  rw [e] at h1
  exact h1 h0

theorem created_wf {b : Bool} {s : Stack K} (h : CreatedRegion b s) : s.data.grid.WF := by
  cases h with
  | plain hc => exact hc.1
  | scaled hc => exact hc.1

/-- The row of a clustering whose partition is ready. -/
theorem analysis_row {a : AnalysisArgs} {s : Stack K} {d : Nat → Nat → K} (hw : StudyReady w tools a.region s)
    (hx : AnalysisReady tools st a s d) {c : ClusterMeta} (hcm : c ∈ a.suite) {pt : Partition} {medoids : List Point}
    (hr : PartitionReady w a.region s c pt medoids) :
    ∃ total text, analyzePartition st.showCost a.region.region s.data.grid (tools.distances a.region) c pt medoids =
        .ok [c.repr, st.showCost (some total), text] ∧
      OwnDistances d pt.labels.data (medoids.map fun p => p.x * s.data.grid.yLen + p.y) total ∧
      parseMedoids text = .ok (datasetPoints a.region.region medoids) ∧
      ∀ fd ∈ [c.repr, st.showCost (some total), text], Readable fd := by
  have hin : ∀ p ∈ medoids, p.x < s.data.grid.xLen ∧ p.y < s.data.grid.yLen := by
    intro p hp
    obtain ⟨i, hi⟩ := List.mem_iff_getElem?.1 hp
    have := (Grid.get_eq_ok_iff _ _ _).1 (hr.member i p hi)
    rw [hr.shape.1, hr.shape.2] at this
    exact ⟨this.1, this.2.1⟩
  obtain ⟨text, h1, h2, -⟩ := C106_partition st.showCost a.region.region s.data.grid (created_wf hw.created)
    (tools.distances a.region) c pt hr.valid hr.shape.1 hr.shape.2 medoids hr.clusters.symm hr.count
  obtain ⟨total, h3, h4⟩ := h2 d (by
    intro j l p hj hl
    obtain ⟨hpx, hpy⟩ := hin p (List.mem_of_getElem? hl)
    have hjl := (List.getElem?_eq_some_iff.1 hj).1
    have hwf : pt.labels.data.length = pt.labels.xLen * pt.labels.yLen := hr.valid.wf
    rw [hwf, hr.shape.1, hr.shape.2] at hjl
    exact hx.distances _ _ (idx_lt hpx hpy) hjl)
  refine ⟨total, text, h4, h3, h1, ?_⟩
  refine (analyzePartition_record (hx.names c hcm) hx.cost ?_ h4).2
  intro p hp
  obtain ⟨hpx, hpy⟩ := hin p hp
  have := hx.x
  have := hx.y
  omega

/-- A loop that appends to a file. -/
theorem suiteLoop_log {S : Type} {step : ClusterMeta → S → Except PyErr Unit × S} {log : S → Option Str}
    {Good : S → Prop} {row : ClusterMeta → Str} :
    ∀ (suite : List ClusterMeta), (∀ c ∈ suite, ∀ st old, Good st → log st = some old →
        ∃ st', step c st = (.ok (), st') ∧ Good st' ∧ log st' = some (old ++ row c)) → ∀ st old, Good st →
      log st = some old →
      ∃ st', suiteLoop step suite st = (.ok (), st') ∧ log st' = some (old ++ suite.flatMap row)
  | [], _, st, old, _, h => ⟨st, rfl, by simpa using h⟩
  | c :: cs, hstep, st, old, hg, h => by
    obtain ⟨st1, e1, g1, l1⟩ := hstep c (by simp) st old hg h
    obtain ⟨st2, e2, l2⟩ := suiteLoop_log cs (fun c hc => hstep c (by simp [hc])) st1 _ g1 l1
    refine ⟨st2, by rw [suiteLoop, e1]; exact e2, ?_⟩
    rw [l2, List.flatMap_cons, List.append_assoc]

theorem analysisStep_ok (hc : GoodCatalogue regions) {a : AnalysisArgs} (ha : SuiteAccepted regions a.region a.suite)
    {s : Stack K} {d : Nat → Nat → K} (hw : StudyReady w tools a.region s) (hx : AnalysisReady tools st a s d)
    {c : ClusterMeta} (hcm : c ∈ a.suite) {pt : Partition} {medoids : List Point}
    (hr : PartitionReady w a.region s c pt medoids) {row : List Str}
    (hrow : analyzePartition st.showCost a.region.region s.data.grid (tools.distances a.region) c pt medoids = .ok row)
    {fs : LabFiles K M} (hg : GoodPartitions w regions fs.1) {old : Str} (ho : fs.2 a.path = some old) :
    ∃ fs', analysisStep w tools st a c fs = (.ok (), fs') ∧ GoodPartitions w regions fs'.1 ∧
      fs'.2 a.path = some (old ++ csvWrite [row]) ∧
      (∃ text, fs'.2 ((a.error.metadata c).reportPath sOutputs) = some text ∧ ReportText tools.show1 pt text) ∧
      ∀ path, path ≠ (a.error.metadata c).reportPath sOutputs → path ≠ a.path → fs'.2 path = fs.2 path := by
  have hp := ha.2 c hcm
  obtain ⟨store, text, h1, h2, h3⟩ := clusterStep_text (a := a.error) hc (ha.error fun _ h => h) hp hw.matrix hw.one
    hr.partition hr.valid (hr.small hw) hr.count hr.member hr.clusters hg
  have hne := report_ne_analysis hc hx.suite ha hp
  have hup : Function.update fs.2 ((a.error.metadata c).reportPath sOutputs) (some text) a.path = some old := by
    rw [Function.update_of_ne hne.symm, ho]
  refine ⟨(store, appendRecord (Function.update fs.2 ((a.error.metadata c).reportPath sOutputs) (some text)) a.path row),
    ?_, h2, ?_, ⟨text, ?_, h3⟩, ?_⟩
  · unfold analysisStep
    rw [hw.region]
    simp only [h1, hrow]
  · show appendRecord _ _ _ _ = _
    rw [appendRecord, Function.update_self, hup, Option.getD_some]
  · show appendRecord _ _ _ _ = _
    rw [appendRecord, Function.update_of_ne hne, Function.update_self]
  · intro path n1 n2
    show appendRecord _ _ _ _ = _
    rw [appendRecord, Function.update_of_ne n2, Function.update_of_ne n1]

theorem analysisHeader_readable : ∀ fd ∈ ["clustering".toList, "total_cost".toList, "medoids".toList], Readable fd := by
  unfold Readable
  decide +kernel

/-- The loop over the clusterings of a suite that are ready. -/
theorem analysisLoop_ok (hc : GoodCatalogue regions) {a : AnalysisArgs} (ha : SuiteAccepted regions a.region a.suite)
    {s : Stack K} {d : Nat → Nat → K} (hw : StudyReady w tools a.region s) (hx : AnalysisReady tools st a s d)
    {pre : List ClusterMeta} (hpre : ∀ c ∈ pre, c ∈ a.suite)
    (hr : ∀ c ∈ pre, ∃ pt medoids, PartitionReady w a.region s c pt medoids) (fs : LabFiles K M)
    (hg : GoodPartitions w regions fs.1)
    (ho : fs.2 a.path = some (csvWrite [["clustering".toList, "total_cost".toList, "medoids".toList]])) :
    ∃ fs', suiteLoop (analysisStep w tools st a) pre fs = (.ok (), fs') ∧ GoodPartitions w regions fs'.1 ∧
      (∃ text, fs'.2 a.path = some text ∧ AnalysisText w st.showCost a.region s d pre text ∧
        (pre.Nodup → ∃ medoids : ClusterMeta → List Point,
          (∀ c ∈ pre, ∀ pt ms, w.partition a.region .dtw c = .ok (pt, ms) → ms = medoids c) ∧
          retrieveSuiteText (some text) =
            .ok (pre.map fun c => (c.repr, datasetPoints a.region.region (medoids c))))) ∧
      (∀ c ∈ pre, ∀ pt medoids, w.partition a.region .dtw c = .ok (pt, medoids) →
        ∃ text, fs'.2 ((a.error.metadata c).reportPath sOutputs) = some text ∧ ReportText tools.show1 pt text) ∧
      ∀ path, path ≠ a.path → (∀ c ∈ pre, path ≠ (a.error.metadata c).reportPath sOutputs) →
        fs'.2 path = fs.2 path := by
  have hea : a.error.Accepted regions := ha.error fun _ h => h
  have hex : ∀ c, ∃ (pt : Partition) (medoids : List Point) (total : K) (text : Str), c ∈ pre →
      PartitionReady w a.region s c pt medoids ∧
      analyzePartition st.showCost a.region.region s.data.grid (tools.distances a.region) c pt medoids =
        .ok [c.repr, st.showCost (some total), text] ∧
      OwnDistances d pt.labels.data (medoids.map fun p => p.x * s.data.grid.yLen + p.y) total ∧
      parseMedoids text = .ok (datasetPoints a.region.region medoids) ∧
      ∀ fd ∈ [c.repr, st.showCost (some total), text], Readable fd := by
    intro c
    by_cases hcp : c ∈ pre
    · obtain ⟨pt, medoids, h⟩ := hr c hcp
      obtain ⟨total, text, h'⟩ := analysis_row hw hx (hpre c hcp) h
      exact ⟨pt, medoids, total, text, fun _ => ⟨h, h'⟩⟩
    · exact ⟨⟨⟨0, 0, []⟩, 0, 0⟩, [], 0, [], fun h => absurd h hcp⟩
  choose pt medoids total text hall using hex
  obtain ⟨fs1, e1, l1⟩ := suiteLoop_log (step := analysisStep w tools st a) (log := fun fs => fs.2 a.path)
    (Good := fun fs => GoodPartitions w regions fs.1)
    (row := fun c => csvWrite [[c.repr, st.showCost (some (total c)), text c]]) pre (by
      intro c hcp fs old hg ho
      obtain ⟨h1, h2, -⟩ := hall c hcp
      obtain ⟨fs', a1, a2, a3, -⟩ := analysisStep_ok hc ha hw hx (hpre c hcp) h1 h2 hg ho
      exact ⟨fs', a1, a2, a3⟩) fs _ hg ho
  obtain ⟨fs2, e2, g2, r2, o2⟩ := suiteLoop_ok (step := analysisStep w tools st a)
    (proj := fun fs path => if path = a.path then none else fs.2 path)
    (Good := fun fs => GoodPartitions w regions fs.1 ∧ ∃ old, fs.2 a.path = some old)
    (Own := fun c path => path = (a.error.metadata c).reportPath sOutputs)
    (Files := fun c files => ∃ text, files ((a.error.metadata c).reportPath sOutputs) = some text ∧
      ReportText tools.show1 (pt c) text)
    (by
      rintro c files files' ⟨t, h1, h2⟩ h
      exact ⟨t, by rw [h _ rfl, h1], h2⟩) pre (by
      rintro c hcp fs ⟨hg, old, ho⟩
      obtain ⟨h1, h2, -⟩ := hall c hcp
      obtain ⟨fs', a1, a2, a3, ⟨t, a4, a5⟩, a6⟩ := analysisStep_ok hc ha hw hx (hpre c hcp) h1 h2 hg ho
      refine ⟨fs', a1, ⟨a2, _, a3⟩, ⟨t, ?_, a5⟩, ?_⟩
      · exact (if_neg (report_ne_analysis hc hx.suite ha (ha.2 c (hpre c hcp)))).trans a4
      · intro path hpath
        by_cases hpa : path = a.path
        · simp only [if_pos hpa]
        · simp only [if_neg hpa]
          exact a6 path hpath hpa) (by
      rintro c hcp c' hcp' path rfl e
      have hp := ha.2 c (hpre c hcp)
      have hp' := ha.2 c' (hpre c' hcp')
      exact errorArgs_same hc hea hp hp' (reportPath_same (errorArgs_good hc hea hp) (errorArgs_good hc hea hp') e))
    fs ⟨hg, _, ho⟩
  rw [e1] at e2
  obtain rfl : fs1 = fs2 := congrArg Prod.snd e2
  have hwhole : (pre.flatMap fun c => csvWrite [[c.repr, st.showCost (some (total c)), text c]]) =
      csvWrite (pre.map fun c => [c.repr, st.showCost (some (total c)), text c]) := by
    simp only [csvWrite, List.map_map, List.flatMap, List.map_cons, List.map_nil, List.flatten_cons, List.flatten_nil,
      List.append_nil, Function.comp_def]
  rw [hwhole, ← csvWrite_append] at l1
  set rows := ["clustering".toList, "total_cost".toList, "medoids".toList] ::
    pre.map fun c => [c.repr, st.showCost (some (total c)), text c] with hrows
  have hread : ∀ row ∈ rows, ∀ fd ∈ row, Readable fd := by
    intro row hrow
    rcases List.mem_cons.1 hrow with rfl | hrow
    · exact analysisHeader_readable
    · obtain ⟨c, hcp, rfl⟩ := List.mem_map.1 hrow
      exact (hall c hcp).2.2.2.2
  have hlen : ∀ row ∈ rows, 2 ≤ row.length := by
    intro row hrow
    rcases List.mem_cons.1 hrow with rfl | hrow
    · exact (by decide : 2 ≤ 3)
    · obtain ⟨c, hcp, rfl⟩ := List.mem_map.1 hrow
      exact (by decide : 2 ≤ 3)
  have hsame : ∀ c ∈ pre, ∀ pt' ms, w.partition a.region .dtw c = .ok (pt', ms) → pt' = pt c ∧ ms = medoids c := by
    intro c hcp pt' ms h
    rw [(hall c hcp).1.partition] at h
    cases h
    exact ⟨rfl, rfl⟩
  refine ⟨fs1, e1, g2.1, ⟨_, l1, ⟨total, text, C132_round_trip rows hread, ?_⟩, ?_⟩, ?_, ?_⟩
  · intro c hcp pt' ms h
    obtain ⟨rfl, rfl⟩ := hsame c hcp pt' ms h
    exact ⟨(hall c hcp).2.2.1, (hall c hcp).2.2.2.1⟩
  · intro hn
    refine ⟨medoids, fun c hcp pt' ms h => (hsame c hcp pt' ms h).2, ?_⟩
    have hf : csvWrite rows = fileText (rows.map csvRow) :=
      (fileText_rows rows fun row hrow e => by
        have := hlen row hrow
        rw [e] at this
        exact absurd this (by decide)).symm
    have hnr : (pre.map ClusterMeta.repr).Nodup := by
      refine List.Nodup.map_on ?_ hn
      intro c hcp c' hcp' e
      have hp := ha.2 c (hpre c hcp)
      have hp' := ha.2 c' (hpre c' hcp')
      exact errorArgs_same hc hea hp hp' ((sameSettings_iff (errorArgs_good hc hea hp).1
        (errorArgs_good hc hea hp').1).1 ⟨rfl, e⟩)
    have hrd := readSuiteRows_ok
      (pre.map fun c => (c.repr, st.showCost (some (total c)), text c, datasetPoints a.region.region (medoids c)))
      (by intro w hw; obtain ⟨c, hcp, rfl⟩ := List.mem_map.1 hw; exact (hall c hcp).2.2.2.1) []
      (by rw [List.map_map]; exact hnr)
    simp only [List.nil_append, List.map_map] at hrd
    show retrieveSuiteText (some (csvWrite rows)) = _
    rw [hf, C132_suite rows hlen hread, hrows, List.map_cons, retrieveSuiteResult, List.map_map]
    exact hrd
  · intro c hcp pt' ms h
    obtain ⟨rfl, -⟩ := hsame c hcp pt' ms h
    obtain ⟨t, h1, h2⟩ := r2 c hcp
    exact ⟨t, (if_neg (report_ne_analysis hc hx.suite ha (ha.2 c (hpre c hcp)))).symm.trans h1, h2⟩
  · intro path hpa hpath
    have := o2 path hpath
    simpa only [if_neg hpa] using this

theorem analysis_start {a : AnalysisArgs} (hw : w.matrix a.region = .ok ()) (fs : LabFiles K M) :
    analysisCommand w tools st a fs = suiteLoop (analysisStep w tools st a) a.suite
      (fs.1, Function.update fs.2 a.path (some (csvWrite [["clustering".toList, "total_cost".toList, "medoids".toList]]))) := by
  unfold analysisCommand
  rw [hw]

/-- **C144** (analysis): after any session of all programs, the analysis of a suite succeeds if all its clusterings can be
computed. The file has a row for every clustering, with the total of the distances from the medoids; what is read back
from it are the clusterings with their medoids. The reports of the partitions are written; the other files are as
before. -/
theorem C144_analysis (hc : GoodCatalogue regions) (hl : dnn.GoodLabels) {session : List StudyRun}
    (hs : ∀ c ∈ session, c.Accepted regions) {a : AnalysisArgs} (ha : SuiteAccepted regions a.region a.suite)
    {s : Stack K} {d : Nat → Nat → K} (hw : StudyReady w tools a.region s) (hx : AnalysisReady tools st a s d)
    (hr : ∀ c ∈ a.suite, ∃ pt medoids, PartitionReady w a.region s c pt medoids) (files : Str → Option Str) :
    ∃ store files', analysisCommand w tools st a (studyStore w dnn tools st session, files) =
        (.ok (), (store, files')) ∧
      (∃ text, files' (a.id.analysisPath "outputs".toList a.region .dtw) = some text ∧
        AnalysisText w st.showCost a.region s d a.suite text ∧
        (a.suite.Nodup → ∃ medoids : ClusterMeta → List Point,
          (∀ c ∈ a.suite, ∀ pt ms, w.partition a.region .dtw c = .ok (pt, ms) → ms = medoids c) ∧
          retrieveSuiteText (some text) =
            .ok (a.suite.map fun c => (c.repr, datasetPoints a.region.region (medoids c))))) ∧
      (∀ c ∈ a.suite, ∀ pt medoids, w.partition a.region .dtw c = .ok (pt, medoids) →
        ∃ text, files' ((a.error.metadata c).reportPath "outputs".toList) = some text ∧
          ReportText tools.show1 pt text) ∧
      ∀ path, path ≠ a.id.analysisPath "outputs".toList a.region .dtw →
        (∀ c ∈ a.suite, path ≠ (a.error.metadata c).reportPath "outputs".toList) → files' path = files path := by
  obtain ⟨fs', e1, -, e2, e3, e4⟩ := analysisLoop_ok hc ha hw hx (fun _ h => h) hr
    (studyStore w dnn tools st session, Function.update files a.path
      (some (csvWrite [["clustering".toList, "total_cost".toList, "medoids".toList]])))
    (studyStore_good hc hl hs) (Function.update_self ..)
  refine ⟨fs'.1, fs'.2, ?_, e2, e3, ?_⟩
  · rw [analysis_start hw.matrix]
    exact e1
  · intro path h1 h2
    rw [e4 path h1 h2]
    exact Function.update_of_ne h1 _ _

/-! ### Distances between medoids -/

theorem medoidPath_eq (hc : GoodCatalogue regions) {md : RegionMeta} {suite : List ClusterMeta}
    (ha : SuiteAccepted regions md suite) {c : ClusterMeta} (hp : PlainClustering c) :
    medoidDistancesPath md c =
      osJoin (osJoin sOutputs md.repr) (osJoin DistKind.dtw.repr c.repr) ++ '/' :: "medoid_distances.csv".toList :=
  osJoin_file (subdir_dir outputs_dir _ (errorArgs_good (a := ⟨md, suite, 8, "sMAPE".toList⟩) hc
    (ha.error fun _ h => h) hp).1) (by unfold FileName; decide)

theorem medoidPath_same (hc : GoodCatalogue regions) {md : RegionMeta} {suite : List ClusterMeta}
    (ha : SuiteAccepted regions md suite) {c c' : ClusterMeta} (hp : PlainClustering c) (hp' : PlainClustering c')
    (e : medoidDistancesPath md c = medoidDistancesPath md c') : c = c' := by
  have hea := ha.error (suite' := suite) fun _ h => h
  rw [medoidPath_eq hc ha hp, medoidPath_eq hc ha hp'] at e
  have e := List.append_cancel_right e
  exact errorArgs_same hc hea hp hp'
    ((subdir_inj outputs_dir (errorArgs_good hc hea hp).1 (errorArgs_good hc hea hp').1).1 e)

theorem medoid_text {md : RegionMeta} {s : Stack K} (hw : StudyReady w tools md s) (ht : ∀ v, Readable (tools.showDistance v))
    {d : Point → Point → Option K}
    (hd : ∀ p q : Point, p.x < s.data.grid.xLen → p.y < s.data.grid.yLen → q.x < s.data.grid.xLen →
      q.y < s.data.grid.yLen → (tools.distances md).get ⟨p.x * s.data.grid.yLen + p.y,
        q.x * s.data.grid.yLen + q.y⟩ = .ok (d p q)) {c : ClusterMeta} {pt : Partition} {medoids : List Point}
    (hr : PartitionReady w md s c pt medoids) :
    ∃ lines, medoidDistancesFile tools.showDistance (tools.distances md) s.data.grid.yLen c.k.toNat medoids = .ok lines ∧
      MedoidText tools.showDistance d medoids (fileText lines) := by
  have hck : medoids.length = c.k.toNat := by rw [← hr.clusters, hr.count]; rfl
  have hin : ∀ p ∈ medoids, p.x < s.data.grid.xLen ∧ p.y < s.data.grid.yLen := by
    intro p hp
    obtain ⟨i, hi⟩ := List.mem_iff_getElem?.1 hp
    have := (Grid.get_eq_ok_iff _ _ _).1 (hr.member i p hi)
    rw [hr.shape.1, hr.shape.2] at this
    exact ⟨this.1, this.2.1⟩
  have hrow := medoidDistanceRow_eq (m := tools.distances md) (yLen := s.data.grid.yLen) hck (d := d) (by
    intro p hp q hq
    exact hd p q (hin p hp).1 (hin p hp).2 (hin q hq).1 (hin q hq).2)
  have hsmall : medoids.length < 10 ^ 9 := by
    rw [hr.count]
    exact lt_of_le_of_lt (clusters_le hr.count hr.member) (hr.small hw)
  set rows := (['k'] :: (List.range medoids.length).map natStr) ::
    medoids.mapIdx (fun i p => natStr i :: medoids.map fun q => tools.showDistance (d p q)) with hrows
  have hpos : medoids ≠ [] := by
    rintro rfl
    have := hr.valid.pos
    rw [← hr.count] at this
    exact absurd this (by decide)
  refine ⟨rows.map csvRow, ?_, ?_⟩
  · rw [medoidDistancesFile, mapM_ok _ _ _ hrow, hrows, List.map_cons, ← hck]
    simp only
    congr 2
    rw [List.zipWith_map_right, List.zipWith_self]
    apply List.ext_getElem?
    intro i
    rw [List.getElem?_map, List.getElem?_map, List.getElem?_mapIdx]
    by_cases hi : i < medoids.length
    · simp [hi, Function.comp_def]
    · simp [hi]
  · unfold MedoidText
    rw [fileText_rows]
    · refine C132_round_trip rows ?_
      intro row hrow' fd hfd
      rcases List.mem_cons.1 hrow' with rfl | hrow'
      · rcases List.mem_cons.1 hfd with rfl | hfd
        · unfold Readable; decide
        · obtain ⟨i, hi, rfl⟩ := List.mem_map.1 hfd
          exact natStr_readable_short (by have := List.mem_range.1 hi; omega)
      · obtain ⟨i, hi, rfl⟩ := List.mem_mapIdx.1 hrow'
        rcases List.mem_cons.1 hfd with rfl | hfd
        · exact natStr_readable_short (by omega)
        · obtain ⟨q, -, rfl⟩ := List.mem_map.1 hfd
          exact ht _
    · intro row hrow' e
      have hl : 2 ≤ row.length := by
        have hp : 0 < medoids.length := List.length_pos_of_ne_nil hpos
        rcases List.mem_cons.1 hrow' with rfl | hrow'
        · simp; omega
        · obtain ⟨i, hi, rfl⟩ := List.mem_mapIdx.1 hrow'
          simp; omega
      rw [e] at hl
      exact absurd hl (by decide)

theorem medoidStep_ok {md : RegionMeta} {s : Stack K} (hw : StudyReady w tools md s)
    (ht : ∀ v, Readable (tools.showDistance v)) {d : Point → Point → Option K}
    (hd : ∀ p q : Point, p.x < s.data.grid.xLen → p.y < s.data.grid.yLen → q.x < s.data.grid.xLen →
      q.y < s.data.grid.yLen → (tools.distances md).get ⟨p.x * s.data.grid.yLen + p.y,
        q.x * s.data.grid.yLen + q.y⟩ = .ok (d p q)) {c : ClusterMeta} {pt : Partition} {medoids : List Point}
    (hr : PartitionReady w md s c pt medoids) (files : Str → Option Str) :
    ∃ text, medoidStep w tools md s c files = (.ok (), Function.update files (medoidDistancesPath md c) (some text)) ∧
      MedoidText tools.showDistance d medoids text := by
  obtain ⟨lines, h1, h2⟩ := medoid_text hw ht hd hr
  refine ⟨_, ?_, h2⟩
  unfold medoidStep
  rw [hr.partition]
  simp only [h1]

theorem medoidSuite_ok (hc : GoodCatalogue regions) {md : RegionMeta} {suite pre : List ClusterMeta}
    (ha : SuiteAccepted regions md suite) (hpre : ∀ c ∈ pre, c ∈ suite) {s : Stack K} (hw : StudyReady w tools md s)
    (ht : ∀ v, Readable (tools.showDistance v)) {d : Point → Point → Option K}
    (hd : ∀ p q : Point, p.x < s.data.grid.xLen → p.y < s.data.grid.yLen → q.x < s.data.grid.xLen →
      q.y < s.data.grid.yLen → (tools.distances md).get ⟨p.x * s.data.grid.yLen + p.y,
        q.x * s.data.grid.yLen + q.y⟩ = .ok (d p q))
    (hr : ∀ c ∈ pre, ∃ pt medoids, PartitionReady w md s c pt medoids) (files : Str → Option Str) :
    ∃ files', suiteLoop (medoidStep w tools md s) pre files = (.ok (), files') ∧
      (∀ c ∈ pre, ∀ pt medoids, w.partition md .dtw c = .ok (pt, medoids) →
        ∃ text, files' (medoidDistancesPath md c) = some text ∧ MedoidText tools.showDistance d medoids text) ∧
      ∀ path, (∀ c ∈ pre, path ≠ medoidDistancesPath md c) → files' path = files path := by
  obtain ⟨files', e1, -, e2, e3⟩ := suiteLoop_ok (step := medoidStep w tools md s) (proj := id) (Good := fun _ => True)
    (Own := fun c path => path = medoidDistancesPath md c)
    (Files := fun c files => ∀ pt medoids, w.partition md .dtw c = .ok (pt, medoids) →
      ∃ text, files (medoidDistancesPath md c) = some text ∧ MedoidText tools.showDistance d medoids text)
    (by
      intro c files files' h he pt medoids e
      obtain ⟨t, h1, h2⟩ := h pt medoids e
      exact ⟨t, by rw [he _ rfl, h1], h2⟩) pre (by
      intro c hcp files _
      obtain ⟨pt, medoids, hrc⟩ := hr c hcp
      obtain ⟨t, h1, h2⟩ := medoidStep_ok hw ht hd hrc files
      refine ⟨_, h1, trivial, ?_, ?_⟩
      · intro pt' medoids' e
        rw [hrc.partition] at e
        cases e
        exact ⟨t, Function.update_self .., h2⟩
      · intro path hpath
        exact Function.update_of_ne hpath _ _) (by
      rintro c hcp c' hcp' path rfl e
      exact medoidPath_same hc ha (ha.2 c (hpre c hcp)) (ha.2 c' (hpre c' hcp')) e) files trivial
  exact ⟨files', e1, e2, e3⟩

/-- **C144** (distances between medoids): the program succeeds if all the clusterings of the suite can be computed, and
writes for every clustering the distances between its medoids; the other files are as before. It does not look at pickle
files. -/
theorem C144_medoids (hc : GoodCatalogue regions) {md : RegionMeta} {suite : List ClusterMeta}
    (ha : SuiteAccepted regions md suite) {s : Stack K} (hw : StudyReady w tools md s)
    (ht : ∀ v, Readable (tools.showDistance v)) {d : Point → Point → Option K}
    (hd : ∀ p q : Point, p.x < s.data.grid.xLen → p.y < s.data.grid.yLen → q.x < s.data.grid.xLen →
      q.y < s.data.grid.yLen → (tools.distances md).get ⟨p.x * s.data.grid.yLen + p.y,
        q.x * s.data.grid.yLen + q.y⟩ = .ok (d p q))
    (hr : ∀ c ∈ suite, ∃ pt medoids, PartitionReady w md s c pt medoids) (files : Str → Option Str) :
    ∃ files', medoidCommand w tools md suite files = (.ok (), files') ∧
      (∀ c ∈ suite, ∀ pt medoids, w.partition md .dtw c = .ok (pt, medoids) →
        ∃ text, files' (medoidDistancesPath md c) = some text ∧ MedoidText tools.showDistance d medoids text) ∧
      ∀ path, (∀ c ∈ suite, path ≠ medoidDistancesPath md c) → files' path = files path := by
  obtain ⟨files', e1, e2, e3⟩ := medoidSuite_ok hc ha (fun _ h => h) hw ht hd hr files
  refine ⟨files', ?_, e2, e3⟩
  unfold medoidCommand
  rw [hw.region, hw.matrix]
  exact e1

/-! ### Elbows -/

theorem savedPartitions_fst (hc : GoodCatalogue regions) {md : RegionMeta} (hmd : md ∈ regions) :
    ∀ (suite : List ClusterMeta) (d : List (ClusterMeta × Partition × List Point))
      (store : SolverStore K M (Partition × List Point)), (∀ c ∈ suite, PlainClustering c) →
      GoodPartitions w regions store →
      (savedPartitions w md suite d store).1 = allPartitions (w.partition md .dtw) suite d
  | [], d, store, _, _ => rfl
  | c :: cs, d, store, h, hg => by
    obtain ⟨t, ht, hacc⟩ := plain_training (a := ⟨md, [], 8, "sMAPE".toList⟩)
      (SuiteAccepted.error (suite := []) (suite' := []) ⟨hmd, by simp⟩ (by simp)) (h c (by simp))
    have hfst := partitionOf_fst hg hacc false
    have hgood := partitionOf_good hc hg hacc false
    rw [ht] at hfst hgood
    have hfst' : (partitionOf w.compute ((⟨md, [], 8, "sMAPE".toList⟩ : ErrorArgs).metadata c) false store).1 =
      w.partition md .dtw c := hfst
    unfold savedPartitions allPartitions
    rw [← hfst']
    generalize partitionOf w.compute _ false store = r at hgood
    obtain ⟨r1, store'⟩ := r
    cases r1 with
    | error e => rfl
    | ok p => exact savedPartitions_fst hc hmd cs _ _ (fun c hc => h c (by simp [hc])) hgood

/-- **C144** (elbows): after any session of all programs, what is printed about the elbows of a suite is what the
partitions computed afresh give; so C124 holds after any session. -/
theorem C144_elbows (hc : GoodCatalogue regions) (hl : dnn.GoodLabels) {session : List StudyRun}
    (hs : ∀ c ∈ session, c.Accepted regions) {md : RegionMeta} {suite : List ClusterMeta}
    (ha : SuiteAccepted regions md suite) {s : Stack K} (hw : StudyReady w tools md s) :
    (elbowCommand w tools md suite (studyStore w dnn tools st session)).1 =
      findElbowsProgram (w.partition md .dtw) s.data.grid (tools.distances md) suite := by
  have h := savedPartitions_fst hc ha.1 suite [] _ ha.2 (studyStore_good (w := w) (tools := tools) (st := st) hc hl hs)
  unfold elbowCommand findElbowsProgram calculateElbows
  rw [hw.region, hw.matrix, ← h]
  simp only
  generalize savedPartitions w md suite [] (studyStore w dnn tools st session) = r
  obtain ⟨r1, store⟩ := r
  cases r1 with
  | error e => rfl
  | ok parts =>
    simp only [printedElbows]
    cases allCosts (fun q => intraClusterCost q.1 (some q.2) s.data.grid (tools.distances md)) parts [] <;> rfl

/-! ### Failures -/

/-- **C144** (failure): if a clustering of the suite fails, the programs end with its error. The files of the clusterings
before it are complete, the analysis has exactly these clusterings, and no other file is written. -/
theorem C144_failed (hc : GoodCatalogue regions) (hl : dnn.GoodLabels) {session : List StudyRun}
    (hs : ∀ c ∈ session, c.Accepted regions) {md : RegionMeta} {suite pre post : List ClusterMeta} {c : ClusterMeta}
    (ha : SuiteAccepted regions md suite) (hsuite : suite = pre ++ c :: post) {s : Stack K}
    (hw : StudyReady w tools md s) {e : PyErr} (he : w.partition md .dtw c = .error e)
    (hr : ∀ c ∈ pre, ∃ pt medoids, PartitionReady w md s c pt medoids) (files : Str → Option Str) :
    (∀ (a : TableArgs) (f : ErrorFun K), a.Accepted regions → a.region = md → a.suite = suite → TableReady st a s f →
      st.GoodTexts a → (a.plots = true → ∀ c ∈ pre, ∀ pt medoids, w.partition md .dtw c = .ok (pt, medoids) →
        ∀ want ∈ a.kind.models st, CanPlot (tools.distances md) s pt medoids want) →
      ∃ store files', tableCommand w tools st a (studyStore w dnn tools st session, files) =
          (.error e, (store, files')) ∧
        (∀ c ∈ pre, ∀ pt medoids, w.partition md .dtw c = .ok (pt, medoids) →
          TableFiles tools st a s f c pt medoids files') ∧
        ∀ path, (∀ c ∈ pre, ¬ TablePath a c path) → files' path = files path) ∧
    (∀ (a : AnalysisArgs) (d : Nat → Nat → K), a.region = md → a.suite = suite → AnalysisReady tools st a s d →
      ∃ store files', analysisCommand w tools st a (studyStore w dnn tools st session, files) =
          (.error e, (store, files')) ∧
        (∃ text, files' (a.id.analysisPath "outputs".toList md .dtw) = some text ∧
          AnalysisText w st.showCost md s d pre text) ∧
        ∀ path, path ≠ a.id.analysisPath "outputs".toList md .dtw →
          (∀ c ∈ pre, path ≠ (a.error.metadata c).reportPath "outputs".toList) → files' path = files path) ∧
    (∀ d : Point → Point → Option K, (∀ v, Readable (tools.showDistance v)) →
      (∀ p q : Point, p.x < s.data.grid.xLen → p.y < s.data.grid.yLen → q.x < s.data.grid.xLen →
        q.y < s.data.grid.yLen → (tools.distances md).get ⟨p.x * s.data.grid.yLen + p.y,
          q.x * s.data.grid.yLen + q.y⟩ = .ok (d p q)) →
      ∃ files', medoidCommand w tools md suite files = (.error e, files') ∧
        (∀ c ∈ pre, ∀ pt medoids, w.partition md .dtw c = .ok (pt, medoids) →
          ∃ text, files' (medoidDistancesPath md c) = some text ∧ MedoidText tools.showDistance d medoids text) ∧
        ∀ path, (∀ c ∈ pre, path ≠ medoidDistancesPath md c) → files' path = files path) ∧
    (elbowCommand w tools md suite (studyStore w dnn tools st session)).1 = .error e := by
  have hg : GoodPartitions w regions (studyStore w dnn tools st session) := studyStore_good hc hl hs
  have hpc : PlainClustering c := ha.2 c (by rw [hsuite]; simp)
  have hin : ∀ c' ∈ pre, c' ∈ suite := fun c' h => by rw [hsuite]; simp [h]
  refine ⟨?_, ?_, ?_, ?_⟩
  · rintro a f hacc rfl hsa ht hx hplot
    obtain ⟨fs1, a1, a2, a3, a4⟩ := tableLoop_ok hc hacc hw ht hx (fun c' h => ha.2 c' (hin c' h)) (by
      intro c' h
      obtain ⟨pt, medoids, hrc⟩ := hr c' h
      exact ⟨pt, medoids, hrc, fun hp => hplot hp c' h pt medoids hrc.partition⟩)
      (studyStore w dnn tools st session, files) hg
    refine ⟨fs1.1, fs1.2, ?_, a3, a4⟩
    unfold tableCommand
    rw [hw.region, hw.matrix]
    simp only
    rw [hsa, hsuite, suiteLoop_append pre (c :: post) _ _ a1, suiteLoop]
    unfold tableStep
    rw [clusterStep_failed hacc.error hpc hw.matrix he a2]
  · rintro a d rfl hsa hx
    have ha' : SuiteAccepted regions a.region a.suite := by rw [hsa]; exact ha
    obtain ⟨fs1, a1, a2, ⟨t, a3, a4, -⟩, -, a6⟩ := analysisLoop_ok (pre := pre) hc ha' hw hx
      (fun c' h => by rw [hsa]; exact hin c' h) hr
      (studyStore w dnn tools st session, Function.update files a.path
        (some (csvWrite [["clustering".toList, "total_cost".toList, "medoids".toList]]))) hg (Function.update_self ..)
    refine ⟨fs1.1, fs1.2, ?_, ⟨t, a3, a4⟩, ?_⟩
    · rw [analysis_start hw.matrix, hsa, hsuite, suiteLoop_append pre (c :: post) _ _ a1, suiteLoop]
      unfold analysisStep
      rw [hw.region]
      simp only
      rw [clusterStep_failed (a := a.error) (ha'.error fun _ h => h) hpc hw.matrix he a2]
    · intro path h1 h2
      rw [a6 path h1 h2]
      exact Function.update_of_ne h1 _ _
  · intro d ht hd
    obtain ⟨files', a1, a2, a3⟩ := medoidSuite_ok hc ha hin hw ht hd hr files
    refine ⟨files', ?_, a2, a3⟩
    unfold medoidCommand
    rw [hw.region, hw.matrix]
    simp only
    rw [hsuite, suiteLoop_append pre (c :: post) _ _ a1, suiteLoop]
    unfold medoidStep
    rw [he]
  · rw [C144_elbows hc hl hs ha hw]
    unfold findElbowsProgram calculateElbows
    have hall : ∀ (pre : List ClusterMeta) (d : List (ClusterMeta × Partition × List Point)),
        (∀ c ∈ pre, ∃ p, w.partition md .dtw c = .ok p) →
        allPartitions (w.partition md .dtw) (pre ++ c :: post) d = .error e := by
      intro pre
      induction pre with
      | nil =>
        intro d _
        rw [List.nil_append, allPartitions, he]
      | cons c' cs ih =>
        intro d h
        obtain ⟨p, hp⟩ := h c' (by simp)
        rw [List.cons_append, allPartitions, hp]
        exact ih _ fun c hc => h c (by simp [hc])
    rw [hsuite, hall pre [] fun c' h => by
      obtain ⟨pt, medoids, hrc⟩ := hr c' h
      exact ⟨_, hrc.partition⟩]

/-- **C144** (suites in parts): a run of the programs with tables or of medoid_distances for two suites, one after the other,
does the same as a run for the first and then one for the second, whatever the files are; if the first run fails, so does the
run for both, with the same files. -/
theorem C144_parts (a : TableArgs) (pre post : List ClusterMeta) (fs fs' : LabFiles K M) (md : RegionMeta)
    (files files' : Str → Option Str) :
    (tableCommand w tools st { a with suite := pre } fs = (.ok (), fs') →
      tableCommand w tools st { a with suite := pre ++ post } fs = tableCommand w tools st { a with suite := post } fs') ∧
    (∀ e, tableCommand w tools st { a with suite := pre } fs = (.error e, fs') →
      tableCommand w tools st { a with suite := pre ++ post } fs = (.error e, fs')) ∧
    (medoidCommand w tools md pre files = (.ok (), files') →
      medoidCommand w tools md (pre ++ post) files = medoidCommand w tools md post files') ∧
    ∀ e, medoidCommand w tools md pre files = (.error e, files') →
      medoidCommand w tools md (pre ++ post) files = (.error e, files') := by
  refine ⟨?_, ?_, ?_, ?_⟩
  · unfold tableCommand
    simp only
    cases w.region a.region with
    | error e => simp
    | ok s => cases w.matrix a.region with
      | error e => simp
      | ok u => exact fun h => suiteLoop_append (step := tableStep w tools st a s) pre post fs fs' h
  · unfold tableCommand
    simp only
    cases w.region a.region with
    | error e => simp
    | ok s => cases w.matrix a.region with
      | error e => simp
      | ok u => exact fun e h => suiteLoop_stops (step := tableStep w tools st a s) pre post fs fs' h
  · unfold medoidCommand
    cases w.region md with
    | error e => simp
    | ok s => cases w.matrix md with
      | error e => simp
      | ok u => exact fun h => suiteLoop_append pre post files files' h
  · unfold medoidCommand
    cases w.region md with
    | error e => simp
    | ok s => cases w.matrix md with
      | error e => simp
      | ok u => exact fun e h => suiteLoop_stops pre post files files' h

/-- **C144** (missing model): with plots, the two programs need a model at every medoid. If none can be fitted at the first medoid
of the first clustering, the program ends with AttributeError: its table has the header and a single row. -/
theorem C144_missing_model (hc : GoodCatalogue regions) (hl : dnn.GoodLabels) {session : List StudyRun}
    (hs : ∀ c ∈ session, c.Accepted regions) {a : TableArgs} (ha : a.Accepted regions) {s : Stack K}
    {f : ErrorFun K} (hw : StudyReady w tools a.region s) (ht : TableReady st a s f) (hx : st.GoodTexts a)
    {name : Str} {o : PDQ} {orders : List PDQ} (hk : a.kind = .orders name (o :: orders)) (hplots : a.plots = true)
    {c : ClusterMeta} {rest : List ClusterMeta} (hsuite : a.suite = c :: rest) {pt : Partition} {medoids : List Point}
    (hr : PartitionReady w a.region s c pt medoids) {m : Point} (hm : medoids[0]? = some m)
    (hd : ∀ p, pt.labels.get p = .ok 0 → ∃ d, (tools.distances a.region).get
      ⟨m.x * s.data.grid.yLen + m.y, p.x * s.data.grid.yLen + p.y⟩ = .ok d)
    {past : List (Option K)} (hp : PastOf s 8 m past) (hmodel : pdqModel st.lib o past = none)
    (files : Str → Option Str) :
    ∃ store files', tableCommand w tools st a (studyStore w dnn tools st session, files) =
        (.error .attributeError, (store, files')) ∧
      (∃ text, files' ((a.error.metadata c).reportPath "outputs".toList) = some text ∧
        ReportText tools.show1 pt text) ∧
      (∃ text header size failed errors,
        files' (ErrorRun.tablePath ⟨a.region, .dtw, c, a.kind.run, a.errorType⟩ "outputs".toList) = some text ∧
        csvReadText text = ([header, [natStr 0, natStr size, intStr o.p, intStr o.d, intStr o.q, natStr failed,
          (st.time c 0).1, (st.time c 0).2] ++ errorCells st.show3 errors], none) ∧
        ClusterReport st.forecast f s 8 pt (pdqModel st.lib o) 0 m size failed errors) ∧
      ∀ path, ¬ TablePath a c path → files' path = files path := by
  have hpc : PlainClustering c := ha.2.2.1 c (by rw [hsuite]; simp)
  have hg : GoodPartitions w regions ((studyStore w dnn tools st session, files) : LabFiles K M).1 :=
    studyStore_good hc hl hs
  obtain ⟨store, text, h1, h2, h3⟩ := clusterStep_text (a := a.error) hc ha.error hpc hw.matrix hw.one hr.partition
    hr.valid (hr.small hw) hr.count hr.member hr.clusters hg
  have hpos : 0 < pt.k := by rw [← hr.count]; exact (List.getElem?_eq_some_iff.1 hm).1
  have hck : c.k.toNat = (pt.k - 1) + 1 := by
    have : c.k.toNat = pt.k := by rw [← hr.clusters]; rfl
    omega
  have hmodels : a.kind.models st = (o :: orders).map (pdqModel st.lib) := by rw [hk]; rfl
  obtain ⟨row, k1, k2, k3, k4⟩ := C119_missing_refuted (lib := st.lib) (forecast := st.forecast) (orders := orders)
    (hr.setup hw ht) (o := o) (ht.fit o) (ht.forecasts _ (by rw [hmodels]; simp)) st.junk ht.root hm hd hp hmodel (pt.k - 1)
  have hrows : studyTable tools st a s c pt medoids =
      ([pdqHeader, row.cells st.show3 (st.time c 0).1 (st.time c 0).2], some .attributeError) := by
    unfold studyTable
    rw [hk]
    simp only [hck, hplots, k1]
    rfl
  obtain ⟨cl, l1, -⟩ := stacksWithMedoids_ok (s := s) hr.count
  have hne := report_ne_table (errorArgs_good hc ha.error hpc) (tableRun_good hc ha hpc)
  refine ⟨store, Function.update (Function.update files ((a.error.metadata c).reportPath sOutputs) (some text))
    (a.path c) (some (csvWrite [pdqHeader, row.cells st.show3 (st.time c 0).1 (st.time c 0).2])), ?_, ⟨text, ?_, h3⟩,
    ⟨_, pdqHeader, row.size, row.failed, row.errors, Function.update_self .., ?_, k4⟩, ?_⟩
  · unfold tableCommand
    rw [hw.region, hw.matrix, hsuite]
    simp only
    unfold suiteLoop tableStep
    rw [h1]
    simp only
    rw [if_neg (by rintro ⟨-, h⟩; exact h hr.shape), l1]
    simp only [hrows]
  · exact (Function.update_of_ne hne _ _).trans (Function.update_self ..)
  · rw [C132_round_trip]
    · rw [PdqRow.cells, k2, k3]
      rfl
    · intro cells hcells fd hfd
      rcases List.mem_cons.1 hcells with rfl | hcells
      · exact pdqHeader_readable fd hfd
      · obtain rfl := List.mem_singleton.1 hcells
        have hsz := k4.size_le
        have hfl := (C118_bounds k4).1
        have hsm := hr.small hw
        obtain ⟨o1, o2, o3⟩ := hx.orders name _ hk o (by simp)
        rw [PdqRow.cells, k2, k3] at hfd
        simp only [List.mem_cons, List.not_mem_nil, or_false] at hfd
        rcases hfd with rfl | rfl | rfl | rfl | rfl | rfl | rfl | rfl | rfl | rfl | rfl | rfl | rfl
        · exact natStr_readable_short (by omega)
        · exact natStr_readable_short (by omega)
        · exact intStr_readable_short o1
        · exact intStr_readable_short o2
        · exact intStr_readable_short o3
        · exact natStr_readable_short (by omega)
        · exact (hx.time _ _).1
        · exact (hx.time _ _).2
        · exact hx.val _
        · exact hx.min _
        · exact hx.val _
        · exact hx.val _
        · exact hx.max _
  · intro path hpath
    have n1 : path ≠ (a.error.metadata c).reportPath sOutputs := fun e => hpath (.inl e)
    have n2 : path ≠ a.path c := fun e => hpath (.inr e)
    exact (Function.update_of_ne n2 _ _).trans (Function.update_of_ne n1 _ _)

/-- **C144** (missing model, auto ARIMA): with plots, if auto ARIMA finds no model at the first medoid, the row of the first
cluster is written and the analysis ends. -/
theorem C144_missing_auto (hc : GoodCatalogue regions) (hl : dnn.GoodLabels) {session : List StudyRun}
    (hs : ∀ c ∈ session, c.Accepted regions) {a : TableArgs} (ha : a.Accepted regions) {s : Stack K}
    {f : ErrorFun K} (hw : StudyReady w tools a.region s) (ht : TableReady st a s f) (hx : st.GoodTexts a)
    (hk : a.kind = .auto) (hplots : a.plots = true)
    {c : ClusterMeta} {rest : List ClusterMeta} (hsuite : a.suite = c :: rest) {pt : Partition} {medoids : List Point}
    (hr : PartitionReady w a.region s c pt medoids) {m : Point} (hm : medoids[0]? = some m)
    (hd : ∀ p, pt.labels.get p = .ok 0 → ∃ d, (tools.distances a.region).get
      ⟨m.x * s.data.grid.yLen + m.y, p.x * s.data.grid.yLen + p.y⟩ = .ok d)
    {past : List (Option K)} (hp : PastOf s 8 m past) (hmodel : autoModel st.lib st.simple past = none)
    (files : Str → Option Str) :
    ∃ store files', tableCommand w tools st a (studyStore w dnn tools st session, files) =
        (.error .attributeError, (store, files')) ∧
      (∃ text, files' ((a.error.metadata c).reportPath "outputs".toList) = some text ∧
        ReportText tools.show1 pt text) ∧
      (∃ text header size failed errors,
        files' (ErrorRun.tablePath ⟨a.region, .dtw, c, a.kind.run, a.errorType⟩ "outputs".toList) = some text ∧
        csvReadText text = ([header, [natStr 0, natStr size, intStr (-1), intStr (-1), intStr (-1), st.showAic none,
          natStr failed, (st.time c 0).1, (st.time c 0).2] ++ errorCells st.show3 errors], none) ∧
        ClusterReport st.forecast f s 8 pt (autoModel st.lib st.simple) 0 m size failed errors) ∧
      ∀ path, ¬ TablePath a c path → files' path = files path := by
  have hg : GoodPartitions w regions (studyStore w dnn tools st session) := studyStore_good hc hl hs
  have hpc : PlainClustering c := ha.2.2.1 c (by rw [hsuite]; simp)
  obtain ⟨store, text, h1, -, h3⟩ := clusterStep_text hc ha.error hpc hw.matrix hw.one hr.partition
    (st := (studyStore w dnn tools st session, files))
    hr.valid (hr.small hw) hr.count hr.member hr.clusters hg
  have hpos : 0 < pt.k := by rw [← hr.count]; exact (List.getElem?_eq_some_iff.1 hm).1
  have hck : c.k.toNat = (pt.k - 1) + 1 := by
    have : c.k.toNat = pt.k := by rw [← hr.clusters]; rfl
    omega
  have hmodels : a.kind.models st = [autoModel st.lib st.simple] := by rw [hk]; rfl
  obtain ⟨row, k1, k2, k3, k5, k4⟩ := C119_missing_auto_refuted (lib := st.lib) (forecast := st.forecast)
    (hr.setup hw ht) (params := st.simple) ht.auto ht.fit (ht.forecasts _ (by rw [hmodels]; simp)) ht.small st.junk
    ht.root hm hd hp hmodel (pt.k - 1)
  have hrows : studyTable tools st a s c pt medoids =
      ([autoHeader, row.cells st.show3 st.showAic (st.time c 0).1 (st.time c 0).2], some .attributeError) := by
    unfold studyTable
    rw [hk]
    simp only [hck, hplots, k1]
    rfl
  obtain ⟨cl, l1, -⟩ := stacksWithMedoids_ok (s := s) hr.count
  have hne := report_ne_table (errorArgs_good hc ha.error hpc) (tableRun_good hc ha hpc)
  refine ⟨store, Function.update (Function.update files ((a.error.metadata c).reportPath sOutputs) (some text))
    (a.path c) (some (csvWrite [autoHeader, row.cells st.show3 st.showAic (st.time c 0).1 (st.time c 0).2])), ?_,
    ⟨text, ?_, h3⟩, ⟨_, autoHeader, row.size, row.failed, row.errors, Function.update_self .., ?_, k4⟩, ?_⟩
  · unfold tableCommand
    rw [hw.region, hw.matrix, hsuite]
    simp only
    unfold suiteLoop tableStep
    rw [h1]
    simp only
    rw [if_neg (by rintro ⟨-, h⟩; exact h hr.shape), l1]
    simp only [hrows]
  · exact (Function.update_of_ne hne _ _).trans (Function.update_self ..)
  · rw [C132_round_trip]
    · rw [AutoRow.cells, k2, k3, k5]
      rfl
    · intro cells hcells fd hfd
      rcases List.mem_cons.1 hcells with rfl | hcells
      · exact autoHeader_readable fd hfd
      · obtain rfl := List.mem_singleton.1 hcells
        have hsz := k4.size_le
        have hfl := (C118_bounds k4).1
        have hsm := hr.small hw
        have hminus : Readable (intStr (-1)) := intStr_readable_short (by decide)
        rw [AutoRow.cells, k2, k3, k5] at hfd
        simp only [List.mem_cons, List.not_mem_nil, or_false] at hfd
        rcases hfd with rfl | rfl | rfl | rfl | rfl | rfl | rfl | rfl | rfl | rfl | rfl | rfl | rfl | rfl
        · exact natStr_readable_short (by omega)
        · exact natStr_readable_short (by omega)
        · exact hminus
        · exact hminus
        · exact hminus
        · exact hx.aic _
        · exact natStr_readable_short (by omega)
        · exact (hx.time _ _).1
        · exact (hx.time _ _).2
        · exact hx.val _
        · exact hx.min _
        · exact hx.val _
        · exact hx.val _
        · exact hx.max _
  · intro path hpath
    have n1 : path ≠ (a.error.metadata c).reportPath sOutputs := fun e => hpath (.inl e)
    have n2 : path ≠ a.path c := fun e => hpath (.inr e)
    exact (Function.update_of_ne n2 _ _).trans (Function.update_of_ne n1 _ _)

theorem timedRows_take {R : Type} (cells : Str → Str → R → List Str) (time : Nat → Str × Str) (rows : List R) (n : Nat) :
    timedRows cells time (rows.take n) = (timedRows cells time rows).take n := by
  apply List.ext_getElem?
  intro i
  simp only [timedRows, List.getElem?_mapIdx, List.getElem?_take]
  split <;> simp

theorem studyTable_lost {a : TableArgs} {s : Stack K} {f : ErrorFun K} {c : ClusterMeta} (hw : StudyReady w tools a.region s)
    (ht : TableReady st a s f) (hplots : a.plots = true) {pt : Partition} {medoids : List Point}
    (hr : PartitionReady w a.region s c pt medoids)
    (hd : ∀ (i : Nat) m p, medoids[i]? = some m → pt.labels.get p = .ok i → ∃ d, (tools.distances a.region).get
      ⟨m.x * s.data.grid.yLen + m.y, p.x * s.data.grid.yLen + p.y⟩ = .ok d)
    {i j : Nat} {m : Point} {want : List (Option K) → Option L} {past : List (Option K)} (hm : medoids[i]? = some m)
    (hj : (a.kind.models st)[j]? = some want) (hp : PastOf s 8 m past) (hnone : want past = none)
    (hpre : ∀ i' j' m' want' past', i' < i ∨ i' = i ∧ j' < j → medoids[i']? = some m' →
      (a.kind.models st)[j']? = some want' → PastOf s 8 m' past' → want' past' ≠ none) :
    studyTable tools st a s c pt medoids =
      ((studyTable tools st { a with plots := false } s c pt medoids).1.take (i * (a.kind.models st).length + j + 2),
        some .attributeError) := by
  have hck : c.k.toNat = pt.k := by rw [← hr.clusters]; rfl
  have hi : i < pt.k := by rw [← hr.count]; exact (List.getElem?_eq_some_iff.1 hm).1
  unfold studyTable
  cases hk : a.kind with
  | orders name orders =>
    have hmodels : a.kind.models st = orders.map (pdqModel st.lib) := by rw [hk]; rfl
    rw [hmodels] at hj hpre
    rw [← hk, hmodels, hk]
    rw [List.getElem?_map] at hj
    obtain ⟨o, ho, rfl⟩ := Option.map_eq_some_iff.1 hj
    obtain ⟨hjl, hjo⟩ := List.getElem?_eq_some_iff.1 ho
    have hsplit : ((List.range pt.k).flatMap fun i => orders.map fun o => (i, o)) =
        (((List.range i).flatMap fun i => orders.map fun o => (i, o)) ++ (orders.take j).map fun o => (i, o)) ++
          (i, o) :: ((orders.drop (j + 1)).map (fun o => (i, o)) ++
            ((List.range (pt.k - (i + 1))).map (i + 1 + ·)).flatMap fun i => orders.map fun o => (i, o)) := by
      have e1 : List.range pt.k = List.range i ++ i :: (List.range (pt.k - (i + 1))).map (i + 1 + ·) := by
        conv_lhs => rw [show pt.k = (i + 1) + (pt.k - (i + 1)) by omega, List.range_add, List.range_succ]
        simp
      have e2 : orders = orders.take j ++ o :: orders.drop (j + 1) := by
        rw [← hjo, ← List.drop_eq_getElem_cons hjl, List.take_append_drop]
      have e3 : (orders.map fun o => (i, o)) = (orders.take j).map (fun o => (i, o)) ++
          (i, o) :: (orders.drop (j + 1)).map fun o => (i, o) := by
        conv_lhs => rw [e2]
        simp
      rw [e1, List.flatMap_append, List.flatMap_cons, e3]
      simp
    have hlost := C119_lost_orders (lib := st.lib) (forecast := st.forecast) (hr.setup hw ht) (orders := orders)
      (fun o _ v => ht.fit o v)
      (fun o ho => ht.forecasts _ (by rw [hmodels]; exact List.mem_map_of_mem ho)) st.junk ht.root hd (Nat.le_refl _) hsplit
      (by
        intro q hq m' past' h1 h2
        rcases List.mem_append.1 hq with hq | hq
        · obtain ⟨i', hi', hq⟩ := List.mem_flatMap.1 hq
          obtain ⟨o', ho', rfl⟩ := List.mem_map.1 hq
          obtain ⟨j', hj'⟩ := List.getElem?_of_mem ho'
          exact hpre i' j' m' _ past' (.inl (List.mem_range.1 hi')) h1 (by rw [List.getElem?_map, hj']; rfl) h2
        · obtain ⟨o', ho', rfl⟩ := List.mem_map.1 hq
          obtain ⟨j', hj'⟩ := List.getElem?_of_mem ho'
          rw [List.getElem?_take] at hj'
          split at hj'
          · rename_i hlt
            exact hpre i j' m' _ past' (.inr ⟨rfl, hlt⟩) h1 (by rw [List.getElem?_map, hj']; rfl) h2
          · cases hj')
      hm hp hnone
    have hlen : (((List.range i).flatMap fun i => orders.map fun o => (i, o)) ++
        (orders.take j).map fun o => (i, o)).length = i * orders.length + j := by
      simp [List.length_flatMap, Nat.min_eq_left hjl.le]
    rw [hlen] at hlost
    simp only [hck, hplots, hlost, List.length_map, timedRows_take]
    rfl
  | auto =>
    have hmodels : a.kind.models st = [autoModel st.lib st.simple] := by rw [hk]; rfl
    rw [hmodels] at hj hpre
    rw [← hk, hmodels, hk]
    obtain ⟨rfl, rfl⟩ : j = 0 ∧ autoModel st.lib st.simple = want := by
      cases j with
      | zero => exact ⟨rfl, Option.some.inj hj⟩
      | succ j => cases hj
    have hlost := C119_lost_auto (lib := st.lib) (forecast := st.forecast) (hr.setup hw ht) (params := st.simple) ht.auto
      ht.fit (ht.forecasts _ (by rw [hmodels]; simp)) ht.small st.junk ht.root hd (Nat.le_refl _) hi
      (fun i' hi' m' past' h1 h2 => hpre i' 0 m' _ past' (.inl hi') h1 rfl h2) hm hp hnone
    simp only [hck, hplots, hlost, List.length_singleton, Nat.mul_one, Nat.add_zero, timedRows_take]
    rfl

/-- **C144** (what is lost): with plots, at the first clustering, cluster and kind of model without a model at the medoid, the
program ends with AttributeError. The files of the clusterings before are complete, and so is the report of this one; its table
is the first part of the complete table, up to and with the row of the missing model. -/
theorem C144_lost (hc : GoodCatalogue regions) (hl : dnn.GoodLabels) {session : List StudyRun}
    (hs : ∀ c ∈ session, c.Accepted regions) {a : TableArgs} (ha : a.Accepted regions) {s : Stack K}
    {f : ErrorFun K} (hw : StudyReady w tools a.region s) (ht : TableReady st a s f) (hx : st.GoodTexts a)
    (hplots : a.plots = true) {pre post : List ClusterMeta} {c : ClusterMeta} (hsuite : a.suite = pre ++ c :: post)
    (hbefore : ∀ c ∈ pre, ∃ pt medoids, PartitionReady w a.region s c pt medoids ∧
      ∀ want ∈ a.kind.models st, CanPlot (tools.distances a.region) s pt medoids want)
    {pt : Partition} {medoids : List Point} (hr : PartitionReady w a.region s c pt medoids) (hnew : c ∉ pre)
    (hd : ∀ (i : Nat) m p, medoids[i]? = some m → pt.labels.get p = .ok i → ∃ d, (tools.distances a.region).get
      ⟨m.x * s.data.grid.yLen + m.y, p.x * s.data.grid.yLen + p.y⟩ = .ok d)
    {i j : Nat} {m : Point} {want : List (Option K) → Option L} {past : List (Option K)} (hm : medoids[i]? = some m)
    (hj : (a.kind.models st)[j]? = some want) (hp : PastOf s 8 m past) (hnone : want past = none)
    (hpre : ∀ i' j' m' want' past', i' < i ∨ i' = i ∧ j' < j → medoids[i']? = some m' →
      (a.kind.models st)[j']? = some want' → PastOf s 8 m' past' → want' past' ≠ none)
    (files : Str → Option Str) :
    ∃ store files', tableCommand w tools st a (studyStore w dnn tools st session, files) =
        (.error .attributeError, (store, files')) ∧
      (∀ c ∈ pre, ∀ pt medoids, w.partition a.region .dtw c = .ok (pt, medoids) →
        TableFiles tools st a s f c pt medoids files') ∧
      (∃ text, files' ((a.error.metadata c).reportPath "outputs".toList) = some text ∧ ReportText tools.show1 pt text) ∧
      (∃ full text, TableText st f s c pt medoids a.kind full ∧
        files' (ErrorRun.tablePath ⟨a.region, .dtw, c, a.kind.run, a.errorType⟩ "outputs".toList) = some text ∧
        csvReadText text = ((csvReadText full).1.take (i * (a.kind.models st).length + j + 2), none)) ∧
      ∀ path, (∀ c' ∈ pre ++ [c], ¬ TablePath a c' path) → files' path = files path := by
  have hplain : ∀ c' ∈ pre ++ [c], PlainClustering c' := by
    intro c' h
    refine ha.2.2.1 c' ?_
    rw [hsuite]
    rcases List.mem_append.1 h with h | h
    · simp [h]
    · simp [List.mem_singleton.1 h]
  have hpc := hplain c (by simp)
  obtain ⟨fs1, a1, a2, a3, a4⟩ := tableLoop_ok (pre := pre) hc ha hw ht hx (fun c' h => hplain c' (by simp [h]))
    (fun c' h => by
      obtain ⟨pt', medoids', h1, h2⟩ := hbefore c' h
      exact ⟨pt', medoids', h1, fun _ => h2⟩)
    (studyStore w dnn tools st session, files) (studyStore_good hc hl hs)
  obtain ⟨store, text, h1, -, h3⟩ := clusterStep_text (a := a.error) hc ha.error hpc hw.matrix hw.one hr.partition
    (st := fs1) hr.valid (hr.small hw) hr.count hr.member hr.clusters a2
  obtain ⟨rows, k1, k2, k3⟩ := table_text (a := { a with plots := false }) hw
    ⟨ht.enough, ht.error, ht.mase, ht.root, ht.fit, ht.auto, ht.forecasts, ht.small⟩
    ⟨hx.val, hx.min, hx.max, hx.aic, hx.time, hx.orders⟩ hr (fun h => by cases h)
  have hrows := studyTable_lost hw ht hplots hr hd hm hj hp hnone hpre
  rw [k1] at hrows
  obtain ⟨cl, l1, -⟩ := stacksWithMedoids_ok (s := s) hr.count
  have hne := report_ne_table (errorArgs_good hc ha.error hpc) (tableRun_good hc ha hpc)
  have hother : ∀ path, ¬ TablePath a c path → Function.update (Function.update fs1.2
      ((a.error.metadata c).reportPath sOutputs) (some text)) (a.path c)
      (some (csvWrite (rows.take (i * (a.kind.models st).length + j + 2)))) path = fs1.2 path := by
    intro path hpath
    have n1 : path ≠ (a.error.metadata c).reportPath sOutputs := fun e => hpath (.inl e)
    have n2 : path ≠ a.path c := fun e => hpath (.inr e)
    exact (Function.update_of_ne n2 _ _).trans (Function.update_of_ne n1 _ _)
  refine ⟨store, Function.update (Function.update fs1.2 ((a.error.metadata c).reportPath sOutputs) (some text))
    (a.path c) (some (csvWrite (rows.take (i * (a.kind.models st).length + j + 2)))), ?_, ?_, ⟨text, ?_, h3⟩,
    ⟨csvWrite rows, _, k3, Function.update_self .., ?_⟩, ?_⟩
  · unfold tableCommand
    rw [hw.region, hw.matrix, hsuite]
    simp only
    rw [suiteLoop_append pre (c :: post) _ _ a1, suiteLoop]
    unfold tableStep
    rw [h1]
    simp only
    rw [if_neg (by rintro ⟨-, h⟩; exact h hr.shape), l1]
    simp only [hrows]
  · intro c' hc' pt' medoids' e
    obtain ⟨⟨t1, b1, d1⟩, ⟨t2, b2, d2⟩⟩ := a3 c' hc' pt' medoids' e
    have hown : ∀ path, TablePath a c' path → ¬ TablePath a c path := fun path q1 q2 =>
      hnew (table_disjoint hc ha (hplain c' (by simp [hc'])) hpc q1 q2 ▸ hc')
    exact ⟨⟨t1, (hother _ (hown _ (.inl rfl))).trans b1, d1⟩, ⟨t2, (hother _ (hown _ (.inr rfl))).trans b2, d2⟩⟩
  · exact (Function.update_of_ne hne _ _).trans (Function.update_self ..)
  · rw [C132_round_trip _ k2, C132_round_trip _ fun cells h => k2 cells (List.mem_of_mem_take h)]
  · intro path hpath
    exact (hother path (hpath c (by simp))).trans (a4 path fun c' h => hpath c' (by simp [h]))

/-- **C144** (shape): a partition of another shape than that of the region is not used: the analysis ends with an
AssertionError, and there is no table for it, only its report. -/
theorem C144_shape (hc : GoodCatalogue regions) (hl : dnn.GoodLabels) {session : List StudyRun}
    (hs : ∀ c ∈ session, c.Accepted regions) {a : TableArgs} (ha : a.Accepted regions) {s : Stack K}
    (hw : StudyReady w tools a.region s)
    {c : ClusterMeta} {rest : List ClusterMeta} (hsuite : a.suite = c :: rest) {pt : Partition} {medoids : List Point}
    (hpart : w.partition a.region .dtw c = .ok (pt, medoids)) (hv : pt.Valid)
    (hsmall : pt.labels.xLen * pt.labels.yLen < 10 ^ 9) (hcount : medoids.length = pt.k)
    (hmember : ∀ i m, medoids[i]? = some m → pt.labels.get m = .ok i) (hk : (pt.k : Int) = c.k)
    (hshape : ¬ (pt.labels.xLen = s.data.grid.xLen ∧ pt.labels.yLen = s.data.grid.yLen)) (files : Str → Option Str) :
    ∃ store files', tableCommand w tools st a (studyStore w dnn tools st session, files) =
        (.error .assertionError, (store, files')) ∧
      (∃ text, files' ((a.error.metadata c).reportPath "outputs".toList) = some text ∧ ReportText tools.show1 pt text) ∧
      ∀ path, path ≠ (a.error.metadata c).reportPath "outputs".toList → files' path = files path := by
  have hg : GoodPartitions w regions (studyStore w dnn tools st session) := studyStore_good hc hl hs
  have hpc : PlainClustering c := ha.2.2.1 c (by rw [hsuite]; simp)
  obtain ⟨store, text, h1, -, h3⟩ := clusterStep_text hc ha.error hpc hw.matrix hw.one hpart
    (st := (studyStore w dnn tools st session, files)) hv hsmall hcount hmember hk hg
  refine ⟨store, Function.update files ((a.error.metadata c).reportPath sOutputs) (some text), ?_,
    ⟨text, Function.update_self .., h3⟩, fun path h => Function.update_of_ne h _ _⟩
  unfold tableCommand
  rw [hw.region, hw.matrix, hsuite]
  simp only
  unfold suiteLoop tableStep
  rw [h1]
  simp only
  rw [if_pos ⟨hv.pos.ne', hshape⟩]

/-- **C144** (shape, later): the same at any position of the suite; the files of the clusterings before are complete. -/
theorem C144_shape_later (hc : GoodCatalogue regions) (hl : dnn.GoodLabels) {session : List StudyRun}
    (hs : ∀ c ∈ session, c.Accepted regions) {a : TableArgs} (ha : a.Accepted regions) {s : Stack K}
    {f : ErrorFun K} (hw : StudyReady w tools a.region s) (ht : TableReady st a s f) (hx : st.GoodTexts a)
    {pre post : List ClusterMeta} {c : ClusterMeta} (hsuite : a.suite = pre ++ c :: post)
    (hbefore : ∀ c ∈ pre, ∃ pt medoids, PartitionReady w a.region s c pt medoids ∧
      (a.plots = true → ∀ want ∈ a.kind.models st, CanPlot (tools.distances a.region) s pt medoids want))
    {pt : Partition} {medoids : List Point}
    (hpart : w.partition a.region .dtw c = .ok (pt, medoids)) (hv : pt.Valid)
    (hsmall : pt.labels.xLen * pt.labels.yLen < 10 ^ 9) (hcount : medoids.length = pt.k)
    (hmember : ∀ i m, medoids[i]? = some m → pt.labels.get m = .ok i) (hk : (pt.k : Int) = c.k)
    (hshape : ¬ (pt.labels.xLen = s.data.grid.xLen ∧ pt.labels.yLen = s.data.grid.yLen)) (files : Str → Option Str) :
    ∃ store files', tableCommand w tools st a (studyStore w dnn tools st session, files) =
        (.error .assertionError, (store, files')) ∧
      (∀ c ∈ pre, ∀ pt medoids, w.partition a.region .dtw c = .ok (pt, medoids) →
        TableFiles tools st a s f c pt medoids files') ∧
      (∃ text, files' ((a.error.metadata c).reportPath "outputs".toList) = some text ∧ ReportText tools.show1 pt text) ∧
      ∀ path, path ≠ (a.error.metadata c).reportPath "outputs".toList → (∀ c' ∈ pre, ¬ TablePath a c' path) →
        files' path = files path := by
  have hplain : ∀ c' ∈ pre ++ [c], PlainClustering c' := by
    intro c' h
    refine ha.2.2.1 c' ?_
    rw [hsuite]
    rcases List.mem_append.1 h with h | h
    · simp [h]
    · simp [List.mem_singleton.1 h]
  have hpc := hplain c (by simp)
  obtain ⟨fs1, a1, a2, a3, a4⟩ := tableLoop_ok (pre := pre) hc ha hw ht hx (fun c' h => hplain c' (by simp [h])) hbefore
    (studyStore w dnn tools st session, files) (studyStore_good hc hl hs)
  obtain ⟨store, text, h1, -, h3⟩ := clusterStep_text (a := a.error) hc ha.error hpc hw.matrix hw.one hpart
    (st := fs1) hv hsmall hcount hmember hk a2
  have hnew : c ∉ pre := by
    intro h
    obtain ⟨pt', medoids', h', -⟩ := hbefore c h
    have := h'.partition
    rw [hpart] at this
    cases this
    exact hshape h'.shape
  refine ⟨store, Function.update fs1.2 ((a.error.metadata c).reportPath sOutputs) (some text), ?_, ?_,
    ⟨text, Function.update_self .., h3⟩, fun path h h' => (Function.update_of_ne h _ _).trans (a4 path h')⟩
  · unfold tableCommand
    rw [hw.region, hw.matrix, hsuite]
    simp only
    rw [suiteLoop_append pre (c :: post) _ _ a1, suiteLoop]
    unfold tableStep
    rw [h1]
    simp only
    rw [if_pos ⟨hv.pos.ne', hshape⟩]
  · intro c' hc' pt' medoids' e
    obtain ⟨⟨t1, b1, d1⟩, ⟨t2, b2, d2⟩⟩ := a3 c' hc' pt' medoids' e
    have hown : ∀ path, TablePath a c' path → path ≠ (a.error.metadata c).reportPath sOutputs := fun path q1 q2 =>
      hnew (table_disjoint hc ha (hplain c' (by simp [hc'])) hpc q1 (.inl q2) ▸ hc')
    exact ⟨⟨t1, (Function.update_of_ne (hown _ (.inl rfl)) _ _).trans b1, d1⟩,
      ⟨t2, (Function.update_of_ne (hown _ (.inr rfl)) _ _).trans b2, d2⟩⟩

/-- **C144** (shape, analysis): if a clustering of the suite gives a partition of another shape than the region, the analysis
ends with AssertionError; its file has exactly the clusterings before it, and its report is the last file written. -/
theorem C144_analysis_shape (hc : GoodCatalogue regions) (hl : dnn.GoodLabels) {session : List StudyRun}
    (hs : ∀ c ∈ session, c.Accepted regions) {a : AnalysisArgs} (ha : SuiteAccepted regions a.region a.suite)
    {s : Stack K} {d : Nat → Nat → K} (hw : StudyReady w tools a.region s) (hx : AnalysisReady tools st a s d)
    {pre post : List ClusterMeta} {c : ClusterMeta} (hsuite : a.suite = pre ++ c :: post)
    (hr : ∀ c ∈ pre, ∃ pt medoids, PartitionReady w a.region s c pt medoids) {pt : Partition} {medoids : List Point}
    (hpart : w.partition a.region .dtw c = .ok (pt, medoids)) (hv : pt.Valid)
    (hsmall : pt.labels.xLen * pt.labels.yLen < 10 ^ 9) (hcount : medoids.length = pt.k)
    (hmember : ∀ i m, medoids[i]? = some m → pt.labels.get m = .ok i) (hk : (pt.k : Int) = c.k)
    (hshape : ¬ (pt.labels.xLen = s.data.grid.xLen ∧ pt.labels.yLen = s.data.grid.yLen)) (files : Str → Option Str) :
    ∃ store files', analysisCommand w tools st a (studyStore w dnn tools st session, files) =
        (.error .assertionError, (store, files')) ∧
      (∃ text, files' (a.id.analysisPath "outputs".toList a.region .dtw) = some text ∧
        AnalysisText w st.showCost a.region s d pre text) ∧
      (∃ text, files' ((a.error.metadata c).reportPath "outputs".toList) = some text ∧ ReportText tools.show1 pt text) ∧
      ∀ path, path ≠ a.id.analysisPath "outputs".toList a.region .dtw →
        (∀ c' ∈ pre ++ [c], path ≠ (a.error.metadata c').reportPath "outputs".toList) → files' path = files path := by
  have hg : GoodPartitions w regions (studyStore w dnn tools st session) := studyStore_good hc hl hs
  have hpc : PlainClustering c := ha.2 c (by rw [hsuite]; simp)
  obtain ⟨fs1, a1, a2, ⟨t, a3, a4, -⟩, -, a6⟩ := analysisLoop_ok (pre := pre) hc ha hw hx
    (fun c' h => by rw [hsuite]; simp [h]) hr
    (studyStore w dnn tools st session, Function.update files a.path
      (some (csvWrite [["clustering".toList, "total_cost".toList, "medoids".toList]]))) hg (Function.update_self ..)
  obtain ⟨store, text, h1, -, h3⟩ := clusterStep_text (a := a.error) hc (ha.error fun _ h => h) hpc hw.matrix hw.one hpart
    (st := fs1) hv hsmall hcount hmember hk a2
  have hne := report_ne_analysis hc hx.suite ha hpc
  refine ⟨store, Function.update fs1.2 ((a.error.metadata c).reportPath sOutputs) (some text), ?_, ⟨t, ?_, a4⟩,
    ⟨text, Function.update_self .., h3⟩, ?_⟩
  · rw [analysis_start hw.matrix, hsuite, suiteLoop_append pre (c :: post) _ _ a1, suiteLoop]
    have herr : analyzePartition st.showCost a.region.region s.data.grid (tools.distances a.region) c pt medoids =
        .error .assertionError := by
      unfold analyzePartition Partition.createClustersWithMedoids
      obtain ⟨k, hk⟩ := Nat.exists_eq_succ_of_ne_zero hv.pos.ne'
      rw [hk, List.range_succ_eq_map, List.mapM_cons]
      have : pt.clusterWithMedoid s.data.grid medoids 0 = .error .assertionError := by
        unfold Partition.clusterWithMedoid Partition.createCluster
        rw [if_neg hshape]
      rw [this]
      rfl
    unfold analysisStep
    rw [hw.region]
    simp only [h1, herr]
  · exact (Function.update_of_ne hne.symm _ _).trans a3
  · intro path h4 h5
    exact (Function.update_of_ne (h5 c (by simp)) _ _).trans ((a6 path h4 fun c' h => h5 c' (by simp [h])).trans
      (Function.update_of_ne h4 _ _))

/-- **C144** (paths): where the tables are. -/
theorem C144_paths (hc : GoodCatalogue regions) {a : TableArgs} (ha : a.Accepted regions) {c : ClusterMeta}
    (hcm : c ∈ a.suite) :
    (∀ name orders, a.kind = .orders name orders → a.path c = "outputs/".toList ++ a.region.repr ++ "/dtw/".toList ++
      c.repr ++ "/arima-".toList ++ name ++ "/error-analysis__".toList ++ c.repr ++ "__".toList ++ name ++ "__".toList ++
      a.errorType ++ ".csv".toList) ∧
    (a.kind = .auto → a.path c = "outputs/".toList ++ a.region.repr ++ "/dtw/".toList ++ c.repr ++
      "/auto-arima-start_p1-start_q1-max_p3-max_q3-dNone-stepwiseTrue/error-analysis__".toList ++ c.repr ++
      "__auto-arima-start_p1-start_q1-max_p3-max_q3-dNone-stepwiseTrue__".toList ++ a.errorType ++ ".csv".toList) := by
  have hpc : PlainClustering c := ha.2.2.1 c hcm
  have hg := tableRun_good hc ha hpc
  have glue : ∀ {o r t c n u e v w x y o' t' n' e' : Str}, o' = o ++ ['/'] → t' = '/' :: (t ++ ['/']) → n' = '/' :: n →
      e' = '/' :: (e ++ v) →
      ((((o ++ '/' :: r) ++ '/' :: t) ++ '/' :: c) ++ '/' :: (n ++ u)) ++ '/' :: (e ++ (v ++ (c ++ (v ++ (w ++ (v ++ (x ++ y))))))) =
        o' ++ r ++ t' ++ c ++ n' ++ u ++ e' ++ c ++ v ++ w ++ v ++ x ++ y := by
    rintro o r t c n u e v w x y _ _ _ _ rfl rfl rfl rfl
    simp
  have glue2 : ∀ {o r t c n e v x y o' t' e' w' : Str}, o' = o ++ ['/'] → t' = '/' :: (t ++ ['/']) →
      e' = '/' :: (n ++ '/' :: (e ++ v)) → w' = v ++ n ++ v →
      ((((o ++ '/' :: r) ++ '/' :: t) ++ '/' :: c) ++ '/' :: n) ++ '/' :: (e ++ (v ++ (c ++ (v ++ (n ++ (v ++ (x ++ y))))))) =
        o' ++ r ++ t' ++ c ++ e' ++ c ++ w' ++ x ++ y := by
    rintro o r t c n e v x y _ _ _ _ rfl rfl rfl rfl
    simp
  have hpath : a.path c = ((((sOutputs ++ '/' :: a.region.repr) ++ '/' :: "dtw".toList) ++ '/' :: c.repr) ++
      '/' :: a.kind.run.subdir) ++ '/' :: ("error-analysis".toList ++ (sep2 ++ (c.repr ++ (sep2 ++ (a.kind.run.text ++ (sep2 ++
        (a.errorType ++ ".csv".toList))))))) := by
    have := tablePath_eq hg
    rw [subdir_eq outputs_dir _ hg.names] at this
    exact this
  constructor
  · intro name orders hk
    rw [hpath, hk]
    exact glue rfl rfl rfl rfl
  · intro hk
    rw [hpath, hk]
    have e : (StudyKind.auto.run).subdir =
        "auto-arima-start_p1-start_q1-max_p3-max_q3-dNone-stepwiseTrue".toList := by decide +kernel
    have e' : (StudyKind.auto.run).text =
        "auto-arima-start_p1-start_q1-max_p3-max_q3-dNone-stepwiseTrue".toList := by decide +kernel
    rw [e, e']
    exact glue2 rfl rfl (by decide +kernel) (by decide +kernel)

/-! ### Examples -/

/-- A region with nine samples, where only clusterings with two clusters succeed. -/
def studyWorld (K : Type) [Field K] [LinearOrder K] : SolverWorld K Nat Nat (Option K) where
  region _ := .ok (errRegion K)
  matrix _ := .ok ()
  partition _ _ c := if c.k = 2 then .ok (errPartition, [⟨0, 0⟩, ⟨0, 2⟩]) else .error .valueError
  trainer _ _ := Trainer.constant 2 1 3 meanOfPast
  refitter _ _ := (Trainer.constant 2 1 3 meanOfPast).sameRefitter
  forecast := repeatMean
  zero := none
  junk := none

def studyRegion : RegionMeta := ⟨['b'], ⟨5, 6, 7, 10⟩, 2015, 2015, 1, false⟩

def studyLab (K : Type) [Field K] [LinearOrder K] : ErrorTools K (Option K) where
  distances _ := ⟨3, 3, [some 0, some 4, some 6, some 4, some 0, some 5, some 6, some 5, some 0]⟩
  order _ := (2, 0, 1)
  show1 v := if v = 200/3 then "66.7".toList else if v = 100/3 then "33.3".toList else "?".toList
  showError _ := "?".toList
  showDistance v := if v = some 0 then "0.000".toList else if v = some 6 then "6.000".toList else "?".toList

/-- The library of the examples of C118, with one order for auto-ARIMA. -/
def studyTools {K : Type} [Field K] [LinearOrder K] (root : K → K) : StudyTools K Nat (PDQ × K) where
  lib := { errLib K with auto := fun _ _ => .ok ⟨1, 0, 1⟩ }
  simple := 0
  forecast := errForecast
  root := root
  junk := none
  show3 := {
    val := fun e => match e with
      | some (some v) => if v = 0 then "0.000".toList else if v = 1/8 then "0.125".toList else "?".toList
      | _ => "nan".toList
    min := fun v => if v = ⊤ then "inf".toList else "?".toList
    max := fun v => if v = ⊥ then "-inf".toList else "?".toList }
  showAic v := if v = some 1 then "1.000".toList else if v = some 5 then "5.000".toList else "nan".toList
  showCost v := if v = some 4 then "4.000".toList else "?".toList
  time _ _ := ("0.100".toList, "0.200".toList)

def studyOrders : StudyKind := .orders "quick".toList [⟨1, 0, 1⟩, ⟨2, 1, 2⟩]

def studyArgs (suite : List ClusterMeta) (kind : StudyKind) (plots : Bool) : TableArgs :=
  { region := studyRegion, suite := suite, kind := kind, errorType := ['M', 'S', 'E'], plots := plots }

def studyAnalysis (suite : List ClusterMeta) : AnalysisArgs :=
  { region := studyRegion, id := ⟨"kmedoids".toList, "quick".toList⟩, suite := suite }

theorem studyArgs_accepted {suite : List ClusterMeta} (h : ∀ c ∈ suite, PlainClustering c) {kind : StudyKind}
    (hk : kind = studyOrders ∨ kind = .auto) (plots : Bool) :
    (studyArgs suite kind plots).Accepted [studyRegion] := by
  refine ⟨List.mem_singleton.2 rfl, by show ['M', 'S', 'E'] ∈ _; decide, h, ?_⟩
  intro name orders e
  have e : kind = .orders name orders := e
  rcases hk with rfl | rfl
  · cases e; decide
  · cases e

/-- A session with all the programs of this file. -/
def studySession : List StudyRun :=
  [.elbows studyRegion labSuite, .table (studyArgs labSuite studyOrders false), .analysis (studyAnalysis labSuite),
    .medoids studyRegion labSuite, .lab (.between ⟨studyRegion, labSuite, 1, ['M', 'S', 'E']⟩),
    .table (studyArgs labSuite .auto true)]

theorem studySession_accepted : ∀ c ∈ studySession, c.Accepted [studyRegion] := by
  intro c hc
  have hr : studyRegion ∈ [studyRegion] := List.mem_singleton.2 rfl
  simp only [studySession, List.mem_cons, List.not_mem_nil, or_false] at hc
  rcases hc with rfl | rfl | rfl | rfl | rfl | rfl
  · exact ⟨hr, labSuite_plain⟩
  · exact studyArgs_accepted labSuite_plain (.inl rfl) false
  · exact ⟨hr, labSuite_plain⟩
  · exact ⟨hr, labSuite_plain⟩
  · exact ⟨hr, by show ['M', 'S', 'E'] ∈ _; decide, labSuite_plain⟩
  · exact studyArgs_accepted labSuite_plain (.inr rfl) true

theorem study_ready : StudyReady (studyWorld K) (studyLab K) studyRegion (errRegion K) where
  region := rfl
  matrix := rfl
  created := .plain ⟨rfl, by simp⟩
  small := by show 1 * 3 < 10 ^ 9; decide
  one := by
    intro v
    dsimp only [studyLab]
    split_ifs <;> (unfold Readable; decide +kernel)

theorem study_partitions : ∀ c ∈ labSuite, PartitionReady (studyWorld K) studyRegion (errRegion K) c errPartition
    [⟨0, 0⟩, ⟨0, 2⟩] := by
  intro c hc
  have hk : c.k = 2 := by
    simp only [labSuite, List.mem_cons, List.not_mem_nil, or_false] at hc
    rcases hc with rfl | rfl <;> rfl
  refine ⟨if_pos hk, ⟨by decide, by decide, by decide⟩, ⟨rfl, rfl⟩, rfl, ?_, hk.symm⟩
  intro i m h
  match i, h with
  | 0, h => cases h; rfl
  | 1, h => cases h; rfl

theorem study_table {root : K → K} (hroot : IsRoot root) (suite : List ClusterMeta) (kind : StudyKind) (plots : Bool) :
    TableReady (studyTools root) (studyArgs suite kind plots) (errRegion K) mseFun where
  enough := (by decide : 8 ≤ 9)
  error := rfl
  mase h := absurd h (by show ¬ String.ofList ['M', 'S', 'E'] = "MASE"; decide +kernel)
  root := hroot
  fit := errLib_fit
  auto := by intro v e h; cases h
  forecasts := by
    intro want _ v m _
    exact ⟨_, rfl, List.length_replicate ..⟩
  small := by
    intro v m h
    match v, h with
    | [], h => cases h
    | none :: _, h => cases h
    | some x :: _, h =>
      cases h
      show SmallOrder ⟨1, 0, 1⟩
      unfold SmallOrder
      decide

theorem study_texts (root : K → K) (suite : List ClusterMeta) {kind : StudyKind}
    (hk : kind = studyOrders ∨ kind = .auto) (plots : Bool) :
    (studyTools root).GoodTexts (studyArgs suite kind plots) where
  val := by
    intro v
    dsimp only [studyTools]
    split
    · split_ifs <;> (unfold Readable; decide +kernel)
    · unfold Readable; decide +kernel
  min := by
    intro v
    dsimp only [studyTools]
    split_ifs <;> (unfold Readable; decide +kernel)
  max := by
    intro v
    dsimp only [studyTools]
    split_ifs <;> (unfold Readable; decide +kernel)
  aic := by
    intro v
    dsimp only [studyTools]
    split_ifs <;> (unfold Readable; decide +kernel)
  time := by
    intro c n
    dsimp only [studyTools]
    constructor <;> (unfold Readable; decide +kernel)
  orders := by
    intro name orders e o ho
    have e : kind = .orders name orders := e
    rcases hk with rfl | rfl
    · cases e
      revert o ho
      decide
    · cases e

theorem past_first {s : Stack K} {p : Point} {past : List (Option K)} (h : PastOf s 8 p past) {v : Option K}
    {rest : List (Option K)} (hs : s.seriesAt p = .ok (v :: rest)) (hl : rest.length = 8) : past = [v] := by
  obtain ⟨future, h1, h2⟩ := h
  rw [hs] at h1
  have h1 : v :: rest = past ++ future := by injection h1
  have hlen := congrArg List.length h1
  rw [List.length_cons, List.length_append, hl, h2] at hlen
  have := congrArg (List.take past.length) h1
  rw [List.take_left, show past.length = 1 by omega] at this
  rw [← this]
  rfl

theorem study_plots {root : K → K} {kind : StudyKind} (hk : kind = studyOrders ∨ kind = .auto) :
    ∀ want ∈ kind.models (studyTools root),
      CanPlot ((studyLab K).distances studyRegion) (errRegion K) errPartition [⟨0, 0⟩, ⟨0, 2⟩] want := by
  intro want hwant
  have hsome : ∀ (x : K) rest, want (some x :: rest) ≠ none := by
    intro x rest
    rcases hk with rfl | rfl
    · obtain ⟨o, -, rfl⟩ := List.mem_map.1 hwant
      show pdqModel _ o _ ≠ none
      exact fun h => by cases h
    · obtain rfl := List.mem_singleton.1 hwant
      exact fun h => by cases h
  refine ⟨?_, ?_⟩
  · intro i m past hm hp
    match i, hm with
    | 0, hm =>
      cases hm
      rw [past_first (rest := [some 2, some 3, some 4, some 5, some 6, some 7, some 8, some 9]) hp rfl rfl]
      exact hsome _ _
    | 1, hm =>
      cases hm
      rw [past_first (rest := [some 5, some 5, some 5, some 5, some 5, some 5, some 5, some 6]) hp rfl rfl]
      exact hsome _ _
  · intro i m p hm hp
    obtain ⟨hx, hy, hz⟩ := (Grid.get_eq_ok_iff _ _ _).1 hp
    obtain ⟨x, y⟩ := p
    have hx' : x < 1 := hx
    have hy' : y < 3 := hy
    match i, hm with
    | 0, hm =>
      cases hm
      interval_cases x
      interval_cases y <;> exact ⟨_, rfl⟩
    | 1, hm =>
      cases hm
      interval_cases x
      interval_cases y <;> exact ⟨_, rfl⟩

/-- The distances as functions. -/
def studyDistance (K : Type) [Field K] (p q : Nat) : K :=
  if p = q then 0 else if p + q = 1 then 4 else if p + q = 2 then 6 else 5

theorem study_distances : ∀ p q, p < 3 → q < 3 →
    ((studyLab K).distances studyRegion).get ⟨p, q⟩ = .ok (some (studyDistance K p q)) := by
  intro p q hp hq
  interval_cases p <;> interval_cases q <;> rfl

theorem study_analysis (root : K → K) {suite : List ClusterMeta} (h : ∀ c ∈ suite, Readable c.repr ∧ c.k ≤ 10000) :
    AnalysisReady (studyLab K) (studyTools root) (studyAnalysis suite) (errRegion K) (studyDistance K) where
  suite := by
    show SuiteId.Good ⟨"kmedoids".toList, "quick".toList⟩
    unfold SuiteId.Good
    decide +kernel
  distances := study_distances
  cost := by
    intro v
    dsimp only [studyTools]
    split_ifs <;> (unfold Readable; decide +kernel)
  names := h
  x := by show 5 + 1 ≤ 10000; decide
  y := by show 7 + 3 ≤ 10000; decide

theorem study_names : ∀ c ∈ labSuite, Readable c.repr ∧ c.k ≤ 10000 := by
  unfold Readable
  decide +kernel

theorem study_names_failing : ∀ c ∈ labSuite ++ [.regular 7, .regular 2], Readable c.repr ∧ c.k ≤ 10000 := by
  unfold Readable
  decide +kernel

theorem study_showDistance : ∀ v, Readable ((studyLab K).showDistance v) := by
  intro v
  dsimp only [studyLab]
  split_ifs <;> (unfold Readable; decide +kernel)

theorem study_medoids : ∀ p q : Point, p.x < (errRegion K).data.grid.xLen → p.y < (errRegion K).data.grid.yLen →
    q.x < (errRegion K).data.grid.xLen → q.y < (errRegion K).data.grid.yLen →
    ((studyLab K).distances studyRegion).get ⟨p.x * (errRegion K).data.grid.yLen + p.y,
      q.x * (errRegion K).data.grid.yLen + q.y⟩ = .ok (some (studyDistance K p.y q.y)) := by
  rintro ⟨px, py⟩ ⟨qx, qy⟩ h1 h2 h3 h4
  have h1 : px < 1 := h1
  have h2 : py < 3 := h2
  have h3 : qx < 1 := h3
  have h4 : qy < 3 := h4
  obtain rfl : px = 0 := by omega
  obtain rfl : qx = 0 := by omega
  show ((studyLab K).distances studyRegion).get ⟨0 * 3 + py, 0 * 3 + qy⟩ = _
  rw [Nat.zero_mul, Nat.zero_add, Nat.zero_add]
  exact study_distances py qy h2 h4

theorem study_regions : GoodCatalogue [studyRegion] := by unfold GoodCatalogue; decide +kernel

def studyDnn (K : Type) : DnnTools K where
  classifier _ := .ok fun _ => .ok (labelStr 2 0 0)
  junk := none
  measure _ _ := none
  combine _ := none
  root := id
  text := ⟨fun _ => [], fun _ => [], fun _ => []⟩

theorem studyDnn_labels : (studyDnn K).GoodLabels := by
  intro id classify h v l hl
  cases h
  cases hl
  exact ⟨2, 0, 0, rfl⟩

/-- The files of the session: it trains nothing. -/
example : ∃ plain : List SolverCommand, studyStore (studyWorld ℝ) (studyDnn ℝ) (studyLab ℝ) (studyTools Real.sqrt)
      studySession = sessionStore (studyWorld ℝ) plain ∧ plain.filterMap SolverCommand.trains = [] := by
  obtain ⟨plain, h1, -, h3⟩ := C144_session (w := studyWorld ℝ) (tools := studyLab ℝ) (st := studyTools Real.sqrt)
    studyDnn_labels studySession studySession_accepted
  exact ⟨plain, h1, h3⟩

/-- The hypotheses of `C144_tables` hold after the session, for orders without plots and for auto-ARIMA with plots. -/
example (files : Str → Option Str) : ∃ store files' store2 files2,
    tableCommand (studyWorld ℝ) (studyLab ℝ) (studyTools Real.sqrt) (studyArgs labSuite studyOrders false)
      (studyStore (studyWorld ℝ) (studyDnn ℝ) (studyLab ℝ) (studyTools Real.sqrt) studySession, files) =
        (.ok (), (store, files')) ∧
    TableFiles (studyLab ℝ) (studyTools Real.sqrt) (studyArgs labSuite studyOrders false) (errRegion ℝ) mseFun (.regular 2)
      errPartition [⟨0, 0⟩, ⟨0, 2⟩] files' ∧
    tableCommand (studyWorld ℝ) (studyLab ℝ) (studyTools Real.sqrt) (studyArgs labSuite .auto true)
      (studyStore (studyWorld ℝ) (studyDnn ℝ) (studyLab ℝ) (studyTools Real.sqrt) studySession, files) =
        (.ok (), (store2, files2)) ∧
    TableFiles (studyLab ℝ) (studyTools Real.sqrt) (studyArgs labSuite .auto true) (errRegion ℝ) mseFun (.regular 2)
      errPartition [⟨0, 0⟩, ⟨0, 2⟩] files2 := by
  obtain ⟨s1, f1, h1, h2, -⟩ := C144_tables study_regions studyDnn_labels studySession_accepted
    (studyArgs_accepted labSuite_plain (.inl rfl) false) study_ready (study_table isRoot_sqrt _ _ _)
    (study_texts _ _ (.inl rfl) _) (fun c hc => ⟨_, _, study_partitions c hc, fun h => by cases h⟩) files
  obtain ⟨s2, f2, k1, k2, -⟩ := C144_tables study_regions studyDnn_labels studySession_accepted
    (studyArgs_accepted labSuite_plain (.inr rfl) true) study_ready (study_table isRoot_sqrt _ _ _)
    (study_texts _ _ (.inr rfl) _) (fun c hc => ⟨_, _, study_partitions c hc, fun _ => study_plots (.inr rfl)⟩) files
  exact ⟨s1, f1, s2, f2, h1, h2 _ (by decide) _ _ rfl, k1, k2 _ (by decide) _ _ rfl⟩

/-- The hypotheses of `C144_analysis`, `C144_medoids` and `C144_elbows` hold after the session. -/
example (files : Str → Option Str) : ∃ store files' text files2,
    analysisCommand (studyWorld ℝ) (studyLab ℝ) (studyTools Real.sqrt) (studyAnalysis labSuite)
      (studyStore (studyWorld ℝ) (studyDnn ℝ) (studyLab ℝ) (studyTools Real.sqrt) studySession, files) =
        (.ok (), (store, files')) ∧
    files' ((studyAnalysis labSuite).id.analysisPath "outputs".toList studyRegion .dtw) = some text ∧
    AnalysisText (studyWorld ℝ) (studyTools Real.sqrt).showCost studyRegion (errRegion ℝ) (studyDistance ℝ) labSuite text ∧
    medoidCommand (studyWorld ℝ) (studyLab ℝ) studyRegion labSuite files = (.ok (), files2) ∧
    (elbowCommand (studyWorld ℝ) (studyLab ℝ) studyRegion labSuite
      (studyStore (studyWorld ℝ) (studyDnn ℝ) (studyLab ℝ) (studyTools Real.sqrt) studySession)).1 =
      findElbowsProgram ((studyWorld ℝ).partition studyRegion .dtw) (errRegion ℝ).data.grid
        ((studyLab ℝ).distances studyRegion) labSuite := by
  obtain ⟨s1, f1, h1, ⟨text, h2, h3, -⟩, -⟩ := C144_analysis (st := studyTools Real.sqrt) study_regions studyDnn_labels
    studySession_accepted (a := studyAnalysis labSuite) ⟨List.mem_singleton.2 rfl, labSuite_plain⟩ study_ready
    (study_analysis Real.sqrt study_names) (fun c hc => ⟨_, _, study_partitions c hc⟩) files
  obtain ⟨f2, k1, -⟩ := C144_medoids study_regions (md := studyRegion) (suite := labSuite)
    ⟨List.mem_singleton.2 rfl, labSuite_plain⟩ (study_ready (K := ℝ)) study_showDistance study_medoids
    (fun c hc => ⟨_, _, study_partitions c hc⟩) files
  exact ⟨s1, f1, text, f2, h1, h2, h3, k1, C144_elbows study_regions studyDnn_labels studySession_accepted
    ⟨List.mem_singleton.2 rfl, labSuite_plain⟩ study_ready⟩

/-- The third clustering of the suite fails. -/
example (files : Str → Option Str) : ∃ store files' text,
    analysisCommand (studyWorld ℝ) (studyLab ℝ) (studyTools Real.sqrt)
      (studyAnalysis (labSuite ++ [.regular 7, .regular 2]))
      (studyStore (studyWorld ℝ) (studyDnn ℝ) (studyLab ℝ) (studyTools Real.sqrt) studySession, files) =
        (.error .valueError, (store, files')) ∧
    files' ((studyAnalysis []).id.analysisPath "outputs".toList studyRegion .dtw) = some text ∧
    AnalysisText (studyWorld ℝ) (studyTools Real.sqrt).showCost studyRegion (errRegion ℝ) (studyDistance ℝ) labSuite
      text := by
  have hp : ∀ c ∈ labSuite ++ [.regular 7, .regular 2], PlainClustering c := by
    intro c hc
    rcases List.mem_append.1 hc with hc | hc
    · exact labSuite_plain c hc
    · simp only [List.mem_cons, List.not_mem_nil, or_false] at hc
      rcases hc with rfl | rfl
      · exact ⟨7, 0, .inl rfl⟩
      · exact ⟨2, 0, .inl rfl⟩
  obtain ⟨-, h, -⟩ := C144_failed (st := studyTools Real.sqrt) (c := .regular 7) (e := .valueError) study_regions
    studyDnn_labels studySession_accepted
    (md := studyRegion) ⟨List.mem_singleton.2 rfl, hp⟩ rfl study_ready rfl
    (fun c hc => ⟨_, _, study_partitions c hc⟩) files
  obtain ⟨store, files', h1, ⟨text, h2, h3⟩, -⟩ := h (studyAnalysis (labSuite ++ [.regular 7, .regular 2])) _ rfl rfl
    (study_analysis Real.sqrt study_names_failing)
  exact ⟨store, files', text, h1, h2, h3⟩

/-- The distances between the medoids of two clusterings, in two runs. -/
example : medoidCommand (studyWorld ℚ) (studyLab ℚ) studyRegion ([.kmedoids { k := 2, seed := 0 }] ++ [.regular 2])
      (fun _ => none) =
    medoidCommand (studyWorld ℚ) (studyLab ℚ) studyRegion [.regular 2] (medoidCommand (studyWorld ℚ) (studyLab ℚ) studyRegion
      [.kmedoids { k := 2, seed := 0 }] (fun _ => none)).2 :=
  (C144_parts (st := studyTools id) (studyArgs [] studyOrders false) [.kmedoids { k := 2, seed := 0 }] [.regular 2]
    (fun _ => none, fun _ => none) (fun _ => none, fun _ => none) studyRegion (fun _ => none) _).2.2.1
    (Prod.ext (by decide +kernel) rfl)

/-- No model at the medoid (0, 1), in a run with plots. -/
example (files : Str → Option Str) : ∃ store files',
    tableCommand { studyWorld ℝ with partition := fun _ _ _ => .ok (errPartition, [⟨0, 1⟩, ⟨0, 2⟩]) } (studyLab ℝ)
      (studyTools Real.sqrt) (studyArgs labSuite studyOrders true)
      (studyStore { studyWorld ℝ with partition := fun _ _ _ => .ok (errPartition, [⟨0, 1⟩, ⟨0, 2⟩]) } (studyDnn ℝ)
        (studyLab ℝ) (studyTools Real.sqrt) studySession, files) = (.error .attributeError, (store, files')) := by
  obtain ⟨store, files', h, -⟩ := C144_missing_model
    (w := { studyWorld ℝ with partition := fun _ _ _ => .ok (errPartition, [⟨0, 1⟩, ⟨0, 2⟩]) })
    (c := .kmedoids { k := 2, seed := 0 }) (pt := errPartition) (medoids := [⟨0, 1⟩, ⟨0, 2⟩]) (m := ⟨0, 1⟩) (past := [none])
    study_regions studyDnn_labels studySession_accepted
    (studyArgs_accepted labSuite_plain (.inl rfl) true)
    ⟨rfl, rfl, study_ready.created, study_ready.small, study_ready.one⟩ (study_table isRoot_sqrt _ _ _)
    (study_texts _ _ (.inl rfl) _) rfl rfl rfl
    ⟨rfl, ⟨by decide, by decide, by decide⟩, ⟨rfl, rfl⟩, rfl, by
      intro i m h
      match i, h with
      | 0, h => cases h; rfl
      | 1, h => cases h; rfl, rfl⟩ rfl
    (by
      intro p hp
      obtain ⟨hx, hy, hz⟩ := (Grid.get_eq_ok_iff _ _ _).1 hp
      obtain ⟨x, y⟩ := p
      have hx' : x < 1 := hx
      have hy' : y < 3 := hy
      interval_cases x
      interval_cases y <;> exact ⟨_, rfl⟩)
    ⟨_, rfl, rfl⟩ rfl files
  exact ⟨store, files', h⟩

/-- No model at the medoid (0, 1), in a run of auto ARIMA with plots. -/
example (files : Str → Option Str) : ∃ store files',
    tableCommand { studyWorld ℝ with partition := fun _ _ _ => .ok (errPartition, [⟨0, 1⟩, ⟨0, 2⟩]) } (studyLab ℝ)
      (studyTools Real.sqrt) (studyArgs labSuite .auto true)
      (studyStore { studyWorld ℝ with partition := fun _ _ _ => .ok (errPartition, [⟨0, 1⟩, ⟨0, 2⟩]) } (studyDnn ℝ)
        (studyLab ℝ) (studyTools Real.sqrt) studySession, files) = (.error .attributeError, (store, files')) := by
  obtain ⟨store, files', h, -⟩ := C144_missing_auto
    (w := { studyWorld ℝ with partition := fun _ _ _ => .ok (errPartition, [⟨0, 1⟩, ⟨0, 2⟩]) })
    (c := .kmedoids { k := 2, seed := 0 }) (pt := errPartition) (medoids := [⟨0, 1⟩, ⟨0, 2⟩]) (m := ⟨0, 1⟩) (past := [none])
    study_regions studyDnn_labels studySession_accepted
    (studyArgs_accepted labSuite_plain (.inr rfl) true)
    ⟨rfl, rfl, study_ready.created, study_ready.small, study_ready.one⟩ (study_table isRoot_sqrt _ _ _)
    (study_texts _ _ (.inr rfl) _) rfl rfl rfl
    ⟨rfl, ⟨by decide, by decide, by decide⟩, ⟨rfl, rfl⟩, rfl, by
      intro i m h
      match i, h with
      | 0, h => cases h; rfl
      | 1, h => cases h; rfl, rfl⟩ rfl
    (by
      intro p hp
      obtain ⟨hx, hy, hz⟩ := (Grid.get_eq_ok_iff _ _ _).1 hp
      obtain ⟨x, y⟩ := p
      have hx' : x < 1 := hx
      have hy' : y < 3 := hy
      interval_cases x
      interval_cases y <;> exact ⟨_, rfl⟩)
    ⟨_, rfl, rfl⟩ rfl files
  exact ⟨store, files', h⟩

/-- The second clustering of a suite has the medoid (0, 1) for its second cluster. -/
def lostWorld (K : Type) [Field K] [LinearOrder K] : SolverWorld K Nat Nat (Option K) :=
  { studyWorld K with partition := fun _ _ c => match c with
      | .regular _ => .ok (⟨⟨1, 3, [0, 1, 1]⟩, 2, 0⟩, [⟨0, 0⟩, ⟨0, 1⟩])
      | _ => .ok (errPartition, [⟨0, 0⟩, ⟨0, 2⟩]) }

/-- A run with plots: the table of the second clustering ends with its third row. -/
example (files : Str → Option Str) : ∃ store files' full text,
    tableCommand (lostWorld ℝ) (studyLab ℝ) (studyTools Real.sqrt) (studyArgs labSuite studyOrders true)
      (studyStore (lostWorld ℝ) (studyDnn ℝ) (studyLab ℝ) (studyTools Real.sqrt) studySession, files) =
        (.error .attributeError, (store, files')) ∧
    files' (ErrorRun.tablePath ⟨studyRegion, .dtw, .regular 2, studyOrders.run, ['M', 'S', 'E']⟩ "outputs".toList) = some text ∧
    csvReadText text = ((csvReadText full).1.take 4, none) := by
  obtain ⟨store, files', h, -, -, ⟨full, text, -, h1, h2⟩, -⟩ := C144_lost (w := lostWorld ℝ) (tools := studyLab ℝ)
    (st := studyTools Real.sqrt) (a := studyArgs labSuite studyOrders true) (s := errRegion ℝ)
    (pre := [.kmedoids { k := 2, seed := 0 }]) (c := .regular 2) (post := []) (pt := ⟨⟨1, 3, [0, 1, 1]⟩, 2, 0⟩)
    (medoids := [⟨0, 0⟩, ⟨0, 1⟩]) (i := 1) (j := 0) (m := ⟨0, 1⟩) (past := [none])
    study_regions studyDnn_labels studySession_accepted
    (studyArgs_accepted labSuite_plain (.inl rfl) true)
    ⟨rfl, rfl, study_ready.created, study_ready.small, study_ready.one⟩ (study_table isRoot_sqrt _ _ _)
    (study_texts _ _ (.inl rfl) _) rfl rfl
    (by
      intro c hc
      obtain rfl := List.mem_singleton.1 hc
      exact ⟨errPartition, [⟨0, 0⟩, ⟨0, 2⟩], ⟨rfl, ⟨by decide, by decide, by decide⟩, ⟨rfl, rfl⟩, rfl, by
        intro i m h
        match i, h with
        | 0, h => cases h; rfl
        | 1, h => cases h; rfl, rfl⟩, study_plots (.inl rfl)⟩)
    ⟨rfl, ⟨by decide, by decide, by decide⟩, ⟨rfl, rfl⟩, rfl, by
      intro i m h
      match i, h with
      | 0, h => cases h; rfl
      | 1, h => cases h; rfl, rfl⟩ (by decide)
    (by
      intro i m p hm hp
      obtain ⟨hx, hy, hz⟩ := (Grid.get_eq_ok_iff _ _ _).1 hp
      obtain ⟨x, y⟩ := p
      have hx' : x < 1 := hx
      have hy' : y < 3 := hy
      match i, hm with
      | 0, hm =>
        cases hm
        interval_cases x
        interval_cases y <;> exact ⟨_, rfl⟩
      | 1, hm =>
        cases hm
        interval_cases x
        interval_cases y <;> exact ⟨_, rfl⟩)
    rfl rfl ⟨_, rfl, rfl⟩ rfl
    (by
      intro i' j' m' want' past' hlt hm' hw' hp'
      obtain rfl : i' = 0 := by omega
      cases hm'
      rw [past_first (rest := [some 2, some 3, some 4, some 5, some 6, some 7, some 8, some 9]) hp' rfl rfl]
      match j', hw' with
      | 0, h => cases h; exact fun h => by cases h
      | 1, h => cases h; exact fun h => by cases h)
    files
  exact ⟨store, files', full, text, h, h1, h2⟩

/-- A partition of three points by one of a region of one by three. -/
example (files : Str → Option Str) : ∃ store files',
    tableCommand { studyWorld ℝ with partition := fun _ _ _ => .ok (⟨⟨3, 1, [0, 0, 1]⟩, 2, 0⟩, [⟨0, 0⟩, ⟨2, 0⟩]) }
      (studyLab ℝ) (studyTools Real.sqrt) (studyArgs labSuite studyOrders true)
      (studyStore { studyWorld ℝ with partition := fun _ _ _ => .ok (⟨⟨3, 1, [0, 0, 1]⟩, 2, 0⟩, [⟨0, 0⟩, ⟨2, 0⟩]) }
        (studyDnn ℝ) (studyLab ℝ) (studyTools Real.sqrt) studySession, files) =
      (.error .assertionError, (store, files')) := by
  obtain ⟨store, files', h, -⟩ := C144_shape
    (w := { studyWorld ℝ with partition := fun _ _ _ => .ok (⟨⟨3, 1, [0, 0, 1]⟩, 2, 0⟩, [⟨0, 0⟩, ⟨2, 0⟩]) })
    (st := studyTools Real.sqrt) study_regions studyDnn_labels studySession_accepted
    (studyArgs_accepted labSuite_plain (.inl rfl) true)
    ⟨rfl, rfl, study_ready.created, study_ready.small, study_ready.one⟩ rfl rfl ⟨by decide, by decide, by decide⟩
    (by decide) rfl (by
      intro i m h
      match i, h with
      | 0, h => cases h; rfl
      | 1, h => cases h; rfl) rfl (by rintro ⟨h, -⟩; cases h) files
  exact ⟨store, files', h⟩

/-- The second clustering of the suite gives three points by one. -/
def shapeWorld (K : Type) [Field K] [LinearOrder K] : SolverWorld K Nat Nat (Option K) :=
  { studyWorld K with partition := fun _ _ c => match c with
      | .regular _ => .ok (⟨⟨3, 1, [0, 0, 1]⟩, 2, 0⟩, [⟨0, 0⟩, ⟨2, 0⟩])
      | _ => .ok (errPartition, [⟨0, 0⟩, ⟨0, 2⟩]) }

example (files : Str → Option Str) : ∃ store files',
    tableCommand (shapeWorld ℝ) (studyLab ℝ) (studyTools Real.sqrt) (studyArgs labSuite studyOrders true)
      (studyStore (shapeWorld ℝ) (studyDnn ℝ) (studyLab ℝ) (studyTools Real.sqrt) studySession, files) =
        (.error .assertionError, (store, files')) ∧
    TableFiles (studyLab ℝ) (studyTools Real.sqrt) (studyArgs labSuite studyOrders true) (errRegion ℝ) mseFun
      (.kmedoids { k := 2, seed := 0 }) errPartition [⟨0, 0⟩, ⟨0, 2⟩] files' := by
  obtain ⟨store, files', h, h1, -⟩ := C144_shape_later (w := shapeWorld ℝ) (st := studyTools Real.sqrt)
    (pre := [.kmedoids { k := 2, seed := 0 }]) (c := .regular 2) (post := [])
    study_regions studyDnn_labels studySession_accepted
    (studyArgs_accepted labSuite_plain (.inl rfl) true)
    ⟨rfl, rfl, study_ready.created, study_ready.small, study_ready.one⟩ (study_table isRoot_sqrt _ _ _)
    (study_texts _ _ (.inl rfl) _) rfl
    (by
      intro c hc
      obtain rfl := List.mem_singleton.1 hc
      exact ⟨errPartition, [⟨0, 0⟩, ⟨0, 2⟩], ⟨rfl, ⟨by decide, by decide, by decide⟩, ⟨rfl, rfl⟩, rfl, by
        intro i m h
        match i, h with
        | 0, h => cases h; rfl
        | 1, h => cases h; rfl, rfl⟩, fun _ => study_plots (.inl rfl)⟩)
    rfl ⟨by decide, by decide, by decide⟩ (by decide) rfl (by
      intro i m h
      match i, h with
      | 0, h => cases h; rfl
      | 1, h => cases h; rfl) rfl (by rintro ⟨h, -⟩; cases h) files
  exact ⟨store, files', h, h1 _ (List.mem_singleton.2 rfl) _ _ rfl⟩

/-- The third clustering of the suite gives seven points by one, in a region of one by three. -/
example (files : Str → Option Str) :
    let w : SolverWorld ℝ _ _ _ := { studyWorld ℝ with
      partition := fun md dist c =>
        if c = ClusterMeta.regular 7 then
          .ok (⟨⟨7, 1, [0, 1, 2, 3, 4, 5, 6]⟩, 7, 0⟩, (List.range 7).map fun i => ⟨i, 0⟩)
        else (studyWorld ℝ).partition md dist c }
    ∃ store files' text,
      analysisCommand w (studyLab ℝ) (studyTools Real.sqrt) (studyAnalysis (labSuite ++ [.regular 7, .regular 2]))
        (studyStore w (studyDnn ℝ) (studyLab ℝ) (studyTools Real.sqrt) studySession, files) =
          (.error .assertionError, (store, files')) ∧
      files' ((studyAnalysis []).id.analysisPath "outputs".toList studyRegion .dtw) = some text := by
  intro w
  have hp : ∀ c ∈ labSuite ++ [.regular 7, .regular 2], PlainClustering c := by
    intro c hc
    rcases List.mem_append.1 hc with hc | hc
    · exact labSuite_plain c hc
    · simp only [List.mem_cons, List.not_mem_nil, or_false] at hc
      rcases hc with rfl | rfl
      · exact ⟨7, 0, .inl rfl⟩
      · exact ⟨2, 0, .inl rfl⟩
  have hother : ∀ c ∈ labSuite, w.partition studyRegion .dtw c = (studyWorld ℝ).partition studyRegion .dtw c := by
    intro c hc
    have : c ≠ .regular 7 := by rintro rfl; revert hc; decide
    exact if_neg this
  obtain ⟨store, files', h1, ⟨text, h2, -⟩, -⟩ := C144_analysis_shape (w := w) (st := studyTools Real.sqrt)
    (a := studyAnalysis (labSuite ++ [ClusterMeta.regular 7, ClusterMeta.regular 2])) (pre := labSuite)
    (c := ClusterMeta.regular 7) study_regions studyDnn_labels studySession_accepted
    ⟨List.mem_singleton.2 rfl, hp⟩
    ⟨rfl, rfl, study_ready.created, study_ready.small, study_ready.one⟩ (study_analysis Real.sqrt study_names_failing) rfl
    (fun c hc => by
      obtain ⟨q1, q2, q3, q4, q5, q6⟩ := study_partitions (K := ℝ) c hc
      exact ⟨_, _, (hother c hc).trans q1, q2, q3, q4, q5, q6⟩)
    rfl ⟨by decide, by decide, by decide⟩ (by decide) rfl (by
      intro i m h
      have : i < 7 := by
        obtain ⟨h, -⟩ := List.getElem?_eq_some_iff.1 h
        exact h
      interval_cases i <;> (cases h; rfl)) rfl (by rintro ⟨h, -⟩; cases h) files
  exact ⟨store, files', text, h1, h2⟩

/-- The hypotheses of `C144_paths` hold. -/
example : (studyArgs labSuite studyOrders false).path (.regular 2) =
    "outputs/b_2015_2015_1spd/dtw/regular_k2/arima-quick/error-analysis__regular_k2__quick__MSE.csv".toList :=
  ((C144_paths study_regions (studyArgs_accepted labSuite_plain (.inl rfl) false) (by decide)).1 _ _ rfl).trans
    (by decide +kernel)

/-- The names and texts of some of the files; over ℚ, where the root of the errors is not that of the real numbers. -/
example :
    let files := (tableCommand (studyWorld ℚ) (studyLab ℚ) (studyTools id) (studyArgs labSuite studyOrders false)
      (fun _ => none, fun _ => none)).2.2
    let files2 := (tableCommand (studyWorld ℚ) (studyLab ℚ) (studyTools id) (studyArgs labSuite .auto true)
      (fun _ => none, fun _ => none)).2.2
    files "outputs/b_2015_2015_1spd/dtw/regular_k2/clustering__regular_k2.csv".toList =
      some "cluster points coverage\r\n0 2 66.7\r\n1 1 33.3\r\n".toList ∧
    files "outputs/b_2015_2015_1spd/dtw/regular_k2/arima-quick/error-analysis__regular_k2__quick__MSE.csv".toList =
      some ("cluster size p d q failed t_forecast t_elapsed error_each error_min error_min_local error_medoid " ++
        "error_max\r\n0 2 1 0 1 1 0.100 0.200 ? ? ? ? ?\r\n0 2 2 1 2 1 0.100 0.200 ? ? ? ? ?\r\n" ++
        "1 1 1 0 1 0 0.100 0.200 ? ? ? ? ?\r\n1 1 2 1 2 0 0.100 0.200 ? ? ? ? ?\r\n").toList ∧
    files2 ("outputs/b_2015_2015_1spd/dtw/regular_k2/" ++
        "auto-arima-start_p1-start_q1-max_p3-max_q3-dNone-stepwiseTrue/error-analysis__regular_k2__" ++
        "auto-arima-start_p1-start_q1-max_p3-max_q3-dNone-stepwiseTrue__MSE.csv").toList =
      some ("cluster size p_medoid d_medoid q_medoid aic_medoid failed t_forecast t_elapsed error_each error_min " ++
        "error_min_local error_medoid error_max\r\n0 2 1 0 1 1.000 1 0.100 0.200 ? ? ? ? ?\r\n" ++
        "1 1 1 0 1 5.000 0 0.100 0.200 ? ? ? ? ?\r\n").toList := by
  refine ⟨?_, ?_, ?_⟩ <;> decide +kernel

example :
    let files := (analysisCommand (studyWorld ℚ) (studyLab ℚ) (studyTools id) (studyAnalysis labSuite)
      (fun _ => none, fun _ => none)).2.2
    let files2 := (medoidCommand (studyWorld ℚ) (studyLab ℚ) studyRegion labSuite fun _ => none).2
    files "outputs/b_2015_2015_1spd/dtw/clustering__kmedoids-quick.csv".toList =
      some ("clustering total_cost medoids\r\nkmedoids_k2_seed0_lite 4.000 |(5,7) (5,9) |\r\n" ++
        "regular_k2 4.000 |(5,7) (5,9) |\r\n").toList ∧
    files2 "outputs/b_2015_2015_1spd/dtw/regular_k2/medoid_distances.csv".toList =
      some "k 0 1\r\n0 0.000 6.000\r\n1 6.000 0.000\r\n".toList := by
  refine ⟨?_, ?_⟩ <;> decide +kernel

end Spta
