import Verif.Lemmas.Dataset
import Verif.Props.Scaling

/-!
# C69 – C73: daily means, the cache of dataset intervals, file names, regions from metadata, saving
-/

set_option linter.unusedSectionVars false

namespace Spta

variable {K : Type} [Field K] [LinearOrder K] [IsStrictOrderedRing K]

/-! ### C69 -/

/-- **C69**: averaging a dataset with a multiple of four samples succeeds, keeps the shape, and the
series of each point has, for each day, the mean of the four samples of that day at that point. -/
theorem C69_daily_means (c : Cube (Option K)) (hc : c.WF) (h4 : 4 ∣ c.tLen) :
    ∃ d, averageDaily c = .ok d ∧ d.WF ∧ d.tLen * 4 = c.tLen ∧ d.grid.xLen = c.grid.xLen ∧
      d.grid.yLen = c.grid.yLen ∧
      ∀ p s, c.grid.get p = .ok s → ∃ out, d.grid.get p = .ok out ∧ DailyMeans s out :=
  averageDaily_ok hc h4

/-- **C69**: any other number of samples is rejected with ValueError, if there is a point. -/
theorem C69_rejected (c : Cube (Option K)) (hc : c.WF) (h4 : ¬ 4 ∣ c.tLen)
    (hx : 0 < c.grid.xLen) (hy : 0 < c.grid.yLen) : averageDaily c = .error .valueError :=
  averageDaily_error hc h4 hx hy

/-- **C69**: the overall mean of a series without NaN does not change. -/
theorem C69_mean_kept (l : List K) (out : List (Option K)) (h0 : l ≠ [])
    (h : DailyMeans (l.map some) out) : floatMean out = floatMean (l.map some) :=
  h.floatMean_eq h0

/-! ### C70 -/

/-- The result without any numpy file. -/
def uncached (raw : Option (Cube (Option K))) (ys ye spd : Int) : Except PyErr (Cube (Option K)) :=
  (retrieve ⟨raw, fun _ => none⟩ ys ye spd datasetName).1

/-- All cached intervals are right. -/
def CacheOK (raw : Option (Cube (Option K))) (d : Disk K) : Prop :=
  d.raw = raw ∧ ∀ ys ye spd c, d.npy (formatByYear datasetName ys ye spd) = some (some c) →
    uncached raw ys ye spd = .ok c

theorem NoCache.ok {d : Disk K} (h : NoCache d) : CacheOK d.raw d :=
  ⟨rfl, fun ys ye spd c hc => absurd hc (h ys ye spd c)⟩

theorem formatByYear_inj {name : Str} {ys ye spd ys' ye' spd' : Int}
    (h : formatByYear name ys ye spd = formatByYear name ys' ye' spd') :
    ys = ys' ∧ ye = ye' ∧ spd = spd' := by
  rw [formatByYear_eq _ _ _ _ ⟨0, 0, 0, 0⟩, formatByYear_eq _ _ _ _ ⟨0, 0, 0, 0⟩] at h
  simp only [DirMeta.datasetFile, List.append_cancel_left_eq, List.cons.injEq, true_and,
    List.append_cancel_right_eq] at h
  obtain ⟨_, h1, h2, h3, _⟩ := RegionMeta.repr_inj h
  exact ⟨h1, h2, h3⟩

theorem retrieve_spec {raw : Option (Cube (Option K))} {d : Disk K} (h : CacheOK raw d)
    (ys ye spd : Int) :
    (retrieve d ys ye spd datasetName).1 = uncached raw ys ye spd ∧
      CacheOK raw (retrieve d ys ye spd datasetName).2 := by
  by_cases hs : spd = 1 ∨ spd = 4
  · cases ht : tryLoadInterval d datasetName ys ye spd with
    | some c =>
      have hc : d.npy (formatByYear datasetName ys ye spd) = some (some c) := by
        unfold tryLoadInterval at ht
        split at ht
        · cases ht
        · cases ht
        · cases ht; assumption
      have e : retrieve d ys ye spd datasetName = (.ok c, d) := by
        simp only [retrieve, if_pos hs, ht]
      rw [e]
      exact ⟨(h.2 _ _ _ _ hc).symm, h⟩
    | none =>
      have e1 : uncached raw ys ye spd = match readHdf5ByYear raw ys ye with
          | .error e => .error e
          | .ok c4 => if spd = 1 then averageDaily c4 else .ok c4 := by
        simp only [uncached, retrieve, if_pos hs, tryLoadInterval]
        cases readHdf5ByYear raw ys ye with
        | error e => rfl
        | ok c4 =>
          dsimp only
          cases (if spd = 1 then averageDaily c4 else Except.ok c4) <;> rfl
      cases hr : readHdf5ByYear raw ys ye with
      | error e =>
        rw [hr] at e1
        have e : retrieve d ys ye spd datasetName = (.error e, d) := by
          simp only [retrieve, if_pos hs, ht, h.1, hr]
        rw [e]
        exact ⟨e1.symm, h⟩
      | ok c4 =>
        rw [hr] at e1
        dsimp only at e1
        cases ha : (if spd = 1 then averageDaily c4 else Except.ok c4) with
        | error e =>
          rw [ha] at e1
          have e : retrieve d ys ye spd datasetName = (.error e, d) := by
            simp only [retrieve, if_pos hs, ht, h.1, hr, ha]
          rw [e]
          exact ⟨e1.symm, h⟩
        | ok c =>
          rw [ha] at e1
          have e : retrieve d ys ye spd datasetName =
              (.ok c, d.write (formatByYear datasetName ys ye spd) c) := by
            simp only [retrieve, if_pos hs, ht, h.1, hr, ha]
          rw [e]
          refine ⟨e1.symm, h.1, ?_⟩
          intro ys' ye' spd' c' hc'
          simp only [Disk.write] at hc'
          split at hc'
          · rename_i hf
            obtain ⟨rfl, rfl, rfl⟩ := formatByYear_inj hf
            cases hc'; exact e1
          · exact h.2 _ _ _ _ hc'
  · have e : ∀ d' : Disk K, retrieve d' ys ye spd datasetName = (.error .assertionError, d') := by
      intro d'; simp only [retrieve, if_neg hs]
    rw [uncached, e, e]
    exact ⟨rfl, h⟩

/-- `create_instance` in terms of the retrieved dataset. -/
def instanceOf (m : DirMeta) (c : Cube (Option K)) : Except PyErr (LoadedRegion K) :=
  if m.scaled then
    match scaleApply (.plain (c.regionSlice m.region)) c.tLen with
    | .error e => .error e
    | .ok s => .ok ⟨s, some m, none⟩
  else .ok ⟨.plain (c.regionSlice m.region), some m, some m⟩

theorem createInstance_eq (d : Disk K) (m : DirMeta) :
    createInstance d m =
      ((retrieve d m.yearStart m.yearEnd m.spd datasetName).1.bind (instanceOf m),
        (retrieve d m.yearStart m.yearEnd m.spd datasetName).2) := by
  by_cases hs : m.spd = 1 ∨ m.spd = 4
  · unfold createInstance
    rw [if_pos hs]
    rcases hr : retrieve d m.yearStart m.yearEnd m.spd datasetName with ⟨_ | c, d'⟩
    · rfl
    · simp only [Stack.regionSubset, Except.bind, instanceOf]
      cases m.scaled with
      | false => rfl
      | true =>
        simp only [if_true]
        show (match scaleApply (Stack.plain (c.regionSlice m.region)) c.tLen with
          | .error e => _ | .ok s => _) = _
        cases scaleApply (Stack.plain (c.regionSlice m.region)) c.tLen <;> rfl
  · have e : retrieve d m.yearStart m.yearEnd m.spd datasetName = (.error .assertionError, d) := by
      simp only [retrieve, if_neg hs]
    rw [createInstance, if_neg hs, e]
    rfl

theorem save_go_none (r : LoadedRegion K) (d : Disk K) (h : r.innerMd = none) (s : Stack K) :
    LoadedRegion.save.go r d s = (.error .valueError, d) := by
  induction s with
  | plain c => simp only [LoadedRegion.save.go, h]
  | scaled inner _ _ ih => simp only [LoadedRegion.save.go, ih]
  | cluster inner _ _ ih => simp only [LoadedRegion.save.go, ih]

/-- The end of the name of a numpy file of a region. -/
theorem datasetFile_format {m : DirMeta} {ys ye spd : Int}
    (h : m.datasetFile = formatByYear datasetName ys ye spd) :
    m.scaled = false ∧ m.dir = sRaw ∧ m.name = datasetName ∧ m.yearStart = ys ∧ m.yearEnd = ye ∧
      m.spd = spd := by
  rw [formatByYear_eq _ _ _ _ m.region] at h
  have hno : '/' ∉ (⟨datasetName, m.region, ys, ye, spd, false⟩ : RegionMeta).repr ++ sNpy := by
    rw [List.mem_append, repr_slash, not_or]
    exact ⟨(by decide : '/' ∉ datasetName), by decide⟩
  have hcount := congrArg (List.count '/') h
  have hname : '/' ∉ m.repr ++ sNpy := by
    intro hm
    have h1 := List.count_pos_iff.2 hm
    have h0 := List.count_eq_zero.2 hno
    simp only [DirMeta.datasetFile, List.count_append (l₂ := _ :: _), List.count_cons_self, h0] at hcount
    have : List.count '/' sRaw = 0 := by decide
    omega
  obtain ⟨h1, h2⟩ := append_slash_inj hname hno h
  rw [List.append_cancel_right_eq] at h2
  obtain ⟨e1, e2, e3, e4, e5⟩ := RegionMeta.repr_inj h2
  exact ⟨e5, h1, e1, e2, e3, e4⟩

theorem DiskOp.run_ok {raw : Option (Cube (Option K))} {d : Disk K} (h : CacheOK raw d)
    (op : DiskOp) (hs : op.Safe) : CacheOK raw (op.run d) := by
  cases op with
  | retrieve ys ye spd => exact (retrieve_spec h ys ye spd).2
  | load m =>
    simp only [DiskOp.run, createInstance_eq]
    exact (retrieve_spec h _ _ _).2
  | save m =>
    have h2 := (retrieve_spec h m.yearStart m.yearEnd m.spd).2
    simp only [DiskOp.run, createInstance_eq]
    cases hr : (Spta.retrieve d m.yearStart m.yearEnd m.spd datasetName).1 with
    | error e => exact h2
    | ok c =>
      simp only [Except.bind, instanceOf]
      cases hsc : m.scaled with
      | true =>
        simp only [if_true]
        cases scaleApply (Stack.plain (c.regionSlice m.region)) c.tLen with
        | error e => exact h2
        | ok s =>
          simp only [LoadedRegion.save]
          rw [save_go_none _ _ rfl]
          exact h2
      | false =>
        simp only [Bool.false_eq_true, if_false, LoadedRegion.save, LoadedRegion.save.go]
        refine ⟨h2.1, ?_⟩
        intro ys ye spd c' hc'
        simp only [Disk.write] at hc'
        split at hc'
        · rename_i hf
          obtain ⟨_, e1, e2, _⟩ := datasetFile_format hf.symm
          rcases hs with hs | hs | hs
          · rw [hsc] at hs; cases hs
          · exact absurd e1 hs
          · exact absurd e2 hs
        · exact h2.2 _ _ _ _ hc'

theorem runOps_ok {raw : Option (Cube (Option K))} {d : Disk K} (h : CacheOK raw d)
    (ops : List DiskOp) (hs : ∀ op ∈ ops, op.Safe) : CacheOK raw (runOps d ops) := by
  induction ops generalizing d with
  | nil => exact h
  | cons op ops ih =>
    exact ih (DiskOp.run_ok h op (hs op (by simp))) (fun o ho => hs o (by simp [ho]))

/-- **C70**: starting without (readable) cached intervals, after any history of retrievals, created
regions and saved regions — none of them saved under the name of a cached interval —, a retrieval gives
what it would have given at the start: the cache is never observable. -/
theorem C70_retrieve_transparent_partial (d : Disk K) (hd : NoCache d) (ops : List DiskOp)
    (hs : ∀ op ∈ ops, op.Safe) (ys ye spd : Int) :
    (retrieve (runOps d ops) ys ye spd datasetName).1 = (retrieve d ys ye spd datasetName).1 := by
  rw [(retrieve_spec (runOps_ok hd.ok ops hs) ys ye spd).1, (retrieve_spec hd.ok ys ye spd).1]

/-- **C70**: and the same holds for the regions created from metadata. -/
theorem C70_create_transparent_partial (d : Disk K) (hd : NoCache d) (ops : List DiskOp)
    (hs : ∀ op ∈ ops, op.Safe) (m : DirMeta) :
    (createInstance (runOps d ops) m).1 = (createInstance d m).1 := by
  rw [createInstance_eq, createInstance_eq]
  simp only
  rw [C70_retrieve_transparent_partial d hd ops hs]

/-- The value of a retrieval, for any disk whose cached intervals are right. -/
theorem uncached_value {raw : Cube (Option K)} (hraw : CoversAllYears raw) {ys ye spd : Int}
    (hspd : spd = 1 ∨ spd = 4) (h1 : 1979 ≤ ys) (h2 : ys ≤ ye) (h3 : ye ≤ 2015) :
    ∃ c, uncached (some raw) ys ye spd = .ok c ∧ c.WF ∧ 0 < c.tLen ∧ c.grid.xLen = raw.grid.xLen ∧
      c.grid.yLen = raw.grid.yLen ∧
      ∀ p s, raw.grid.get p = .ok s →
        ∃ out, c.grid.get p = .ok out ∧ IsYearSeries ys ye spd s out := by
  obtain ⟨c4, a1, a2, a3, a4, a5, a6, a7⟩ := readHdf5ByYear_ok hraw h1 h2 h3
  rcases hspd with rfl | rfl
  · obtain ⟨c, b1, b2, b3, b4, b5, b6⟩ := averageDaily_ok a2 a3
    refine ⟨c, ?_, b2, by omega, b4.trans a5, b5.trans a6, ?_⟩
    · simp only [uncached, retrieve, tryLoadInterval, a1, b1, true_or, if_true]
    · intro p s hs
      obtain ⟨mid, m1, m2⟩ := a7 p s hs
      obtain ⟨out, o1, o2⟩ := b6 p mid m1
      exact ⟨out, o1, Or.inr ⟨rfl, mid, m2, o2⟩⟩
  · refine ⟨c4, ?_, a2, a4, a5, a6, ?_⟩
    · simp only [uncached, retrieve, tryLoadInterval, a1, or_true, if_true]
      rfl
    · intro p s hs
      obtain ⟨out, m1, m2⟩ := a7 p s hs
      exact ⟨out, m1, Or.inl ⟨rfl, m2⟩⟩

/-- **C70**: for valid years, the retrieved array has the shape of the raw dataset, and at each point
exactly the samples of these years (their daily means for one sample per day). -/
theorem C70_retrieved_value (d : Disk K) (hd : NoCache d) (raw : Cube (Option K))
    (hr : d.raw = some raw) (hraw : CoversAllYears raw) (ys ye spd : Int)
    (hspd : spd = 1 ∨ spd = 4) (h1 : 1979 ≤ ys) (h2 : ys ≤ ye) (h3 : ye ≤ 2015) :
    ∃ c, (retrieve d ys ye spd datasetName).1 = .ok c ∧ c.WF ∧ c.grid.xLen = raw.grid.xLen ∧
      c.grid.yLen = raw.grid.yLen ∧
      ∀ p s, raw.grid.get p = .ok s →
        ∃ out, c.grid.get p = .ok out ∧ IsYearSeries ys ye spd s out := by
  obtain ⟨c, a1, a2, _, a4, a5, a6⟩ := uncached_value hraw hspd h1 h2 h3
  have := (retrieve_spec hd.ok ys ye spd).1
  rw [hr] at this
  exact ⟨c, this.trans a1, a2, a4, a5, a6⟩

/-- **C70**: anything else is rejected: other numbers of samples per day with AssertionError, years
outside 1979 – 2015 or in the wrong order and a missing raw dataset with ValueError; and a failed
retrieval changes no file. -/
theorem C70_rejected (d : Disk K) (hd : NoCache d) (ys ye spd : Int) :
    (¬ (spd = 1 ∨ spd = 4) → retrieve d ys ye spd datasetName = (.error .assertionError, d)) ∧
    ((spd = 1 ∨ spd = 4) → (¬ (1979 ≤ ys ∧ ys ≤ ye ∧ ye ≤ 2015) ∨ d.raw = none) →
      retrieve d ys ye spd datasetName = (.error .valueError, d)) := by
  constructor
  · intro hs; simp only [retrieve, if_neg hs]
  · intro hs h
    have ht : tryLoadInterval d datasetName ys ye spd = none := by
      unfold tryLoadInterval
      split
      · rfl
      · rfl
      · rename_i c hc; exact absurd hc (hd _ _ _ _)
    have hrd : readHdf5ByYear d.raw ys ye = .error .valueError := by
      by_cases hv : 1979 ≤ ys ∧ ys ≤ ye ∧ ye ≤ 2015
      · rcases h with h | h
        · exact absurd hv h
        · rw [h, readHdf5ByYear]
          split
          · rfl
          · have hint : ∃ ab, yearsToSeriesInterval ys ye datasetYearStart datasetSpd = .ok ab := by
              show ∃ ab, yearsToSeriesInterval ys ye 1979 4 = .ok ab
              rw [yearsToSeriesInterval, januaryFirst_ok (y := 1979) (by omega),
                januaryFirst_ok (by omega), januaryFirst_ok (by omega)]
              exact ⟨_, rfl⟩
            obtain ⟨⟨a, b⟩, e⟩ := hint
            rw [e]; rfl
      · exact readHdf5ByYear_invalid d.raw hv
    simp only [retrieve, if_pos hs, ht, hrd]

/-- **C70** fails for all histories: saving an unscaled region called `SouthAmerica` in the directory
`raw` overwrites the cached interval, and later retrievals give the rectangle of that region instead of
the dataset. -/
theorem C70_overwritten_refuted (d : Disk K) (hd : NoCache d) (m : DirMeta) (hsc : m.scaled = false)
    (hdir : m.dir = ['r', 'a', 'w'])
    (hname : m.name = ['S', 'o', 'u', 't', 'h', 'A', 'm', 'e', 'r', 'i', 'c', 'a'])
    (c : Cube (Option K)) (hc : (retrieve d m.yearStart m.yearEnd m.spd datasetName).1 = .ok c) :
    (retrieve (runOps d [.save m]) m.yearStart m.yearEnd m.spd datasetName).1 =
      .ok (c.regionSlice m.region) := by
  have hspd : m.spd = 1 ∨ m.spd = 4 := by
    by_contra hs
    rw [(C70_rejected d hd _ _ _).1 hs] at hc
    cases hc
  have hfile : m.datasetFile = formatByYear datasetName m.yearStart m.yearEnd m.spd := by
    rw [formatByYear_eq _ _ _ _ m.region]
    simp only [DirMeta.datasetFile, RegionMeta.repr, hsc, hdir, hname]
    rfl
  have hrun : (runOps d [.save m]).npy (formatByYear datasetName m.yearStart m.yearEnd m.spd) =
      some (some (c.regionSlice m.region)) := by
    simp only [runOps, List.foldl_cons, List.foldl_nil, DiskOp.run, createInstance_eq, hc, Except.bind,
      instanceOf, hsc, Bool.false_eq_true, if_false, LoadedRegion.save, LoadedRegion.save.go, Disk.write,
      hfile, if_true]
  have ht : tryLoadInterval (runOps d [.save m]) datasetName m.yearStart m.yearEnd m.spd =
      some (c.regionSlice m.region) := by
    simp only [tryLoadInterval, hrun]
  simp only [retrieve, if_pos hspd, ht]

/-! ### C71 -/

/-- What the name of a file of some kind adds in front of the representation of the metadata. -/
def NpyKind.front : NpyKind → Str
  | .distances => sDistances
  | _ => []

/-- And behind it. -/
def NpyKind.back : NpyKind → Str
  | .scaleMin => ['_', 'm', 'i', 'n']
  | .scaleMax => ['_', 'm', 'a', 'x']
  | _ => []

theorem NpyKind.file_eq (m : DirMeta) (k : NpyKind) :
    k.file m = m.dir ++ '/' :: ((({m.toRegionMeta with name := k.front ++ m.name} : RegionMeta).repr ++
      k.back) ++ sNpy) := by
  cases k <;>
    simp [NpyKind.file, NpyKind.front, NpyKind.back, DirMeta.datasetFile, DirMeta.distancesFile,
      DirMeta.minFile, DirMeta.maxFile, RegionMeta.repr]

theorem RegionMeta.repr_last (m : RegionMeta) : ∃ l, m.repr = l ++ ['d'] := by
  cases hs : m.scaled with
  | false =>
    exact ⟨m.name ++ ['_'] ++ intStr m.yearStart ++ ['_'] ++ intStr m.yearEnd ++ ['_'] ++ intStr m.spd ++
      ['s', 'p'], by simp [RegionMeta.repr, hs]⟩
  | true =>
    exact ⟨m.name ++ ['_'] ++ intStr m.yearStart ++ ['_'] ++ intStr m.yearEnd ++ ['_'] ++ intStr m.spd ++
      ['s', 'p', 'd', '_', 's', 'c', 'a', 'l', 'e'], by simp [RegionMeta.repr, hs, sScaled]⟩

/-- The representation and what follows it can be separated. -/
theorem repr_back_inj {m m' : RegionMeta} {k k' : NpyKind}
    (h : m.repr ++ k.back = m'.repr ++ k'.back) : m.repr = m'.repr ∧ k.back = k'.back := by
  obtain ⟨l, hl⟩ := m.repr_last
  obtain ⟨l', hl'⟩ := m'.repr_last
  have h1 : (m.repr ++ k.back).getLast? = (m'.repr ++ k'.back).getLast? := by rw [h]
  have hb : k.back = k'.back := by
    rw [hl, hl'] at h1
    cases k <;> cases k' <;> simp [NpyKind.back] at h1 ⊢
  rw [hb, List.append_cancel_right_eq] at h
  exact ⟨h, hb⟩

/-- **C71**: two numpy files of regions whose names contain no slash are the same file only if they are in
the same directory, have the same years, samples per day and scaling, and either they are of the same kind
and the regions have the same name, or one is the dataset of a region called `distances_x` and the other
one is the distance matrix of the region `x`. -/
theorem C71_same_file_iff_partial (m m' : DirMeta) (k k' : NpyKind) (hn : '/' ∉ m.name)
    (hn' : '/' ∉ m'.name) :
    k.file m = k'.file m' ↔
      m.dir = m'.dir ∧ m.yearStart = m'.yearStart ∧ m.yearEnd = m'.yearEnd ∧ m.spd = m'.spd ∧
        m.scaled = m'.scaled ∧
        ((k = k' ∧ m.name = m'.name) ∨
          (k = .dataset ∧ k' = .distances ∧ m.name = sDistances ++ m'.name) ∨
          (k = .distances ∧ k' = .dataset ∧ m'.name = sDistances ++ m.name)) := by
  have hfront : ∀ k : NpyKind, '/' ∉ k.front := by intro k; cases k <;> decide
  have hback : ∀ k : NpyKind, '/' ∉ k.back := by intro k; cases k <;> decide
  have hno : ∀ (m : DirMeta) (k : NpyKind), '/' ∉ m.name →
      '/' ∉ ((({m.toRegionMeta with name := k.front ++ m.name} : RegionMeta).repr ++ k.back) ++ sNpy) := by
    intro m k h
    rw [List.mem_append, List.mem_append, repr_slash, not_or, not_or]
    refine ⟨⟨?_, hback k⟩, by decide⟩
    show '/' ∉ k.front ++ m.name
    rw [List.mem_append, not_or]
    exact ⟨hfront k, h⟩
  rw [NpyKind.file_eq, NpyKind.file_eq]
  constructor
  · intro h
    obtain ⟨h1, h2⟩ := append_slash_inj (hno m k hn) (hno m' k' hn') h
    rw [List.append_cancel_right_eq] at h2
    obtain ⟨h3, h4⟩ := repr_back_inj h2
    obtain ⟨e1, e2, e3, e4, e5⟩ := RegionMeta.repr_inj h3
    refine ⟨h1, e2, e3, e4, e5, ?_⟩
    simp only at e1
    cases k <;> cases k' <;> simp [NpyKind.back, NpyKind.front] at h4 e1 ⊢ <;> first
      | exact e1 | exact e1.symm
  · rintro ⟨h1, e2, e3, e4, e5, h⟩
    have key : k.front ++ m.name = k'.front ++ m'.name ∧ k.back = k'.back := by
      rcases h with ⟨rfl, h⟩ | ⟨rfl, rfl, h⟩ | ⟨rfl, rfl, h⟩
      · exact ⟨by rw [h], rfl⟩
      · exact ⟨by simp [NpyKind.front, h], rfl⟩
      · exact ⟨by simp [NpyKind.front, h], rfl⟩
    simp only [RegionMeta.repr, h1, e2, e3, e4, e5, key.1, key.2]

/-- **C71** fails without restriction: the distance matrix of a region and the dataset of another region
can be the same file. -/
theorem C71_collision_refuted (m : DirMeta) :
    NpyKind.file m .distances =
      NpyKind.file ⟨{m.toRegionMeta with name := sDistances ++ m.name}, m.dir⟩ .dataset := by
  rw [NpyKind.file_eq, NpyKind.file_eq]
  rfl

/-- **C71**: the rectangle of the region is not part of any name. -/
theorem C71_rectangle_not_in_name (m : DirMeta) (r : Region) (k : NpyKind) :
    k.file ⟨{m.toRegionMeta with region := r}, m.dir⟩ = k.file m := by
  cases k <;> rfl

/-! ### C72 -/

/-- **C72**: creating a region from metadata with valid years, from a complete raw dataset, gives a region
with the size of the rectangle, and at each of its points the samples (daily means) of the raw series of
its absolute position; if scaling is asked for, that series scaled into `[0, 1]`, from which descaling
recovers it. This holds whatever was retrieved, created or (safely) saved before. -/
theorem C72_create_instance (d : Disk K) (hd : NoCache d) (ops : List DiskOp)
    (hs : ∀ op ∈ ops, op.Safe) (raw : Cube (Option K)) (hr : d.raw = some raw)
    (hraw : CoversAllYears raw) (m : DirMeta) (hspd : m.spd = 1 ∨ m.spd = 4)
    (h1 : 1979 ≤ m.yearStart) (h2 : m.yearStart ≤ m.yearEnd) (h3 : m.yearEnd ≤ 2015)
    (hx : m.region.x2 ≤ raw.grid.xLen) (hy : m.region.y2 ≤ raw.grid.yLen) :
    ∃ r, (createInstance (runOps d ops) m).1 = .ok r ∧ r.md = some m ∧
      r.stack.hasScaling = m.scaled ∧
      r.stack.data.grid.xLen = m.region.x2 - m.region.x1 ∧
      r.stack.data.grid.yLen = m.region.y2 - m.region.y1 ∧
      ∀ p s, p.x < m.region.x2 - m.region.x1 → p.y < m.region.y2 - m.region.y1 →
        raw.grid.get (absolutePosition m.region p) = .ok s →
        ∃ series, IsYearSeries m.yearStart m.yearEnd m.spd s series ∧
          (m.scaled = false → r.stack.seriesAt p = .ok series) ∧
          (m.scaled = true → (∃ out, r.stack.seriesAt p = .ok out ∧ ScaledSeries series out) ∧
            (Recoverable series → ∃ ds, r.stack.descale = .ok ds ∧ ds.seriesAt p = .ok series)) := by
  obtain ⟨c, a1, a2, a3, a4, a5, a6⟩ := uncached_value hraw hspd h1 h2 h3
  have e := (retrieve_spec (runOps_ok hd.ok ops hs) m.yearStart m.yearEnd m.spd).1
  rw [hr, a1] at e
  rw [createInstance_eq]
  simp only [e, Except.bind]
  have hsub : (c.regionSlice m.region).WF := Cube.regionSlice_wf a2 m.region
  have hxl : min m.region.x2 c.grid.xLen = m.region.x2 := by rw [a4]; exact min_eq_left hx
  have hyl : min m.region.y2 c.grid.yLen = m.region.y2 := by rw [a5]; exact min_eq_left hy
  have hget : ∀ p s, p.x < m.region.x2 - m.region.x1 → p.y < m.region.y2 - m.region.y1 →
      raw.grid.get (absolutePosition m.region p) = .ok s →
      ∃ series, IsYearSeries m.yearStart m.yearEnd m.spd s series ∧
        (Stack.plain (c.regionSlice m.region)).seriesAt p = .ok series := by
    intro p s hpx hpy hp
    obtain ⟨out, o1, o2⟩ := a6 _ s hp
    refine ⟨out, o2, ?_⟩
    show (c.grid.slice m.region).get p = _
    rw [Grid.get_slice _ a2.1 _ (by rw [hxl]; exact hpx) (by rw [hyl]; exact hpy), ← o1]
    unfold absolutePosition
    rw [Nat.add_comm p.x, Nat.add_comm p.y]
  cases hsc : m.scaled with
  | false =>
    refine ⟨⟨.plain (c.regionSlice m.region), some m, some m⟩, by simp [instanceOf, hsc], rfl, rfl, ?_, ?_,
      ?_⟩
    · show min m.region.x2 c.grid.xLen - m.region.x1 = _; rw [hxl]
    · show min m.region.y2 c.grid.yLen - m.region.y1 = _; rw [hyl]
    · intro p s hpx hpy hp
      obtain ⟨series, q1, q2⟩ := hget p s hpx hpy hp
      exact ⟨series, q1, fun _ => q2, fun h => by cases h⟩
  | true =>
    obtain ⟨r, b1, b2, b3⟩ := C18_scale_range_and_order (.plain (c.regionSlice m.region)) hsub a3
    obtain ⟨r', ds, c1, c2, c3⟩ := C19_descale_inverts_scale (.plain (c.regionSlice m.region)) hsub a3
    obtain ⟨g, gmin, gmax, d1, d2, d3, _⟩ := scaleApply_ok (s := .plain (c.regionSlice m.region)) hsub a3
    have er : r' = r := Except.ok.inj (c1.symm.trans b1)
    have eg := Except.ok.inj (d1.symm.trans b1)
    refine ⟨⟨r, some m, none⟩, ?_, rfl, b2, ?_, ?_, ?_⟩
    · simp only [instanceOf, hsc, if_true]
      have b1' : scaleApply (.plain (c.regionSlice m.region)) c.tLen = .ok r := b1
      rw [b1']
    · rw [← eg]
      show g.xLen = _
      rw [d2]
      show min m.region.x2 c.grid.xLen - m.region.x1 = _; rw [hxl]
    · rw [← eg]
      show g.yLen = _
      rw [d3]
      show min m.region.y2 c.grid.yLen - m.region.y1 = _; rw [hyl]
    · intro p s hpx hpy hp
      obtain ⟨series, q1, q2⟩ := hget p s hpx hpy hp
      exact ⟨series, q1, (fun h => by cases h), fun _ => ⟨b3 p series q2, fun hrec =>
        ⟨ds, er ▸ c2, c3 p series q2 hrec⟩⟩⟩

/-! ### C73 -/

/-- **C73**: a region created without scaling can be saved; loading the saved dataset then gives the same
region, and no other file changes. -/
theorem C73_save_load_partial (d d' : Disk K) (m : DirMeta) (hsc : m.scaled = false)
    (r : LoadedRegion K) (h : createInstance d m = (.ok r, d')) :
    ∃ d'', r.save d' = (.ok (), d'') ∧ loadSaved d'' m = .ok r.stack ∧ d''.raw = d'.raw ∧
      ∀ q, q ≠ m.datasetFile → d''.npy q = d'.npy q := by
  rw [createInstance_eq, Prod.mk.injEq] at h
  obtain ⟨h, _⟩ := h
  cases hr : (retrieve d m.yearStart m.yearEnd m.spd datasetName).1 with
  | error e => rw [hr] at h; cases h
  | ok c =>
    rw [hr] at h
    simp only [Except.bind, instanceOf, hsc, Bool.false_eq_true, if_false, Except.ok.injEq] at h
    subst h
    refine ⟨d'.write m.datasetFile (c.regionSlice m.region), rfl, ?_, rfl, ?_⟩
    · simp only [loadSaved, Disk.write, if_true]
    · intro q hq
      simp only [Disk.write, if_neg hq]

/-- **C73** fails for every scaled region (the default): saving raises ValueError and writes nothing. -/
theorem C73_scaled_not_saved_refuted (d d' : Disk K) (m : DirMeta) (hsc : m.scaled = true)
    (r : LoadedRegion K) (h : createInstance d m = (.ok r, d')) :
    r.save d' = (.error .valueError, d') := by
  rw [createInstance_eq, Prod.mk.injEq] at h
  obtain ⟨h, _⟩ := h
  cases hr : (retrieve d m.yearStart m.yearEnd m.spd datasetName).1 with
  | error e => rw [hr] at h; cases h
  | ok c =>
    rw [hr] at h
    simp only [Except.bind, instanceOf, hsc, if_true] at h
    cases hs : scaleApply (Stack.plain (c.regionSlice m.region)) c.tLen with
    | error e => rw [hs] at h; cases h
    | ok s =>
      rw [hs] at h
      simp only [Except.ok.injEq] at h
      subst h
      exact save_go_none _ _ rfl _

/-! ### Examples -/

/-- Two points, two days. -/
def dsCube : Cube (Option ℚ) :=
  ⟨8, ⟨1, 2, [[some 1, some 2, some 3, some 6, some 0, some 0, some 0, some 4],
    [some 1, none, some 3, some 6, some 5, some 5, some 5, some 5]]⟩⟩

example : dsCube.WF ∧ 4 ∣ dsCube.tLen := by decide

example : averageDaily dsCube = .ok ⟨2, ⟨1, 2, [[some 3, some 1], [none, some 5]]⟩⟩ := by decide +kernel

example : averageDaily (⟨3, ⟨1, 1, [[some 1, some 2, some 3]]⟩⟩ : Cube (Option ℚ)) =
    .error .valueError := by decide +kernel

/-- A complete raw dataset with one point, and a disk with nothing else. -/
def dsRaw : Cube (Option ℚ) := ⟨54056, ⟨1, 1, [List.replicate 54056 (some 1)]⟩⟩

theorem dsRaw_covers : CoversAllYears dsRaw := by
  refine ⟨⟨rfl, ?_⟩, ?_⟩
  · intro s hs
    simp only [dsRaw, List.mem_singleton] at hs
    rw [hs, List.length_replicate]; rfl
  · show (54056 : Int) = daysOfYears 1979 37 * 4
    decide

/-- A disk with the raw dataset only. -/
def dsDisk : Disk ℚ := ⟨some dsRaw, fun _ => none⟩

theorem dsDisk_noCache : NoCache dsDisk := fun _ _ _ _ h => by cases h

theorem pair_eq {α β : Type} {a : α × β} {x : α} (h : a.1 = x) : a = (x, a.2) := by rw [← h]

/-- Metadata of a region. -/
def dsMeta (name : Str) (scaled : Bool) : DirMeta := ⟨⟨name, ⟨0, 1, 0, 1⟩, 2014, 2015, 1, scaled⟩, sRaw⟩

example : ∃ c, (retrieve dsDisk 2014 2015 1 datasetName).1 = .ok c ∧
    ∃ out, c.grid.get ⟨0, 0⟩ = .ok out ∧
      IsYearSeries 2014 2015 1 (List.replicate 54056 (some 1)) out := by
  obtain ⟨c, h1, _, _, _, h5⟩ := C70_retrieved_value dsDisk dsDisk_noCache dsRaw rfl dsRaw_covers 2014
    2015 1 (by decide) (by decide) (by decide) (by decide)
  exact ⟨c, h1, h5 ⟨0, 0⟩ _ rfl⟩

example : ∀ op ∈ [DiskOp.save (dsMeta ['a'] false), .load (dsMeta ['a'] true), .retrieve 2014 2015 4],
    op.Safe := by
  intro op hop
  simp only [List.mem_cons, List.not_mem_nil, or_false] at hop
  rcases hop with rfl | rfl | rfl
  · exact Or.inr (Or.inr (by decide))
  · trivial
  · trivial

example : ∃ r d', createInstance dsDisk (dsMeta ['a'] true) = (.ok r, d') ∧
    r.save d' = (.error .valueError, d') := by
  obtain ⟨r, h, _⟩ := C72_create_instance dsDisk dsDisk_noCache [] (by simp) dsRaw rfl dsRaw_covers
    (dsMeta ['a'] true) (by decide) (by decide) (by decide) (by decide) (Nat.le_refl 1) (Nat.le_refl 1)
  rw [show runOps dsDisk [] = dsDisk from rfl] at h
  exact ⟨r, _, pair_eq h, C73_scaled_not_saved_refuted dsDisk _ _ rfl r (pair_eq h)⟩

example : ∃ r d', createInstance dsDisk (dsMeta ['a'] false) = (.ok r, d') := by
  obtain ⟨r, h, _⟩ := C72_create_instance dsDisk dsDisk_noCache [] (by simp) dsRaw rfl dsRaw_covers
    (dsMeta ['a'] false) (by decide) (by decide) (by decide) (by decide) (Nat.le_refl 1) (Nat.le_refl 1)
  rw [show runOps dsDisk [] = dsDisk from rfl] at h
  exact ⟨r, _, pair_eq h⟩

/-- With an empty rectangle, the overwritten cache has no points any more. -/
example : ∃ m : DirMeta, m.scaled = false ∧ m.dir = sRaw ∧ m.name = datasetName ∧
    ∃ c, (retrieve dsDisk m.yearStart m.yearEnd m.spd datasetName).1 = .ok c ∧
      (c.regionSlice m.region).grid.xLen ≠ c.grid.xLen := by
  refine ⟨⟨⟨datasetName, ⟨0, 0, 0, 1⟩, 2014, 2015, 1, false⟩, sRaw⟩, rfl, rfl, rfl, ?_⟩
  obtain ⟨c, h1, _, h3, _, _⟩ := C70_retrieved_value dsDisk dsDisk_noCache dsRaw rfl dsRaw_covers 2014
    2015 1 (by decide) (by decide) (by decide) (by decide)
  refine ⟨c, h1, ?_⟩
  show min 0 c.grid.xLen - 0 ≠ c.grid.xLen
  rw [h3]; decide

example : NpyKind.file (dsMeta ['a'] true) .distances =
    NpyKind.file (dsMeta (sDistances ++ ['a']) true) .dataset := C71_collision_refuted _

end Spta
