import Verif.Spec.RegionPickle
import Verif.Props.Dataset
import Verif.Props.SolverFiles

/-!
# C148: pickle files of regions
-/

namespace Spta

set_option linter.unusedSectionVars false

variable {K : Type} [Field K] [LinearOrder K]

/-! ### The data of the layers -/

namespace MdRegion

theorem stack_setMd (m : Option DirMeta) (r : MdRegion K) : (r.setMd m).stack = r.stack := by cases r <;> rfl

theorem md_setMd (m : Option DirMeta) (r : MdRegion K) : (r.setMd m).md = m := by cases r <;> rfl

theorem stack_new (r : MdRegion K) (c : Cube (Option K)) : (r.new c).stack = r.stack.new c := by
  induction r with
  | plain => rfl
  | scaled inner a b m ih => simp only [new, stack, Stack.new, ih]
  | cluster inner p i m ih => simp only [new, stack, Stack.new, ih]

theorem data_new (s : Stack K) (c : Cube (Option K)) : (s.new c).data = c := by
  induction s with
  | plain => rfl
  | scaled inner a b ih => exact ih
  | cluster inner p i ih => exact ih

theorem stack_interval (r : MdRegion K) (ti : TimeInterval) : (r.intervalSubset ti).stack = r.stack.intervalSubset ti := by
  induction r with
  | plain => rfl
  | scaled inner a b m ih => exact stack_new _ _
  | cluster inner p i m ih =>
    show (((cluster inner p i m).new _).setMd none).stack = (Stack.cluster inner.stack p i).new _
    rw [stack_setMd, stack_new, ih]
    rfl

theorem stack_region (r : MdRegion K) (q : Region) : (r.regionSubset q).map stack = r.stack.regionSubset q := by
  induction r with
  | plain => rfl
  | scaled inner a b m ih =>
    show (match inner.regionSubset q with | .error e => _ | .ok sub => _ : Except PyErr (MdRegion K)).map stack =
      (match inner.stack.regionSubset q with | .error e => _ | .ok sub => _)
    rw [← ih]
    cases inner.regionSubset q with
    | error e => rfl
    | ok sub =>
      simp only [Except.map]
      cases a.regionSubset q with
      | error e => rfl
      | ok a' =>
        simp only
        cases b.regionSubset q <;> rfl
  | cluster => rfl

theorem stack_apply (r : MdRegion K) (f : Point → List (Option K) → Except PyErr (List (Option K))) (n : Nat) :
    (r.applySeries f n).map stack = r.stack.applySeries f n := by
  unfold applySeries Stack.applySeries
  cases r.stack.items with
  | error e => rfl
  | ok items =>
    simp only
    cases applyWith f items (Grid.const r.stack.data.grid.xLen r.stack.data.grid.yLen (List.replicate n (some 0))) with
    | error e => rfl
    | ok g =>
      simp only [Except.map, stack_new, data_new]

theorem stack_repeat (r : MdRegion K) (series : List (Option K)) :
    (r.repeatSeries series).map stack = r.stack.repeatSeries series := by
  unfold repeatSeries Stack.repeatSeries
  cases copyArrayAsMatrixElements series r.stack.data.grid.xLen r.stack.data.grid.yLen with
  | error e => rfl
  | ok c => simp only [Except.map, stack_new]

theorem stack_scale (r : MdRegion K) : r.scale.map stack = scaleApply r.stack r.stack.data.tLen := by
  unfold scale scaleApply
  rw [if_pos rfl]
  cases r.stack.applyScalar (fun _ => nanMin) with
  | error e => rfl
  | ok a =>
    simp only
    cases r.stack.applyScalar (fun _ => nanMax) with
    | error e => rfl
    | ok b =>
      simp only
      rw [← stack_apply]
      cases r.applySeries (scaleAt r.stack.data.tLen a b) r.stack.data.tLen <;> rfl

theorem stack_descale (r : MdRegion K) : r.descale.map stack = r.stack.descale := by
  induction r with
  | plain => rfl
  | scaled inner a b m ih =>
    show (match (scaled inner a b m).applySeries _ _ with | .error e => _ | .ok r => _ : Except PyErr (MdRegion K)).map stack =
      (match (Stack.scaled inner.stack a b).applySeries _ _ with | .error e => _ | .ok r => _)
    have := stack_apply (scaled inner a b m) (descaleAt a b) inner.stack.data.tLen
    rw [show (Stack.scaled inner.stack a b).applySeries (descaleAt a b) inner.stack.data.tLen = _ from this.symm]
    cases (scaled inner a b m).applySeries (descaleAt a b) inner.stack.data.tLen with
    | error e => rfl
    | ok r => simp only [Except.map, stack_new]
  | cluster inner p i m ih =>
    show (match inner.descale with | .error e => _ | .ok r => _ : Except PyErr (MdRegion K)).map stack =
      (match inner.stack.descale with | .error e => _ | .ok r => _)
    rw [← ih]
    cases inner.descale with
    | error e => rfl
    | ok r => simp only [Except.map, stack_new]; rfl

end MdRegion

/-- **C148** (data): the methods change the data of the layers as those of the regions without metadata do, and
`create_instance` gives the region of `createInstance`. -/
theorem C148_data (r : MdRegion K) :
    (∀ ti, (r.intervalSubset ti).stack = r.stack.intervalSubset ti) ∧
    (∀ q, (r.regionSubset q).map MdRegion.stack = r.stack.regionSubset q) ∧
    (∀ q ti, (r.subset q ti).stack = r.stack.subset q ti) ∧
    (∀ series, (r.repeatSeries series).map MdRegion.stack = r.stack.repeatSeries series) ∧
    (∀ f n, (r.applySeries f n).map MdRegion.stack = r.stack.applySeries f n) ∧
    r.scale.map MdRegion.stack = scaleApply r.stack r.stack.data.tLen ∧
    r.descale.map MdRegion.stack = r.stack.descale :=
  ⟨r.stack_interval, r.stack_region, fun _ _ => r.stack_new _, r.stack_repeat, r.stack_apply, r.stack_scale, r.stack_descale⟩

theorem createRegion_eq (world : DirMeta → Except PyErr (Cube (Option K))) (m : DirMeta) :
    createRegion world m = match world m with
      | .error e => .error e
      | .ok c => if m.scaled then (MdRegion.plain (c.regionSlice m.region) (some m)).scale
        else .ok (.plain (c.regionSlice m.region) (some m)) := by
  unfold createRegion
  cases world m <;> rfl

theorem scale_md {r r' : MdRegion K} (h : r.scale = .ok r') : ∃ inner a b, r' = .scaled inner a b r.md ∧
    ∃ c, inner = r.new c := by
  unfold MdRegion.scale at h
  cases h1 : r.stack.applyScalar (fun _ => nanMin) with
  | error e => rw [h1] at h; cases h
  | ok a =>
    rw [h1] at h
    cases h2 : r.stack.applyScalar (fun _ => nanMax) with
    | error e => rw [h2] at h; cases h
    | ok b =>
      rw [h2] at h
      simp only at h
      cases h3 : r.applySeries (scaleAt r.stack.data.tLen a b) r.stack.data.tLen with
      | error e => rw [h3] at h; cases h
      | ok inner =>
        rw [h3] at h
        cases h
        refine ⟨inner, a, b, rfl, ?_⟩
        unfold MdRegion.applySeries at h3
        cases h4 : r.stack.applySeries (scaleAt r.stack.data.tLen a b) r.stack.data.tLen with
        | error e => rw [h4] at h3; cases h3
        | ok s => rw [h4] at h3; cases h3; exact ⟨_, rfl⟩

/-- **C148** (creation): the region has the metadata. It is the region that `createInstance` gives, with the metadata of
its outer and of its innermost layer. -/
theorem C148_created [IsStrictOrderedRing K] {world : DirMeta → Except PyErr (Cube (Option K))} {d : Disk K} {m : DirMeta}
    (hw : (retrieve d m.yearStart m.yearEnd m.spd datasetName).1 = world m) :
    (∀ e, createRegion world m = .error e ↔ (createInstance d m).1 = .error e) ∧
    ∀ r, createRegion world m = .ok r → r.md = some m ∧
      ∃ l, (createInstance d m).1 = .ok l ∧ r.stack = l.stack ∧ l.md = r.md ∧
        (m.scaled = true → ∃ c a b, r = .scaled (.plain c none) a b (some m)) ∧
        (m.scaled = false → ∃ c, r = .plain c (some m)) := by
  rw [createInstance_eq, createRegion_eq, hw]
  cases world m with
  | error e => exact ⟨fun _ => by simp [Except.bind], fun r h => by cases h⟩
  | ok c =>
    simp only [Except.bind, instanceOf]
    cases hs : m.scaled with
    | false =>
      simp only [Bool.false_eq_true, if_false]
      refine ⟨fun e => by simp, fun r h => ?_⟩
      cases h
      exact ⟨rfl, _, rfl, rfl, rfl, (fun h => by cases h), fun _ => ⟨_, rfl⟩⟩
    | true =>
      simp only [if_true]
      have hk : (MdRegion.plain (c.regionSlice m.region) (some m)).scale.map MdRegion.stack =
          scaleApply (Stack.plain (c.regionSlice m.region)) c.tLen :=
        MdRegion.stack_scale (.plain (c.regionSlice m.region) (some m))
      rw [← hk]
      cases h1 : (MdRegion.plain (c.regionSlice m.region) (some m)).scale with
      | error e => exact ⟨fun _ => by simp [Except.map], fun r h => by cases h⟩
      | ok r' =>
        refine ⟨fun e => by simp [Except.map], fun r h => ?_⟩
        cases h
        obtain ⟨inner, a, b, rfl, c', rfl⟩ := scale_md h1
        exact ⟨rfl, _, rfl, rfl, rfl, fun _ => ⟨c', a, b, rfl⟩, fun h => by cases h⟩

/-! ### Which regions have metadata -/

namespace MdRegion

variable {m : DirMeta}

theorem OnlyMd.md {r : MdRegion K} (h : r.OnlyMd m) : r.md = none ∨ r.md = some m := by
  cases r with
  | plain => exact h
  | scaled => exact h.1
  | cluster => exact h.1

theorem OnlyMd.new {r : MdRegion K} (h : r.OnlyMd m) (c : Cube (Option K)) : (r.new c).OnlyMd m := by
  induction r with
  | plain => exact .inl rfl
  | scaled inner a b md ih => exact ⟨h.1, ih h.2⟩
  | cluster inner p i md ih => exact ⟨h.1, ih h.2⟩

theorem OnlyMd.drop {r : MdRegion K} (h : r.OnlyMd m) : (r.setMd none).OnlyMd m := by
  cases r with
  | plain => exact .inl rfl
  | scaled => exact ⟨.inl rfl, h.2⟩
  | cluster => exact ⟨.inl rfl, h.2⟩

theorem OnlyMd.region {r r' : MdRegion K} (h : r.OnlyMd m) {q : Region} (e : r.regionSubset q = .ok r') : r'.OnlyMd m := by
  induction r generalizing r' with
  | plain => cases e; exact .inl rfl
  | scaled inner a b md ih =>
    unfold regionSubset at e
    cases h1 : inner.regionSubset q with
    | error e' => rw [h1] at e; cases e
    | ok sub =>
      rw [h1] at e
      simp only at e
      cases h2 : a.regionSubset q with
      | error e' => rw [h2] at e; cases e
      | ok a' =>
        rw [h2] at e
        simp only at e
        cases h3 : b.regionSubset q with
        | error e' => rw [h3] at e; cases e
        | ok b' =>
          rw [h3] at e
          cases e
          exact ⟨.inl rfl, ih h.2 h1⟩
  | cluster => cases e

theorem apply_new {r r' : MdRegion K} {f : Point → List (Option K) → Except PyErr (List (Option K))} {n : Nat}
    (e : r.applySeries f n = .ok r') : ∃ c, r' = r.new c := by
  unfold applySeries at e
  cases h4 : r.stack.applySeries f n with
  | error e' => rw [h4] at e; cases e
  | ok s => rw [h4] at e; cases e; exact ⟨_, rfl⟩

theorem OnlyMd.descale {r r' : MdRegion K} (h : r.OnlyMd m) (e : r.descale = .ok r') : r'.OnlyMd m := by
  induction r generalizing r' with
  | plain => cases e
  | scaled inner a b md ih =>
    unfold MdRegion.descale at e
    cases h1 : (scaled inner a b md).applySeries (descaleAt a b) inner.stack.data.tLen with
    | error e' => rw [h1] at e; cases e
    | ok s => rw [h1] at e; cases e; exact h.2.new _
  | cluster inner p i md ih =>
    unfold MdRegion.descale at e
    cases h1 : inner.descale with
    | error e' => rw [h1] at e; cases e
    | ok s => rw [h1] at e; cases e; exact h.new _

theorem OnlyMd.op {r r' : MdRegion K} (h : r.OnlyMd m) {o : RegionOp K} (e : o.run r = .ok r') : r'.OnlyMd m := by
  cases o with
  | interval ti =>
    cases e
    cases r with
    | plain => exact .inl rfl
    | scaled => exact h.new _
    | cluster => exact (h.new _).drop
  | region q => exact h.region e
  | subset q ti => cases e; exact h.new _
  | repeatSeries series =>
    have e : r.repeatSeries series = .ok r' := e
    unfold repeatSeries at e
    cases h1 : copyArrayAsMatrixElements series r.stack.data.grid.xLen r.stack.data.grid.yLen with
    | error e' => rw [h1] at e; cases e
    | ok c => rw [h1] at e; cases e; exact h.new _
  | apply f n =>
    obtain ⟨c, rfl⟩ := apply_new e
    exact h.new _
  | scale =>
    obtain ⟨inner, a, b, rfl, c, rfl⟩ := scale_md e
    exact ⟨h.md, h.new _⟩
  | descale => exact h.descale e
  | cluster pt i =>
    have e : r.createCluster pt i = .ok r' := e
    unfold createCluster at e
    split_ifs at e
    cases e
    exact ⟨h.md, h⟩

theorem OnlyMd.ops {os : List (RegionOp K)} {r r' : MdRegion K} (h : r.OnlyMd m) (e : runRegionOps os r = .ok r') :
    r'.OnlyMd m := by
  induction os generalizing r with
  | nil => cases e; exact h
  | cons o os ih =>
    unfold runRegionOps at e
    cases h1 : o.run r with
    | error e' => rw [h1] at e; cases e
    | ok s => rw [h1] at e; exact ih (h.op h1) e

end MdRegion

theorem createRegion_only {world : DirMeta → Except PyErr (Cube (Option K))} {m : DirMeta} {r : MdRegion K}
    (h : createRegion world m = .ok r) : r.OnlyMd m := by
  rw [createRegion_eq] at h
  cases hw : world m with
  | error e => rw [hw] at h; cases h
  | ok c =>
    rw [hw] at h
    simp only at h
    split_ifs at h
    · obtain ⟨inner, a, b, rfl, c', rfl⟩ := scale_md h
      exact ⟨.inr rfl, .inl rfl⟩
    · cases h; exact .inr rfl

/-- **C148** (metadata): whatever is done with the region of a metadata, the result has these metadata or none. -/
theorem C148_metadata {world : DirMeta → Except PyErr (Cube (Option K))} {run : PickleRun K} {r : MdRegion K}
    (h : run.result world = .ok r) : r.md = none ∨ r.md = some run.m := by
  unfold PickleRun.result at h
  cases h1 : createRegion world run.m with
  | error e => rw [h1] at h; cases h
  | ok s => rw [h1] at h; exact ((createRegion_only h1).ops h).md

theorem plain_op {c : Cube (Option K)} {md : Option DirMeta} {o : RegionOp K} (ho : ¬ o.Decorates) {r : MdRegion K}
    (e : o.run (.plain c md) = .ok r) : ∃ c', r = .plain c' none := by
  cases o with
  | interval ti => cases e; exact ⟨_, rfl⟩
  | region q => cases e; exact ⟨_, rfl⟩
  | subset q ti => cases e; exact ⟨_, rfl⟩
  | repeatSeries series =>
    have e : (MdRegion.plain c md).repeatSeries series = .ok r := e
    unfold MdRegion.repeatSeries at e
    cases h1 : copyArrayAsMatrixElements series (MdRegion.plain c md).stack.data.grid.xLen
        (MdRegion.plain c md).stack.data.grid.yLen with
    | error e' => rw [h1] at e; cases e
    | ok c' => rw [h1] at e; cases e; exact ⟨_, rfl⟩
  | apply f n =>
    obtain ⟨c', rfl⟩ := MdRegion.apply_new e
    exact ⟨_, rfl⟩
  | scale => exact (ho trivial).elim
  | descale => cases e
  | cluster pt i => exact (ho trivial).elim

theorem plain_ops {c : Cube (Option K)} {md : Option DirMeta} {os : List (RegionOp K)} (hne : os ≠ [])
    (ho : ∀ o ∈ os, ¬ o.Decorates) {r : MdRegion K} (e : runRegionOps os (.plain c md) = .ok r) :
    ∃ c', r = .plain c' none := by
  induction os generalizing c md with
  | nil => exact absurd rfl hne
  | cons o os ih =>
    unfold runRegionOps at e
    cases h1 : o.run (.plain c md) with
    | error e' => rw [h1] at e; cases e
    | ok s =>
      rw [h1] at e
      obtain ⟨c', rfl⟩ := plain_op (ho o (by simp)) h1
      by_cases hn : os = []
      · subst hn; cases e; exact ⟨_, rfl⟩
      · exact ih hn (fun o h => ho o (by simp [h])) e

/-- **C148** (derived regions): a region that is derived from an undecorated region without adding decorators has no metadata:
it cannot be pickled nor saved, and no file changes. -/
theorem C148_derived {world : DirMeta → Except PyErr (Cube (Option K))} {run : PickleRun K} {r : MdRegion K}
    (hs : run.m.scaled = false) (hne : run.ops ≠ []) (ho : ∀ o ∈ run.ops, ¬ o.Decorates) (h : run.result world = .ok r) :
    r.md = none ∧ (∀ home files, r.pickle home files = (.error .valueError, files)) ∧
      ∀ d, r.save d = (.error .valueError, d) := by
  unfold PickleRun.result at h
  rw [createRegion_eq] at h
  cases hw : world run.m with
  | error e => rw [hw] at h; cases h
  | ok c =>
    rw [hw] at h
    simp only [hs, Bool.false_eq_true, if_false] at h
    obtain ⟨c', rfl⟩ := plain_ops hne ho h
    exact ⟨rfl, fun _ _ => rfl, fun _ => rfl⟩

/-- **C148** (clusters): an interval of a cluster has no metadata either and cannot be pickled. -/
theorem C148_cluster_interval (inner : MdRegion K) (pt : Partition) (i : Nat) (md : Option DirMeta) (ti : TimeInterval)
    (home : Str) (files : PickledFiles K) :
    ((MdRegion.cluster inner pt i md).intervalSubset ti).pickle home files = (.error .valueError, files) := by
  show (MdRegion.setMd none _).pickle home files = _
  unfold MdRegion.pickle
  rw [MdRegion.md_setMd]

/-! ### Files -/

/-- **C148** (round trip): a region with metadata can be pickled, and the file gives it back; other files do not change. -/
theorem C148_round_trip {r : MdRegion K} {m : DirMeta} (h : r.md = some m) (home : Str) (files : PickledFiles K) :
    ∃ files', r.pickle home files = (.ok (), files') ∧ fromPickle files' (m.pickleFile home) = .ok (.region r) ∧
      ∀ path, path ≠ m.pickleFile home → fromPickle files' path = fromPickle files path := by
  refine ⟨pickleTo files (m.pickleFile home) (.region r), by unfold MdRegion.pickle; rw [h], ?_, ?_⟩
  · unfold fromPickle pickleTo
    rw [Function.update_self]
  · intro path hp
    unfold fromPickle pickleTo
    rw [Function.update_of_ne hp]

theorem pickleFile_repr {m m' : DirMeta} (hn : '/' ∉ m.name) (hn' : '/' ∉ m'.name) {home home' : Str}
    (e : m.pickleFile home = m'.pickleFile home') : m.repr = m'.repr := by
  have h1 : '/' ∉ m.repr ++ ".pickle".toList := by
    rw [List.mem_append]
    rintro (h | h)
    · exact hn (repr_slash.1 h)
    · revert h; decide
  have h2 : '/' ∉ m'.repr ++ ".pickle".toList := by
    rw [List.mem_append]
    rintro (h | h)
    · exact hn' (repr_slash.1 h)
    · revert h; decide
  exact List.append_cancel_right (append_slash_inj h1 h2 e).2

theorem repr_file {m : RegionMeta} (hn : '/' ∉ m.name) : ∀ t, m.repr ≠ '/' :: t := by
  intro t e
  exact hn (repr_slash.1 (by rw [e]; simp))

/-- **C148** (paths): the path of the file; two metadata share a file exactly if they have the same names, years, samples per
day and scaling. The rectangle and the directory do not matter. -/
theorem C148_paths {m m' : DirMeta} (hn : '/' ∉ m.name) (hn' : '/' ∉ m'.name) :
    m.pickleFile "pickle".toList = "pickle/".toList ++ m.repr ++ "/".toList ++ m.repr ++ ".pickle".toList ∧
    ∀ home, m.pickleFile home = m'.pickleFile home ↔ m.name = m'.name ∧ m.yearStart = m'.yearStart ∧
      m.yearEnd = m'.yearEnd ∧ m.spd = m'.spd ∧ m.scaled = m'.scaled := by
  constructor
  · have glue : ∀ {p p' r e s : Str}, p' = p ++ ['/'] → s = ['/'] →
        (p ++ '/' :: r) ++ '/' :: (r ++ e) = p' ++ r ++ s ++ r ++ e := by
      rintro p _ r e _ rfl rfl
      simp
    have hj : osJoin "pickle".toList m.repr = "pickle".toList ++ '/' :: m.repr := by
      have hr := repr_file hn
      unfold osJoin
      split
      · next t h => exact absurd h (hr _)
      · rw [if_neg (by decide)]
    unfold DirMeta.pickleFile
    rw [hj]
    exact glue rfl rfl
  · intro home
    constructor
    · intro e
      exact RegionMeta.repr_inj (pickleFile_repr hn hn' e)
    · rintro ⟨h1, h2, h3, h4, h5⟩
      have : m.repr = m'.repr := by unfold RegionMeta.repr; rw [h1, h2, h3, h4, h5]
      unfold DirMeta.pickleFile
      rw [this]

theorem pickleFile_last (m : DirMeta) (home : Str) : (m.pickleFile home).getLast? = some 'e' := by
  unfold DirMeta.pickleFile
  rw [show ".pickle".toList = ['.', 'p', 'i', 'c', 'k', 'l', 'e'] from rfl]
  simp [List.getLast?_cons]

/-- The last character of a path whose file name ends with `c`. -/
theorem osJoin_last (a : Str) {b : Str} {c : Char} (h : b.getLast? = some c) : (osJoin a b).getLast? = some c := by
  obtain ⟨b', rfl⟩ : ∃ b', b = b' ++ [c] := by
    rcases List.eq_nil_or_concat b with rfl | ⟨b', x, rfl⟩
    · cases h
    · rw [List.concat_eq_append] at h ⊢
      rw [List.getLast?_concat] at h
      cases h
      exact ⟨b', rfl⟩
  unfold osJoin
  split
  · next t e => rw [List.getLast?_concat]
  · split_ifs
    · rw [← List.append_assoc, List.getLast?_concat]
    · rw [← List.cons_append, ← List.append_assoc, List.getLast?_concat]

/-- **C148** (other files): the pickle file of a region is never that of a partition nor one of a solver, nor a numpy file of
a region. -/
theorem C148_other_files (m : DirMeta) (home : Str) :
    (∀ md dist c, m.pickleFile home ≠ picklePath md dist c) ∧
    (∀ s : SolverMeta, m.pickleFile home ≠ s.trainingPath ∧ m.pickleFile home ≠ s.wholePath ∧
      m.pickleFile home ≠ s.errorsPath) ∧
    ∀ m' : DirMeta, m.pickleFile home ≠ m'.datasetFile ∧ m.pickleFile home ≠ m'.distancesFile ∧
      m.pickleFile home ≠ m'.minFile ∧ m.pickleFile home ≠ m'.maxFile := by
  have hm := pickleFile_last m home
  have key : ∀ {q : Str} {c : Char}, c ≠ 'e' → q.getLast? = some c → m.pickleFile home ≠ q := by
    rintro q c hc hq rfl
    rw [hm] at hq
    cases hq
    exact hc rfl
  have hl : ('l' : Char) ≠ 'e' := by decide
  have hy : ('y' : Char) ≠ 'e' := by decide
  refine ⟨fun md dist c => key hl ?_, fun s => ⟨key hl ?_, key hl ?_, key hl ?_⟩,
    fun m' => ⟨key hy ?_, key hy ?_, key hy ?_, key hy ?_⟩⟩
  · refine osJoin_last _ ?_
    simp [List.getLast?_cons]
  · refine osJoin_last _ ?_
    simp [modelFile_true, List.getLast?_cons]
  · refine osJoin_last _ ?_
    simp [modelFile_false, List.getLast?_cons]
  · refine osJoin_last _ ?_
    simp [errorsFile_eq, List.getLast?_cons]
  all_goals
    simp [DirMeta.datasetFile, DirMeta.distancesFile, DirMeta.minFile, DirMeta.maxFile, sNpy, List.getLast?_cons]

/-! ### Sessions -/

section

variable {world : DirMeta → Except PyErr (Cube (Option K))}

theorem exec_writes {run : PickleRun K} {path : Str} {r : MdRegion K} (h : run.Writes world path r)
    (files : PickledFiles K) : run.exec world files = (.ok (), Function.update files path (some (.region r))) := by
  obtain ⟨h1, m, h2, rfl⟩ := h
  unfold PickleRun.exec
  rw [h1]
  simp only [MdRegion.pickle, h2, pickleTo]

theorem exec_other {run : PickleRun K} {path : Str} (h : ∀ r, ¬ run.Writes world path r) (files : PickledFiles K) :
    (run.exec world files).2 path = files path := by
  unfold PickleRun.exec
  cases h1 : run.result world with
  | error e => rfl
  | ok r =>
    simp only
    unfold MdRegion.pickle
    cases h2 : r.md with
    | none => rfl
    | some m =>
      refine Function.update_of_ne ?_ _ _
      rintro rfl
      exact h r ⟨h1, m, h2, rfl⟩

/-- **C148** (other files): a file that no program of the session writes is as before. -/
theorem C148_untouched {session : List (PickleRun K)} {path : Str} (h : ∀ run ∈ session, ∀ r, ¬ run.Writes world path r)
    (files : PickledFiles K) : runPickles world session files path = files path := by
  unfold runPickles
  induction session generalizing files with
  | nil => rfl
  | cons run session ih =>
    rw [List.foldl_cons, ih (fun run' hr => h run' (by simp [hr]))]
    exact exec_other (h run (by simp)) files

/-- **C148** (last): a file holds the region that was pickled to it last. -/
theorem C148_last {before after : List (PickleRun K)} {run : PickleRun K} {path : Str} {r : MdRegion K}
    (h : run.Writes world path r) (ha : ∀ run' ∈ after, ∀ r', ¬ run'.Writes world path r') (files : PickledFiles K) :
    fromPickle (runPickles world (before ++ run :: after) files) path = .ok (.region r) := by
  have e : runPickles world (before ++ run :: after) files =
      runPickles world after (run.exec world (runPickles world before files)).2 := by
    simp only [runPickles, List.foldl_append, List.foldl_cons]
  unfold fromPickle
  rw [e, C148_untouched ha, exec_writes h]
  simp only [Function.update_self]

theorem last_writer {session : List (PickleRun K)} {path : Str} (h : ∃ run ∈ session, ∃ r, run.Writes world path r) :
    ∃ before run after r, session = before ++ run :: after ∧ run.Writes world path r ∧
      ∀ run' ∈ after, ∀ r', ¬ run'.Writes world path r' := by
  induction session with
  | nil => obtain ⟨run, h, -⟩ := h; cases h
  | cons run session ih =>
    by_cases hs : ∃ run ∈ session, ∃ r, run.Writes world path r
    · obtain ⟨before, run', after, r, rfl, h1, h2⟩ := ih hs
      exact ⟨run :: before, run', after, r, rfl, h1, h2⟩
    · have hs : ∀ run' ∈ session, ∀ r, ¬ run'.Writes world path r := by
        intro run' h' r hr
        exact hs ⟨run', h', r, hr⟩
      obtain ⟨run', h1, r, h2⟩ := h
      rcases List.mem_cons.1 h1 with rfl | h1
      · exact ⟨[], run', session, r, rfl, h2, hs⟩
      · exact absurd h2 (hs run' h1 r)

/-- **C148**: after a session in which regions of a catalogue are created, transformed and pickled, the file of each region
that was pickled gives back the region that its metadata create, if no interval, part or function of a decorated region and
no cluster or scaled version is pickled. -/
theorem C148_session_partial {ms : List DirMeta} (hms : GoodDirs ms) {session : List (PickleRun K)}
    (hin : ∀ run ∈ session, run.m ∈ ms)
    (hplain : ∀ run ∈ session, run.ops = [] ∨ (run.m.scaled = false ∧ ∀ o ∈ run.ops, ¬ o.Decorates))
    {run : PickleRun K} (hrun : run ∈ session) (hops : run.ops = []) {r : MdRegion K} (hr : createRegion world run.m = .ok r)
    (files : PickledFiles K) :
    fromPickle (runPickles world session files) (run.m.pickleFile run.home) = .ok (.region r) := by
  have hmd : ∀ {run : PickleRun K} {r : MdRegion K}, run.ops = [] → createRegion world run.m = .ok r →
      run.result world = .ok r ∧ r.md = some run.m := by
    intro run r h1 h2
    have e : run.result world = .ok r := by
      unfold PickleRun.result
      rw [h2, h1]
      rfl
    refine ⟨e, ?_⟩
    rw [createRegion_eq] at h2
    cases hw : world run.m with
    | error e => rw [hw] at h2; cases h2
    | ok c =>
      rw [hw] at h2
      simp only at h2
      split_ifs at h2
      · obtain ⟨inner, a, b, rfl, -⟩ := scale_md h2
        rfl
      · cases h2; rfl
  obtain ⟨k1, k2⟩ := hmd hops hr
  obtain ⟨before, run', after, r', rfl, h1, h2⟩ := last_writer (world := world)
    ⟨run, hrun, r, k1, run.m, k2, rfl⟩
  rw [C148_last h1 h2]
  have hrun' : run' ∈ before ++ run' :: after := by simp
  obtain ⟨g1, m', g2, g3⟩ := h1
  have hm' : m' = run'.m := by
    rcases C148_metadata g1 with e | e
    · rw [e] at g2; cases g2
    · rw [e] at g2; cases g2; rfl
  subst hm'
  have hops' : run'.ops = [] := by
    rcases hplain _ hrun' with h | ⟨h3, h4⟩
    · exact h
    · by_contra hne
      have := (C148_derived h3 hne h4 g1).1
      rw [this] at g2
      cases g2
  obtain ⟨e1, e2, e3, e4, e5⟩ := RegionMeta.repr_inj
    (pickleFile_repr (hms.1 _ (hin _ hrun)) (hms.1 _ (hin _ hrun')) g3)
  have e6 := hms.2 _ (hin _ hrun) _ (hin _ hrun') e1 e2 e3 e4 e5
  unfold PickleRun.result at g1
  rw [← e6, hr, hops'] at g1
  cases g1
  rfl

/-- **C148** (refuted): an interval of a scaled region keeps the metadata; pickled, it replaces the whole region. -/
theorem C148_interval_refuted {m : DirMeta} (hs : m.scaled = true) {r : MdRegion K} (hr : createRegion world m = .ok r)
    (ti : TimeInterval) (home : Str) (files : PickledFiles K) :
    ∃ r', fromPickle (runPickles world [⟨m, [], home⟩, ⟨m, [.interval ti], home⟩] files) (m.pickleFile home) =
        .ok (.region r') ∧
      r'.md = r.md ∧ r'.stack.data.tLen = min ti.t2 r.stack.data.tLen - ti.t1 := by
  obtain ⟨inner, a, b, rfl, -⟩ : ∃ inner a b, r = .scaled inner a b (some m) ∧ ∃ c, inner = MdRegion.plain c none := by
    rw [createRegion_eq] at hr
    cases hw : world m with
    | error e => rw [hw] at hr; cases hr
    | ok c =>
      rw [hw] at hr
      simp only [hs, if_true] at hr
      obtain ⟨inner, a, b, e, c', e'⟩ := scale_md hr
      exact ⟨inner, a, b, e, c', e'⟩
  refine ⟨(MdRegion.scaled inner a b (some m)).intervalSubset ti, ?_, rfl, ?_⟩
  · refine C148_last (before := [⟨m, [], home⟩]) (run := ⟨m, [.interval ti], home⟩) (after := []) ⟨?_, m, rfl, rfl⟩
      (by simp) files
    show (match createRegion world m with | .error e => _ | .ok r => _) = _
    rw [hr]
    rfl
  · rw [MdRegion.stack_interval]
    show ((Stack.scaled inner.stack a b).new (inner.stack.data.intervalSlice ti)).data.tLen = _
    rw [MdRegion.data_new]
    rfl

/-- **C148** (refuted): a cluster has the metadata of its region; pickled, it replaces the region, and the file no longer has
the series outside of the cluster. -/
theorem C148_cluster_refuted {m : DirMeta} {r : MdRegion K} (hr : createRegion world m = .ok r) (hmd : r.md = some m)
    {pt : Partition} (hx : pt.labels.xLen = r.stack.data.grid.xLen) (hy : pt.labels.yLen = r.stack.data.grid.yLen)
    {i j : Nat} (hij : j ≠ i) {p : Point} (hp : pt.labels.get p = .ok j) (home : Str) (files : PickledFiles K) :
    ∃ r', fromPickle (runPickles world [⟨m, [], home⟩, ⟨m, [.cluster pt i], home⟩] files) (m.pickleFile home) =
        .ok (.region r') ∧ r'.stack.seriesAt p = .error .valueError := by
  refine ⟨.cluster r pt i r.md, ?_, ?_⟩
  · refine C148_last (before := [⟨m, [], home⟩]) (run := ⟨m, [.cluster pt i], home⟩) (after := [])
      (r := .cluster r pt i r.md) ⟨?_, m, hmd, rfl⟩ (by simp) files
    unfold PickleRun.result
    rw [hr]
    show (match r.createCluster pt i with | .error e => _ | .ok s => _) = _
    unfold MdRegion.createCluster
    rw [if_pos ⟨hx, hy⟩]
    rfl
  · show (match pt.isMember p i with | .error e => _ | .ok true => _ | .ok false => _) = _
    have : pt.isMember p i = .ok false := by
      unfold Partition.isMember
      rw [hp]
      simp only [beq_eq_false_iff_ne.2 hij]
    rw [this]

/-! ### The program of temporal.py -/

/-- No region has the file that the program reads. -/
theorem spSmallPickle_ne {m : DirMeta} (hn : '/' ∉ m.name) (home : Str) : m.pickleFile home ≠ spSmallPickle := by
  intro e
  have h1 : '/' ∉ m.repr ++ ".pickle".toList := by
    rw [List.mem_append]
    rintro (h | h)
    · exact hn (repr_slash.1 h)
    · revert h; decide
  have e' : osJoin home m.repr ++ '/' :: (m.repr ++ ".pickle".toList) =
      "pickle".toList ++ '/' :: "sp_small_1y_4ppd_first_norm.pickle".toList := e
  have h2 := (append_slash_inj h1 (by decide +kernel) e').2
  have h3 : m.repr ++ ".pickle".toList = "sp_small_1y_4ppd_first_norm".toList ++ ".pickle".toList := h2
  have h4 := congrArg List.getLast? (List.append_cancel_right h3)
  rw [show ("sp_small_1y_4ppd_first_norm".toList).getLast? = some 'm' by decide +kernel] at h4
  unfold RegionMeta.repr at h4
  cases hs : m.scaled with
  | false => simp [hs, List.getLast?_cons] at h4
  | true => simp [hs, sScaled, List.getLast?_cons] at h4

/-- **C148** (program, refuted): the program cannot save its scaled region: it ends with a ValueError before anything is
written. Without scaling, it saves and pickles the region, and then does not find the file that it reads. -/
theorem C148_program_refuted {m : DirMeta} {r : MdRegion K} (hr : createRegion world m = .ok r)
    (x : Disk K × PickledFiles K) :
    (m.scaled = true → temporalProgram world m x = (.error .valueError, x)) ∧
    (m.scaled = false → '/' ∉ m.name → x.2 "pickle/sp_small_1y_4ppd_first_norm.pickle".toList = none →
      ∃ c, r = .plain c (some m) ∧
        temporalProgram world m x = (.error .ioError, x.1.write m.datasetFile c,
          Function.update x.2 (m.pickleFile "pickle".toList) (some (.region r)))) := by
  have hr' := hr
  rw [createRegion_eq] at hr'
  cases hw : world m with
  | error e => rw [hw] at hr'; cases hr'
  | ok c =>
    rw [hw] at hr'
    simp only at hr'
    constructor
    · intro hs
      rw [if_pos hs] at hr'
      obtain ⟨inner, a, b, rfl, c', rfl⟩ := scale_md hr'
      unfold temporalProgram
      rw [hr]
      rfl
    · intro hs hn hx
      rw [if_neg (by rw [hs]; decide)] at hr'
      cases hr'
      refine ⟨_, rfl, ?_⟩
      have hf : fromPickle (Function.update x.2 (m.pickleFile sPickle)
          (some (.region (.plain (c.regionSlice m.region) (some m))))) spSmallPickle = .error .ioError := by
        unfold fromPickle
        rw [Function.update_of_ne (fun e => spSmallPickle_ne hn _ e.symm)]
        rw [show x.2 spSmallPickle = none from hx]
      unfold temporalProgram
      rw [hr]
      simp only [MdRegion.save, MdRegion.pickle, MdRegion.md, pickleTo, hf]
      rfl

end

/-! ### Examples -/

/-- Three samples at two points. -/
def pickleWorld (K : Type) [Field K] : DirMeta → Except PyErr (Cube (Option K)) :=
  fun _ => .ok ⟨3, ⟨1, 2, [[some 1, some 2, some 3], [some 4, some 4, some 6]]⟩⟩

def pickleMeta (scaled : Bool) : DirMeta := ⟨⟨['b'], ⟨0, 1, 0, 2⟩, 2015, 2015, 1, scaled⟩, sRaw⟩

def pickledPlain (K : Type) [Field K] : MdRegion K :=
  .plain ⟨3, ⟨1, 2, [[some 1, some 2, some 3], [some 4, some 4, some 6]]⟩⟩ (some (pickleMeta false))

theorem pickleWorld_plain : createRegion (pickleWorld ℚ) (pickleMeta false) = .ok (pickledPlain ℚ) := by decide +kernel

/-- Three runs: the region, an interval of it, which cannot be pickled, and the scaled region. -/
def pickleSession : List (PickleRun ℚ) :=
  [⟨pickleMeta false, [], sPickle⟩, ⟨pickleMeta false, [.interval ⟨0, 2⟩], sPickle⟩, ⟨pickleMeta true, [], sPickle⟩]

theorem pickleMeta_good : GoodDirs [pickleMeta false, pickleMeta true] := by unfold GoodDirs; decide +kernel

/-- The hypotheses of `C148_session_partial` hold. -/
example : fromPickle (runPickles (pickleWorld ℚ) pickleSession fun _ => none)
    "pickle/b_2015_2015_1spd/b_2015_2015_1spd.pickle".toList = .ok (.region (pickledPlain ℚ)) := by
  have h := C148_session_partial pickleMeta_good (session := pickleSession)
    (by intro run h; simp only [pickleSession, List.mem_cons, List.not_mem_nil, or_false] at h
        rcases h with rfl | rfl | rfl <;> decide)
    (by intro run h; simp only [pickleSession, List.mem_cons, List.not_mem_nil, or_false] at h
        rcases h with rfl | rfl | rfl
        · exact .inl rfl
        · refine .inr ⟨rfl, ?_⟩
          intro o ho
          obtain rfl := List.mem_singleton.1 ho
          exact id
        · exact .inl rfl)
    (run := ⟨pickleMeta false, [], sPickle⟩) (by simp [pickleSession]) rfl pickleWorld_plain (fun _ => none)
  exact (congrArg _ (by decide +kernel)).trans h

/-- The file of the scaled region gives back a region that can be descaled. -/
example : ∃ r, fromPickle (runPickles (pickleWorld ℚ) pickleSession fun _ => none)
      "pickle/b_2015_2015_1spd_scaled/b_2015_2015_1spd_scaled.pickle".toList = .ok (.region r) ∧
    r.descale.map MdRegion.stack = .ok (pickledPlain ℚ).stack := by
  obtain ⟨r, hr⟩ : ∃ r, createRegion (pickleWorld ℚ) (pickleMeta true) = .ok r := by
    cases h : createRegion (pickleWorld ℚ) (pickleMeta true) with
    | ok r => exact ⟨r, rfl⟩
    | error e =>
      exfalso
      have : (match createRegion (pickleWorld ℚ) (pickleMeta true) with | .ok _ => true | .error _ => false) = true := by
        decide +kernel
      rw [h] at this
      cases this
  refine ⟨r, ?_, ?_⟩
  · rw [← C148_last (world := pickleWorld ℚ) (before := pickleSession.take 2) (run := ⟨pickleMeta true, [], sPickle⟩)
      (after := []) (path := (pickleMeta true).pickleFile sPickle) (r := r) ⟨?_, pickleMeta true, ?_, rfl⟩ (by simp)
      (fun _ => none)]
    · exact congrArg _ (by decide +kernel)
    · unfold PickleRun.result
      rw [hr]
      rfl
    · have : (match createRegion (pickleWorld ℚ) (pickleMeta true) with | .ok r => r.md | .error _ => none) =
          some (pickleMeta true) := by decide +kernel
      rw [hr] at this
      exact this
  · have : (match createRegion (pickleWorld ℚ) (pickleMeta true) with
        | .ok r => r.descale.map MdRegion.stack | .error e => .error e) = .ok (pickledPlain ℚ).stack := by decide +kernel
    rw [hr] at this
    exact this

/-- An interval of the region cannot be pickled. -/
example (files : PickledFiles ℚ) : ∃ r, (⟨pickleMeta false, [.interval ⟨0, 2⟩], sPickle⟩ : PickleRun ℚ).result (pickleWorld ℚ) =
    .ok r ∧ r.stack.data.tLen = 2 ∧ r.pickle sPickle files = (.error .valueError, files) := by
  have e : (⟨pickleMeta false, [.interval ⟨0, 2⟩], sPickle⟩ : PickleRun ℚ).result (pickleWorld ℚ) =
      .ok ((pickledPlain ℚ).intervalSubset ⟨0, 2⟩) := by
    unfold PickleRun.result
    rw [pickleWorld_plain]
    rfl
  refine ⟨_, e, rfl, (C148_derived rfl (by simp) ?_ e).2.1 _ _⟩
  intro o ho
  obtain rfl := List.mem_singleton.1 ho
  exact id

/-- The name in spta/tests/region/test_metadata.py:53-57. -/
example : (⟨⟨"sp_small".toList, ⟨40, 50, 50, 60⟩, 2015, 2015, 1, true⟩, sRaw⟩ : DirMeta).pickleFile sPickle =
    "pickle/sp_small_2015_2015_1spd_scaled/sp_small_2015_2015_1spd_scaled.pickle".toList := by decide +kernel

/-- An interval of the scaled region replaces it. -/
example (files : PickledFiles ℚ) : ∃ r', fromPickle (runPickles (pickleWorld ℚ)
      [⟨pickleMeta true, [], sPickle⟩, ⟨pickleMeta true, [.interval ⟨0, 2⟩], sPickle⟩] files)
      ((pickleMeta true).pickleFile sPickle) = .ok (.region r') ∧ r'.stack.data.tLen = 2 := by
  obtain ⟨r, hr⟩ : ∃ r, createRegion (pickleWorld ℚ) (pickleMeta true) = .ok r ∧ r.stack.data.tLen = 3 := by
    have : (match createRegion (pickleWorld ℚ) (pickleMeta true) with
        | .ok r => r.stack.data.tLen | .error _ => 0) = 3 := by decide +kernel
    cases h : createRegion (pickleWorld ℚ) (pickleMeta true) with
    | ok r => rw [h] at this; exact ⟨r, rfl, this⟩
    | error e => rw [h] at this; cases this
  obtain ⟨r', h1, -, h2⟩ := C148_interval_refuted rfl hr.1 ⟨0, 2⟩ sPickle files
  refine ⟨r', h1, ?_⟩
  rw [h2, hr.2]
  rfl

/-- So does a cluster of the region. -/
example (files : PickledFiles ℚ) : ∃ r', fromPickle (runPickles (pickleWorld ℚ)
      [⟨pickleMeta false, [], sPickle⟩, ⟨pickleMeta false, [.cluster ⟨⟨1, 2, [0, 1]⟩, 2, 0⟩ 0], sPickle⟩] files)
      ((pickleMeta false).pickleFile sPickle) = .ok (.region r') ∧ r'.stack.seriesAt ⟨0, 1⟩ = .error .valueError :=
  C148_cluster_refuted pickleWorld_plain rfl rfl rfl (j := 1) (by decide) rfl _ _

/-- The program of temporal.py. -/
example (x : Disk ℚ × PickledFiles ℚ) : temporalProgram (pickleWorld ℚ) (pickleMeta true) x = (.error .valueError, x) := by
  cases h : createRegion (pickleWorld ℚ) (pickleMeta true) with
  | ok r => exact (C148_program_refuted h x).1 rfl
  | error e =>
    exfalso
    have : (match createRegion (pickleWorld ℚ) (pickleMeta true) with | .ok _ => true | .error _ => false) = true := by
      decide +kernel
    rw [h] at this
    cases this

end Spta
