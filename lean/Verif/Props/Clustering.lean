import Verif.Lemmas.Clustering

/-!
# C38, C50, C51: partition cache, representations and result CSV
-/

namespace Spta

/-! ### C50 -/

/-- **C50** for regular clusterings. -/
theorem C50_regular (k : Int) :
    factoryFromRepr (ClusterMeta.regular k).repr = .ok (.regular k) := by
  unfold factoryFromRepr regularFromRepr
  rw [regular_parts]
  simp [listAt, pyInt_intStr]

/-- **C50** for k-medoids without initial medoids: same type, k, seed and mode (the other parameters
take their default values). -/
theorem C50_kmedoids {m : KmMeta} (hm : '_' ∉ m.mode) (hi : m.initial = none) :
    factoryFromRepr m.repr = .ok (.kmedoids { k := m.k, seed := m.seed, mode := m.mode }) := by
  have h0 : sKmedoids ≠ sRegular := by decide
  have h1 : (sSeed ++ intStr m.seed).drop 4 = intStr m.seed := rfl
  have e : pySplit '_' m.repr = [sKmedoids, 'k' :: intStr m.k, sSeed ++ intStr m.seed, m.mode] := by
    rw [KmMeta.parts hm, hi]; rfl
  unfold factoryFromRepr kmedoidsFromRepr
  rw [e]
  simp [listAt, pyInt_intStr, h0, h1]

/-- With initial medoids they are lost (as the documentation of the code says). -/
theorem C50_initial_lost {m : KmMeta} (hm : '_' ∉ m.mode) {im : List Int} (hi : m.initial = some im) :
    factoryFromRepr m.repr = .ok (.kmedoids { k := m.k, seed := m.seed, mode := m.mode }) := by
  have h0 : sKmedoids ≠ sRegular := by decide
  have h1 : (sSeed ++ intStr m.seed).drop 4 = intStr m.seed := rfl
  have e : pySplit '_' m.repr = [sKmedoids, 'k' :: intStr m.k, sSeed ++ intStr m.seed, m.mode,
      ['i', 'm'] ++ pyJoin ['-'] (im.map intStr)] := by
    rw [KmMeta.parts hm, hi]; rfl
  unfold factoryFromRepr kmedoidsFromRepr
  rw [e]
  simp [listAt, pyInt_intStr, h0, h1]

/-- **C50** for the label of a classifier, `k-seed-i`. -/
theorem C50_label (k seed i : Nat) {mode : Str} (hm : '_' ∉ mode) :
    fromClassifierLabel (natStr k ++ ['-'] ++ natStr seed ++ ['-'] ++ natStr i) mode =
      .ok (.kmedoids { k := k, seed := seed, mode := mode }) := by
  have hd : ∀ n, '-' ∉ natStr n := fun n => natStr_not_mem (digit_ne (by decide))
  have e : pySplit '-' (natStr k ++ ['-'] ++ natStr seed ++ ['-'] ++ natStr i) =
      [natStr k, natStr seed, natStr i] := by
    have e' : natStr k ++ ['-'] ++ natStr seed ++ ['-'] ++ natStr i =
        natStr k ++ '-' :: (natStr seed ++ '-' :: natStr i) := by simp
    rw [e', pySplit_append, pySplit_append, pySplit_of_not_mem (hd _), pySplit_of_not_mem (hd _),
      pySplit_of_not_mem (hd _)]
    rfl
  unfold fromClassifierLabel
  rw [e]
  have h := C50_kmedoids (m := { k := k, seed := seed, mode := mode }) hm rfl
  unfold factoryFromRepr at h
  have hp := KmMeta.parts (m := { k := k, seed := seed, mode := mode }) hm
  rw [hp] at h
  have h0 : sKmedoids ≠ sRegular := by decide
  simp only [listAt, List.cons_append, List.getElem?_cons_zero, h0, if_false, if_true] at h
  exact h

/-- `kmedoids_k13_seed7_lite` -/
example : factoryFromRepr ['k','m','e','d','o','i','d','s','_','k','1','3','_','s','e','e','d','7','_',
    'l','i','t','e'] = .ok (.kmedoids { k := 13, seed := 7 }) ∧
    ({ k := 13, seed := 7 } : KmMeta).repr = ['k','m','e','d','o','i','d','s','_','k','1','3','_','s',
      'e','e','d','7','_','l','i','t','e'] ∧
    fromClassifierLabel ['1','3','-','0','-','6'] sLite = .ok (.kmedoids { k := 13, seed := 0 }) := by
  decide +kernel

/-! ### C51 -/

/-- The points that the indices stand for in the dataset: `x_len`-major numbering of the rectangle,
plus its offset. -/
def absolutePointsOf (r : Region) (indices : List Nat) : List (Int × Int) :=
  indices.map fun (i : Nat) =>
    (((i / (r.y2 - r.y1) + r.x1 : Nat) : Int), ((i % (r.y2 - r.y1) + r.y1 : Nat) : Int))

theorem parsePoint_str (x y : Nat) :
    parsePoint (['('] ++ natStr x ++ [','] ++ natStr y ++ [')']) = .ok ((x : Int), (y : Int)) := by
  have hslice : pySlice (['('] ++ natStr x ++ [','] ++ natStr y ++ [')']) 1 (-1) =
      natStr x ++ ',' :: natStr y := by
    have e : ['('] ++ natStr x ++ [','] ++ natStr y ++ [')'] =
        '(' :: ((natStr x ++ ',' :: natStr y) ++ [')']) := by simp
    rw [e]
    generalize natStr x ++ ',' :: natStr y = w
    have hl : ('(' :: (w ++ [')'])).length = w.length + 2 := by simp
    have h1 : pyBound (w.length + 2) 1 = 1 := by simp [pyBound]
    have h2 : pyBound (w.length + 2) (-1) = w.length + 1 := by simp [pyBound]; omega
    rw [pySlice, hl, h1, h2]
    simp
  have hc : ∀ n, ',' ∉ natStr n := fun n => natStr_not_mem (digit_ne (by decide))
  unfold parsePoint
  rw [hslice, pySplit_append, pySplit_of_not_mem (hc _), pySplit_of_not_mem (hc _)]
  simp [listAt, pyInt_natStr]

theorem parseMedoids_cons (x y : Nat) (rest : Str) :
    parseMedoids (['('] ++ natStr x ++ [','] ++ natStr y ++ [')', ' '] ++ rest) =
      match parseMedoids rest with
      | .error e => .error e
      | .ok ps => .ok (((x : Int), (y : Int)) :: ps) := by
  have hb : ' ' ∉ ['('] ++ natStr x ++ [','] ++ natStr y ++ [')'] := by
    have hc : ∀ n, ' ' ∉ natStr n := fun n => natStr_not_mem (digit_ne (by decide))
    simp [hc]
  have e : ['('] ++ natStr x ++ [','] ++ natStr y ++ [')', ' '] ++ rest =
      (['('] ++ natStr x ++ [','] ++ natStr y ++ [')']) ++ ' ' :: rest := by simp
  unfold parseMedoids
  rw [e, pySplit_append, pySplit_of_not_mem hb, List.singleton_append,
    List.dropLast_cons_of_ne_nil (pySplit_ne_nil _ _), List.mapM_cons, parsePoint_str]
  cases (pySplit ' ' rest).dropLast.mapM parsePoint <;> rfl

/-- **C51**: for every rectangle and list of indices, the medoid column can be written, and reading it
gives the absolute coordinates of the medoids in the same order. -/
theorem C51_column {r : Region} (hr : r.y1 < r.y2) (indices : List Nat) :
    ∃ s, medoidsString r indices = .ok s ∧ parseMedoids s = .ok (absolutePointsOf r indices) := by
  have hy : r.y2 - r.y1 ≠ 0 := by omega
  induction indices with
  | nil => exact ⟨[], rfl, rfl⟩
  | cons i is ih =>
    obtain ⟨s, h1, h2⟩ := ih
    refine ⟨_, by simp only [medoidsString, indexToAbsolutePoint, indexToPoint, hy, if_false, h1]; rfl,
      ?_⟩
    rw [parseMedoids_cons, h2]
    rfl

/-- A line of the result CSV: representation, cost and medoids — experiments/clustering/
partition_analysis.py:126-132. -/
def suiteLine (key cost column : Str) : Str := csvRow [key, cost, column]

theorem readSuiteRows_ok (rows : List (Str × Str × Str × List (Int × Int)))
    (hc : ∀ w ∈ rows, parseMedoids w.2.2.1 = .ok w.2.2.2)
    (done : List (Str × List (Int × Int)))
    (hn : (done.map Prod.fst ++ rows.map fun w => w.1).Nodup) :
    readSuiteRows (rows.map fun w => suiteLine w.1 w.2.1 w.2.2.1) done =
      .ok (done ++ rows.map fun w => (w.1, w.2.2.2)) := by
  induction rows generalizing done with
  | nil => simp [readSuiteRows]
  | cons w ws ih =>
    have hset : ∀ (l : List (Str × List (Int × Int))), w.1 ∉ l.map Prod.fst →
        dictSet w.1 w.2.2.2 l = l ++ [(w.1, w.2.2.2)] := by
      intro l
      induction l with
      | nil => intro _; rfl
      | cons a l ih =>
        intro h
        obtain ⟨a1, a2⟩ := a
        simp only [List.map_cons, List.mem_cons, not_or] at h
        rw [dictSet, if_neg (fun e => h.1 e.symm), ih h.2]
        rfl
    have hw : w.1 ∉ done.map Prod.fst := by
      intro hm
      rw [List.nodup_append] at hn
      exact hn.2.2 _ hm _ (by simp) rfl
    rw [List.map_cons, readSuiteRows, suiteLine, csvReadRow_csvRow]
    simp only [listAt, List.getElem?_cons_zero, List.getElem?_cons_succ, hc w (by simp)]
    rw [hset done hw, ih (fun v hv => hc v (by simp [hv]))]
    · simp
    · simpa using hn

/-- **C51** for a whole result file: writing, for clusterings with different representations, the
representation, any cost and the medoids, then reading the suite result, gives the representations
with their medoids, in order. -/
theorem C51_file {r : Region} (hr : r.y1 < r.y2) (header : Str)
    (rows : List (Str × Str × List Nat)) (hn : (rows.map fun w => w.1).Nodup) :
    ∃ columns, rows.mapM (fun w => medoidsString r w.2.2) = .ok columns ∧
      retrieveSuiteResult (some (header :: List.zipWith (fun w c => suiteLine w.1 w.2.1 c) rows columns))
        = .ok (rows.map fun w => (w.1, absolutePointsOf r w.2.2)) := by
  have hcol := fun (w : Str × Str × List Nat) => C51_column hr w.2.2
  choose col h1 h2 using hcol
  refine ⟨rows.map col, mapM_ok _ col rows fun w _ => h1 w, ?_⟩
  have := readSuiteRows_ok (rows.map fun w => (w.1, w.2.1, col w, absolutePointsOf r w.2.2))
    (by intro w hw; obtain ⟨v, _, rfl⟩ := List.mem_map.1 hw; exact h2 v) []
    (by rw [List.map_map]; exact hn)
  simp only [List.nil_append, List.map_map] at this
  rw [retrieveSuiteResult, List.zipWith_map_right, List.zipWith_self]
  exact this

theorem suiteDict_mem (key : Str) (v : List (Int × Int)) (l : List (Str × List (Int × Int)))
    (hn : (l.map Prod.fst).Nodup) :
    ((dictSet key v l).map Prod.fst).Nodup ∧
      ∀ k' v', (k', v') ∈ dictSet key v l ↔ (k' = key ∧ v' = v) ∨ (k' ≠ key ∧ (k', v') ∈ l) := by
  have hkeys : ∀ (l : List (Str × List (Int × Int))) k', k' ∈ (dictSet key v l).map Prod.fst ↔
      k' = key ∨ k' ∈ l.map Prod.fst := by
    intro l k'
    induction l with
    | nil => simp [dictSet]
    | cons a l ih =>
      obtain ⟨a, b⟩ := a
      rw [dictSet]
      split_ifs with h
      · subst h
        simp
      · rw [List.map_cons, List.mem_cons, ih, List.map_cons, List.mem_cons]
        tauto
  induction l with
  | nil => simp [dictSet]
  | cons a l ih =>
    obtain ⟨a, b⟩ := a
    rw [List.map_cons, List.nodup_cons] at hn
    rw [dictSet]
    split_ifs with h
    · subst h
      refine ⟨by rw [List.map_cons, List.nodup_cons]; exact hn, fun k' v' => ?_⟩
      simp only [List.mem_cons, Prod.mk.injEq]
      constructor
      · rintro (h | h)
        · exact Or.inl h
        · exact Or.inr ⟨fun e => hn.1 (List.mem_map.2 ⟨_, h, e⟩), Or.inr h⟩
      · rintro (h | ⟨h, h' | h'⟩)
        · exact Or.inl h
        · exact absurd h'.1 h
        · exact Or.inr h'
    · obtain ⟨h1, h2⟩ := ih hn.2
      refine ⟨?_, fun k' v' => ?_⟩
      · rw [List.map_cons, List.nodup_cons, hkeys]
        exact ⟨fun e => e.elim h hn.1, h1⟩
      · rw [List.mem_cons, h2, List.mem_cons]
        constructor
        · rintro (e | e | e)
          · exact Or.inr ⟨fun e' => h (by rw [← e', (Prod.mk.inj e).1]), Or.inl e⟩
          · exact Or.inl e
          · exact Or.inr ⟨e.1, Or.inr e.2⟩
        · rintro (e | ⟨e, e' | e'⟩)
          · exact Or.inr (Or.inl e)
          · exact Or.inl e'
          · exact Or.inr (Or.inr ⟨e, e'⟩)

theorem readSuiteRows_any (rows : List (Str × Str × Str × List (Int × Int)))
    (hc : ∀ w ∈ rows, parseMedoids w.2.2.1 = .ok w.2.2.2)
    (done : List (Str × List (Int × Int))) (hn : (done.map Prod.fst).Nodup) :
    ∃ d, readSuiteRows (rows.map fun w => suiteLine w.1 w.2.1 w.2.2.1) done = .ok d ∧
      (d.map Prod.fst).Nodup ∧
      ∀ key ps, (key, ps) ∈ d ↔
        (∃ pre w post, rows = pre ++ w :: post ∧ w.1 = key ∧ (∀ v ∈ post, v.1 ≠ key) ∧ ps = w.2.2.2) ∨
        ((∀ v ∈ rows, v.1 ≠ key) ∧ (key, ps) ∈ done) := by
  induction rows generalizing done with
  | nil => exact ⟨done, rfl, hn, fun key ps => by simp⟩
  | cons w ws ih =>
    obtain ⟨hn', hm⟩ := suiteDict_mem w.1 w.2.2.2 done hn
    obtain ⟨d, h1, h2, h3⟩ := ih (fun v hv => hc v (by simp [hv])) _ hn'
    refine ⟨d, ?_, h2, fun key ps => ?_⟩
    · rw [List.map_cons, readSuiteRows, suiteLine, csvReadRow_csvRow]
      simp only [listAt, List.getElem?_cons_zero, List.getElem?_cons_succ, hc w (by simp)]
      exact h1
    · rw [h3, hm]
      constructor
      · rintro (⟨pre, v, post, rfl, e1, e2, e3⟩ | ⟨e1, ⟨rfl, rfl⟩ | ⟨e2, e3⟩⟩)
        · exact Or.inl ⟨w :: pre, v, post, rfl, e1, e2, e3⟩
        · exact Or.inl ⟨[], w, ws, rfl, rfl, e1, rfl⟩
        · refine Or.inr ⟨?_, e3⟩
          intro v hv
          rcases List.mem_cons.1 hv with rfl | hv
          · exact fun e => e2 e.symm
          · exact e1 v hv
      · rintro (⟨pre, v, post, e, e1, e2, e3⟩ | ⟨e1, e2⟩)
        · cases pre with
          | nil =>
            obtain ⟨rfl, rfl⟩ := List.cons.inj e
            exact Or.inr ⟨e2, Or.inl ⟨e1.symm, e3⟩⟩
          | cons a pre =>
            obtain ⟨rfl, rfl⟩ := List.cons.inj e
            exact Or.inl ⟨pre, v, post, rfl, e1, e2, e3⟩
        · exact Or.inr ⟨fun v hv => e1 v (by simp [hv]),
            Or.inr ⟨fun e => e1 w (by simp) e.symm, e2⟩⟩

/-- **C51** for any result file: when several rows have the same representation, the reader keeps one
entry, with the medoids of the last of these rows. -/
theorem C51_last_row {r : Region} (hr : r.y1 < r.y2) (header : Str)
    (rows : List (Str × Str × List Nat)) :
    ∃ columns d, rows.mapM (fun w => medoidsString r w.2.2) = .ok columns ∧
      retrieveSuiteResult (some (header :: List.zipWith (fun w c => suiteLine w.1 w.2.1 c) rows columns))
        = .ok d ∧ (d.map Prod.fst).Nodup ∧
      ∀ key ps, (key, ps) ∈ d ↔ ∃ pre w post, rows = pre ++ w :: post ∧ w.1 = key ∧
        (∀ v ∈ post, v.1 ≠ key) ∧ ps = absolutePointsOf r w.2.2 := by
  have hcol := fun (w : Str × Str × List Nat) => C51_column hr w.2.2
  choose col h1 h2 using hcol
  obtain ⟨d, e1, e2, e3⟩ :=
    readSuiteRows_any (rows.map fun w => (w.1, w.2.1, col w, absolutePointsOf r w.2.2))
      (by intro w hw; obtain ⟨v, _, rfl⟩ := List.mem_map.1 hw; exact h2 v) [] (by simp)
  refine ⟨rows.map col, d, mapM_ok _ col rows fun w _ => h1 w, ?_, e2, fun key ps => ?_⟩
  · rw [retrieveSuiteResult, List.zipWith_map_right, List.zipWith_self]
    simp only [List.map_map] at e1
    exact e1
  · rw [e3]
    simp only [List.not_mem_nil, and_false, or_false]
    constructor
    · rintro ⟨pre, w, post, e, e1, e2, rfl⟩
      obtain ⟨pre', l, rfl, rfl, e'⟩ := List.map_eq_append_iff.1 e
      obtain ⟨w', post', rfl, rfl, rfl⟩ := List.map_eq_cons_iff.1 e'
      exact ⟨pre', w', post', rfl, e1, fun v hv => e2 _ (List.mem_map.2 ⟨v, hv, rfl⟩), rfl⟩
    · rintro ⟨pre, w, post, rfl, e1, e2, rfl⟩
      refine ⟨pre.map _, _, post.map _, by rw [List.map_append, List.map_cons], e1, ?_, rfl⟩
      intro v hv
      obtain ⟨u, hu, rfl⟩ := List.mem_map.1 hv
      exact e2 u hu

/-- **C51** (nothing is read): without the file, with an empty file or with a row of less than three
columns the reader raises an error. -/
theorem C51_rejected : retrieveSuiteResult none = .error .valueError ∧
    (∃ e, retrieveSuiteResult (some []) = .error e) ∧
    ∀ (header : Str) (pre post : List Str) (line : Str) (row : List Str), csvReadRow line = .ok row →
      row.length < 3 → ∃ e, retrieveSuiteResult (some (header :: (pre ++ line :: post))) = .error e := by
  refine ⟨rfl, ⟨_, rfl⟩, fun header pre post line row h hl => ?_⟩
  have : ∀ done, ∃ e, readSuiteRows (pre ++ line :: post) done = .error e := by
    induction pre with
    | nil =>
      intro done
      have h2 : listAt row 2 = .error .indexError := by
        rw [listAt, List.getElem?_eq_none (by omega)]
      rw [List.nil_append, readSuiteRows, h]
      simp only [h2]
      cases listAt row 0 with
      | error e => exact ⟨e, rfl⟩
      | ok key => exact ⟨_, rfl⟩
    | cons a pre ih =>
      intro done
      rw [List.cons_append, readSuiteRows]
      cases csvReadRow a with
      | error e => exact ⟨e, rfl⟩
      | ok row =>
        simp only
        cases listAt row 0 with
        | error e => exact ⟨e, rfl⟩
        | ok key =>
          simp only
          cases listAt row 2 with
          | error e => exact ⟨e, rfl⟩
          | ok column =>
            simp only
            cases parseMedoids column with
            | error e => exact ⟨e, rfl⟩
            | ok ps => exact ih _
  exact this []

/-- The same clustering twice: the second row counts. A row of two columns is an error. -/
example : retrieveSuiteResult (some [['x'], suiteLine ['a'] ['1'] ['(','4',',','8',')',' '],
      suiteLine ['a'] ['1'] ['(','5',',','9',')',' ']]) = .ok [(['a'], [(5, 9)])] ∧
    retrieveSuiteResult (some [['x'], ['a', ' ', '1']]) = .error .indexError := by
  decide +kernel

/-- Two medoids of a 2 x 10 region with offset (43, 85): the column is quoted in the CSV. -/
example : medoidsString ⟨43, 45, 85, 95⟩ [3, 17] = .ok
      ['(','4','3',',','8','8',')',' ','(','4','4',',','9','2',')',' '] ∧
    parseMedoids ['(','4','3',',','8','8',')',' ','(','4','4',',','9','2',')',' '] =
      .ok [(43, 88), (44, 92)] ∧
    retrieveSuiteResult (some [['x'], suiteLine ['a'] ['1']
        ['(','4','3',',','8','8',')',' ','(','4','4',',','9','2',')',' ']]) =
      .ok [(['a'], [(43, 88), (44, 92)])] := by
  decide +kernel

/-! ### C38 -/

/-- Where the settings of two requests agree: everything about the region except its rectangle, and
everything about the clustering that the user can vary in a suite. -/
def SameSettings (md md' : RegionMeta) (c c' : ClusterMeta) : Prop :=
  md.name = md'.name ∧ md.yearStart = md'.yearStart ∧ md.yearEnd = md'.yearEnd ∧ md.spd = md'.spd ∧
    md.scaled = md'.scaled ∧
    match c, c' with
    | .regular k, .regular k' => k = k'
    | .kmedoids m, .kmedoids m' =>
      m.k = m'.k ∧ m.seed = m'.seed ∧ m.mode = m'.mode ∧ m.initial = m'.initial
    | _, _ => False

/-- Names without path separators. -/
def GoodNames (md : RegionMeta) : ClusterMeta → Prop
  | .regular _ => '/' ∉ md.name
  | .kmedoids m => '/' ∉ md.name ∧ '/' ∉ m.mode ∧ '_' ∉ m.mode ∧ m.NatInitial

theorem GoodNames.name {md : RegionMeta} {c : ClusterMeta} (h : GoodNames md c) : '/' ∉ md.name := by
  cases c with
  | regular k => exact h
  | kmedoids m => exact h.1

theorem GoodNames.repr {md : RegionMeta} {c : ClusterMeta} (h : GoodNames md c) :
    '/' ∉ c.repr ∧ c.repr ≠ [] := by
  cases c with
  | regular k =>
    have := intStr_no_slash k
    refine ⟨?_, by simp [ClusterMeta.repr]⟩
    simp [ClusterMeta.repr, this, sRegular]
  | kmedoids m =>
    refine ⟨?_, ?_⟩
    · have h1 := intStr_no_slash m.k
      have h2 := intStr_no_slash m.seed
      have h3 := h.2.1
      have hr : '/' ∉ sKmedoids ++ ['_', 'k'] ++ intStr m.k ++ ['_'] ++ sSeed ++ intStr m.seed ++ ['_'] ++
          m.mode := by simp [h1, h2, h3, sKmedoids, sSeed]
      show '/' ∉ m.repr
      unfold KmMeta.repr
      split
      · exact hr
      · rename_i im him
        have hj : '/' ∉ pyJoin ['-'] (im.map intStr) := by
          clear him
          induction im with
          | nil => simp [pyJoin]
          | cons i is ih =>
            cases is with
            | nil => exact intStr_no_slash i
            | cons j js =>
              simp only [List.map_cons, pyJoin, List.append_assoc, List.mem_append, not_or] at ih ⊢
              exact ⟨intStr_no_slash i, by decide, ih⟩
        simp [h1, h2, h3, sKmedoids, sSeed, hj]
    · show m.repr ≠ []
      unfold KmMeta.repr
      split <;> simp

theorem RegionMeta.repr_good {md : RegionMeta} (h : '/' ∉ md.name) : '/' ∉ md.repr ∧ md.repr ≠ [] := by
  have h1 := intStr_no_slash md.yearStart
  have h2 := intStr_no_slash md.yearEnd
  have h3 := intStr_no_slash md.spd
  refine ⟨?_, by simp [RegionMeta.repr]⟩
  unfold RegionMeta.repr
  cases md.scaled <;> simp [h, h1, h2, h3, sScaled]

/-- The path, component by component. -/
theorem picklePath_eq {md : RegionMeta} {dist : DistKind} {c : ClusterMeta} (h : GoodNames md c) :
    picklePath md dist c = sPickle ++ '/' :: (md.repr ++ '/' :: (['d', 't', 'w'] ++ '/' ::
      (c.repr ++ '/' :: (['p', 'a', 'r', 't', 'i', 't', 'i', 'o', 'n', '_'] ++ c.repr ++
        ['.', 'p', 'k', 'l'])))) := by
  obtain ⟨a1, a2⟩ := RegionMeta.repr_good h.name
  obtain ⟨b1, b2⟩ := h.repr
  have e1 : osJoin sPickle md.repr = sPickle ++ '/' :: md.repr :=
    osJoin_eq a2 a1 (by decide) (by decide)
  have e2 : osJoin dist.repr c.repr = ['d', 't', 'w'] ++ '/' :: c.repr :=
    osJoin_eq b2 b1 (by simp [DistKind.repr]) (by simp [DistKind.repr])
  have e3 : osJoin (sPickle ++ '/' :: md.repr) (['d', 't', 'w'] ++ '/' :: c.repr) =
      (sPickle ++ '/' :: md.repr) ++ '/' :: (['d', 't', 'w'] ++ '/' :: c.repr) := by
    unfold osJoin
    split
    · simp at *
    · rw [if_neg]
      rintro (h | h)
      · simp at h
      · have : sPickle ++ '/' :: md.repr = (sPickle ++ ['/']) ++ md.repr := by simp
        rw [this] at h
        exact getLast?_ne a2 a1 h
  have e4 : ∀ w : Str, w ≠ [] → '/' ∉ w →
      osJoin ((sPickle ++ '/' :: md.repr) ++ '/' :: (['d', 't', 'w'] ++ '/' :: c.repr)) w =
      ((sPickle ++ '/' :: md.repr) ++ '/' :: (['d', 't', 'w'] ++ '/' :: c.repr)) ++ '/' :: w := by
    intro w hw hw'
    refine osJoin_eq hw hw' (by simp) ?_
    have : (sPickle ++ '/' :: md.repr) ++ '/' :: (['d', 't', 'w'] ++ '/' :: c.repr) =
        (sPickle ++ '/' :: md.repr ++ ['/', 'd', 't', 'w', '/']) ++ c.repr := by simp
    rw [this]
    exact getLast?_ne b2 b1
  unfold picklePath
  rw [e1, e2, e3, e4 _ (by simp) (by simp [b1])]
  simp

/-- **C38** (what the path tells apart): two requests share their file exactly when all their settings
agree; the rectangle of the region, the options and the kind of distance make no difference. -/
theorem C38_path {md md' : RegionMeta} {d d' : DistKind} {c c' : ClusterMeta} (h : GoodNames md c)
    (h' : GoodNames md' c') :
    picklePath md d c = picklePath md' d' c' ↔ SameSettings md md' c c' := by
  constructor
  · intro he
    rw [picklePath_eq h, picklePath_eq h'] at he
    obtain ⟨a1, a2⟩ := RegionMeta.repr_good h.name
    obtain ⟨b1, b2⟩ := h.repr
    obtain ⟨a1', a2'⟩ := RegionMeta.repr_good h'.name
    obtain ⟨b1', b2'⟩ := h'.repr
    have hs := congrArg (pySplit '/') he
    rw [pySplit_append, pySplit_append, pySplit_append, pySplit_append,
      pySplit_append, pySplit_append, pySplit_append, pySplit_append,
      pySplit_of_not_mem a1, pySplit_of_not_mem a1', pySplit_of_not_mem b1, pySplit_of_not_mem b1']
      at hs
    have hs1 := List.append_cancel_left hs
    simp only [List.singleton_append, List.cons.injEq] at hs1
    obtain ⟨r1, hs2⟩ := hs1
    have hs3 := List.append_cancel_left hs2
    simp only [List.cons.injEq] at hs3
    obtain ⟨r2, _⟩ := hs3
    obtain ⟨f1, f2, f3, f4, f5⟩ := RegionMeta.repr_inj r1
    refine ⟨f1, f2, f3, f4, f5, ?_⟩
    cases c with
    | regular k =>
      cases c' with
      | regular k' =>
        have := regular_parts k
        rw [r2, regular_parts] at this
        simp only [List.cons.injEq, true_and, and_true] at this
        exact (intStr_inj this).symm
      | kmedoids m' =>
        have := regular_parts k
        rw [r2] at this
        have e : pySplit '_' m'.repr = _ := this
        rw [KmMeta.parts h'.2.2.1] at e
        simp only [List.cons_append, List.cons.injEq] at e
        exact absurd e.1 (by decide)
    | kmedoids m =>
      cases c' with
      | regular k' =>
        have := regular_parts k'
        rw [← r2] at this
        have e : pySplit '_' m.repr = _ := this
        rw [KmMeta.parts h.2.2.1] at e
        simp only [List.cons_append, List.cons.injEq] at e
        exact absurd e.1 (by decide)
      | kmedoids m' => exact KmMeta.repr_inj h.2.2.1 h'.2.2.1 h.2.2.2 h'.2.2.2 r2
  · rintro ⟨f1, f2, f3, f4, f5, f6⟩
    have hr : md.repr = md'.repr := by simp only [RegionMeta.repr, f1, f2, f3, f4, f5]
    have hc : c.repr = c'.repr := by
      cases c with
      | regular k =>
        cases c' with
        | regular k' => rw [show k = k' from f6]
        | kmedoids m' => exact f6.elim
      | kmedoids m =>
        cases c' with
        | regular k' => exact f6.elim
        | kmedoids m' =>
          obtain ⟨g1, g2, g3, g4⟩ := f6
          simp only [ClusterMeta.repr, KmMeta.repr, g1, g2, g3, g4]
    simp only [picklePath, hr, hc, DistKind.repr]

section

variable {P : Type} {compute : PartitionRequest → Except PyErr P}

/-- Where a saved partition comes from. -/
theorem store_origin (hist : List PartitionRequest) (store : PickleStore P) (path : Str) (p : P)
    (h : runRequests compute hist store path = some p) :
    store path = some p ∨ ∃ q ∈ hist, ∃ md, q.md = some md ∧ q.pickleHome.isSome = true ∧
      path = picklePath md q.dist q.clustering ∧ compute q = .ok p := by
  induction hist generalizing store with
  | nil => exact Or.inl h
  | cons q qs ih =>
    rcases ih _ h with h1 | ⟨q', hq', rest⟩
    · have key : (cachedPartition compute q store).2 path = store path ∨
          ∃ md, q.md = some md ∧ q.pickleHome.isSome = true ∧ path = picklePath md q.dist q.clustering ∧
            ∃ p', compute q = .ok p' ∧ (cachedPartition compute q store).2 path = some p' := by
        unfold cachedPartition
        simp only
        split
        · exact Or.inl rfl
        · split
          · exact Or.inl rfl
          · rename_i p' hp'
            split
            · split <;> exact Or.inl rfl
            · rename_i md hmd
              split
              · rename_i hh
                by_cases hp : path = picklePath md q.dist q.clustering
                · exact Or.inr ⟨md, hmd, hh, hp, p', hp', by simp only [if_pos hp]⟩
                · left; simp only [if_neg hp]
              · exact Or.inl rfl
      rcases key with h2 | ⟨md, a1, a2, a3, p', a4, a5⟩
      · exact Or.inl (h2 ▸ h1)
      · right
        rw [a5] at h1
        cases h1
        exact ⟨q, by simp, md, a1, a2, a3, a4⟩
    · exact Or.inr ⟨q', by simp [hq'], rest⟩

/-- **C38** (partial: the claim is for all histories). The cache is transparent for a request on a
region with metadata whenever every earlier caching request with the same settings computes the same
partition. -/
theorem C38_transparent_partial {hist : List PartitionRequest} {q : PartitionRequest} {md : RegionMeta}
    (hmd : q.md = some md) (hgood : GoodNames md q.clustering)
    (hhist : ∀ q' ∈ hist, ∀ md', q'.md = some md' → GoodNames md' q'.clustering)
    (hsame : ∀ q' ∈ hist, ∀ md', q'.md = some md' → q'.pickleHome.isSome = true →
      SameSettings md' md q'.clustering q.clustering → ∀ p, compute q' = .ok p → compute q = .ok p) :
    (cachedPartition compute q (runRequests compute hist fun _ => none)).1 = compute q := by
  have hload : ∀ p, runRequests compute hist (fun _ => none) (picklePath md q.dist q.clustering) =
      some p → compute q = .ok p := by
    intro p hp
    rcases store_origin hist _ _ p hp with h | ⟨q', hq', md', a1, a2, a3, a4⟩
    · cases h
    · exact hsame q' hq' md' a1 a2 ((C38_path (hhist q' hq' md' a1) hgood).1 a3.symm) p a4
  unfold cachedPartition
  simp only [hmd]
  cases hh : q.pickleHome with
  | none =>
    simp only
    cases hc : compute q with
    | error e => rfl
    | ok p => simp
  | some home =>
    simp only
    cases hs : runRequests compute hist (fun _ => none) (picklePath md q.dist q.clustering) with
    | some p => exact (hload p hs).symm
    | none =>
      simp only
      cases hc : compute q with
      | error e => rfl
      | ok p => simp

/-- **C38** (what happens otherwise): once a caching request has been answered, any later caching
request with the same settings gets that answer, whatever its own rectangle, distance, options and
result would be. -/
theorem C38_stale {q q' : PartitionRequest} {md md' : RegionMeta} {p : P} {home home' : Str}
    (h1 : q.md = some md) (h2 : q.pickleHome = some home) (h3 : compute q = .ok p)
    (h1' : q'.md = some md') (h2' : q'.pickleHome = some home')
    (hs : SameSettings md md' q.clustering q'.clustering) (hg : GoodNames md q.clustering)
    (hg' : GoodNames md' q'.clustering) :
    (cachedPartition compute q' (runRequests compute [q] fun _ => none)).1 = .ok p := by
  have he := (C38_path (d := q.dist) (d' := q'.dist) hg hg').2 hs
  have hstore : runRequests compute [q] (fun _ => none) (picklePath md' q'.dist q'.clustering) =
      some p := by
    simp only [runRequests, cachedPartition, h1, h2, h3, Option.isSome_some, if_true]
    rw [if_pos he.symm]
  simp only [cachedPartition, h1', h2', hstore]

end

/-- The result of a regular clustering, with or without medoids. -/
def regularCompute (q : PartitionRequest) : Except PyErr (Partition × Bool) :=
  match q.md with
  | none => .error .attributeError
  | some md =>
    match Partition.withRegular q.clustering.k.toNat (md.region.x2 - md.region.x1)
        (md.region.y2 - md.region.y1) with
    | .error e => .error e
    | .ok p => .ok (p, q.withMedoids)

/-- A request for a regular partition with 2 clusters of a region called "a". -/
def exampleRequest (r : Region) (withMedoids : Bool) (dist : DistKind) : PartitionRequest :=
  ⟨some ⟨['a'], r, 2014, 2015, 1, false⟩, dist, .regular 2, withMedoids, false, some sPickle⟩

/-- **C38** is refuted: two regions with the same name and years but different rectangles share the
cached partition, so that the second gets a partition of the wrong shape. -/
theorem C38_rectangle_refuted :
    ∃ q q' : PartitionRequest,
      (cachedPartition regularCompute q' (runRequests regularCompute [q] fun _ => none)).1 ≠
        regularCompute q' :=
  ⟨exampleRequest ⟨0, 2, 0, 2⟩ true .dtw, exampleRequest ⟨0, 4, 0, 3⟩ true .dtw, by decide +kernel⟩

/-- **C38** is refuted: a partition saved without medoids is returned when medoids are asked for. -/
theorem C38_medoids_refuted :
    ∃ q q' : PartitionRequest,
      (cachedPartition regularCompute q' (runRequests regularCompute [q] fun _ => none)).1 ≠
        regularCompute q' :=
  ⟨exampleRequest ⟨0, 2, 0, 2⟩ false .dtw, exampleRequest ⟨0, 2, 0, 2⟩ true .dtw, by decide +kernel⟩

/-- **C38** is refuted: the weight of a spatial distance and the kind of the distance are not part of
the path, so any computation that depends on them is not transparent. -/
theorem C38_distance_refuted {P : Type} {compute : PartitionRequest → Except PyErr P} {p : P}
    (r : Region) (d d' : DistKind) (h : compute (exampleRequest r true d) = .ok p)
    (h' : compute (exampleRequest r true d') ≠ .ok p) :
    (cachedPartition compute (exampleRequest r true d')
      (runRequests compute [exampleRequest r true d] fun _ => none)).1 ≠
      compute (exampleRequest r true d') := by
  have hg : GoodNames ⟨['a'], r, 2014, 2015, 1, false⟩ (.regular 2) := by
    show '/' ∉ ['a']; decide
  rw [C38_stale (md := ⟨['a'], r, 2014, 2015, 1, false⟩) (md' := ⟨['a'], r, 2014, 2015, 1, false⟩)
    (q := exampleRequest r true d) (q' := exampleRequest r true d') rfl rfl h rfl rfl
    ⟨rfl, rfl, rfl, rfl, rfl, rfl⟩ hg hg]
  exact fun e => h' e.symm

/-- **C38** is refuted: asking for the cache on a region without metadata fails although the partition
can be computed. -/
theorem C38_no_metadata_refuted {P : Type} {compute : PartitionRequest → Except PyErr P} {p : P}
    {q : PartitionRequest} (hmd : q.md = none) (hh : q.pickleHome.isSome = true)
    (h : compute q = .ok p) (store : PickleStore P) :
    (cachedPartition compute q store).1 = .error .attributeError := by
  unfold cachedPartition
  simp only [hmd, h, hh, Bool.or_true, if_true]
  cases q.pickleHome <;> rfl

/-- Different k: the second request is computed. The path of the example is
`pickle/a_2014_2015_1spd/dtw/regular_k2/partition_regular_k2.pkl`. -/
example : picklePath ⟨['a'], ⟨0, 2, 0, 2⟩, 2014, 2015, 1, false⟩ .dtw (.regular 2) =
    ['p','i','c','k','l','e','/','a','_','2','0','1','4','_','2','0','1','5','_','1','s','p','d','/',
     'd','t','w','/','r','e','g','u','l','a','r','_','k','2','/','p','a','r','t','i','t','i','o','n',
     '_','r','e','g','u','l','a','r','_','k','2','.','p','k','l'] ∧
    (cachedPartition regularCompute { exampleRequest ⟨0, 2, 0, 2⟩ true .dtw with clustering := .regular 4 }
      (runRequests regularCompute [exampleRequest ⟨0, 2, 0, 2⟩ true .dtw] fun _ => none)).1 =
      .ok (⟨⟨2, 2, [0, 1, 2, 3]⟩, 4, 0⟩, true) := by decide +kernel

end Spta
