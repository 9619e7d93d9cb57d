import Verif.Spec.SuiteFiles

/-!
# C113, C114: the names of the files of suites and solvers
-/

namespace Spta

/-- The part after the last occurrence of a character. -/
theorem append_last_inj {c : Char} {a b x y : Str} (hx : c ∉ x) (hy : c ∉ y)
    (h : a ++ c :: x = b ++ c :: y) : a = b ∧ x = y := by
  have h1 := congrArg (pySplit c) h
  rw [pySplit_append, pySplit_append, pySplit_of_not_mem hx, pySplit_of_not_mem hy] at h1
  have h2 := List.append_inj' h1 rfl
  exact ⟨pySplit_inj h2.1, by simpa using h2.2⟩

/-- The part before the first occurrence of a character. -/
theorem append_first_inj {c : Char} {a b x y : Str} (ha : c ∉ a) (hb : c ∉ b)
    (h : a ++ c :: x = b ++ c :: y) : a = b ∧ x = y := by
  have h1 := congrArg List.reverse h
  simp only [List.reverse_append, List.reverse_cons, List.append_assoc, List.singleton_append] at h1
  obtain ⟨e1, e2⟩ := append_last_inj (by simpa using ha) (by simpa using hb) h1
  exact ⟨List.reverse_inj.1 e2, List.reverse_inj.1 e1⟩

theorem SuiteId.repr_inj {s s' : SuiteId} (h : s.Good) (h' : s'.Good) : s.repr = s'.repr ↔ s = s' := by
  constructor
  · intro e
    obtain ⟨e1, e2⟩ := append_first_inj h.2.2 h'.2.2 e
    cases s; cases s'
    simp_all
  · rintro rfl; rfl

theorem SuiteId.repr_name {s : SuiteId} (h : s.Good) : FileName s.repr := by
  have h1 := h.1
  have h2 := h.2.1
  exact ⟨by simp [SuiteId.repr], by simp [SuiteId.repr, h1, h2]⟩

theorem sameRegion_iff {md md' : RegionMeta} : md.repr = md'.repr ↔ SameRegion md md' := by
  constructor
  · exact RegionMeta.repr_inj
  · rintro ⟨f1, f2, f3, f4, f5⟩
    simp only [RegionMeta.repr, f1, f2, f3, f4, f5]

theorem regionRepr_name {md : RegionMeta} (h : '/' ∉ md.name) : FileName md.repr :=
  ⟨(RegionMeta.repr_good h).2, (RegionMeta.repr_good h).1⟩

theorem distRepr_name (d : DistKind) : FileName d.repr := by
  cases d <;> exact ⟨by simp [DistKind.repr], by simp [DistKind.repr]⟩

theorem suiteCsvDir_eq {home : Str} (hh : DirName home) {md : RegionMeta} (h : '/' ∉ md.name) (d : DistKind) :
    suiteCsvDir home md d = (home ++ '/' :: md.repr) ++ '/' :: d.repr := by
  rw [suiteCsvDir, osJoin_file hh (regionRepr_name h)]

theorem suiteCsvDir_dir {home : Str} (hh : DirName home) {md : RegionMeta} (h : '/' ∉ md.name) (d : DistKind) :
    DirName (suiteCsvDir home md d) := by
  rw [suiteCsvDir_eq hh h]
  exact (distRepr_name d).dir.join

theorem suiteCsvDir_inj {home : Str} (hh : DirName home) {md md' : RegionMeta} (h : '/' ∉ md.name)
    (h' : '/' ∉ md'.name) (d d' : DistKind) :
    suiteCsvDir home md d = suiteCsvDir home md' d' ↔ SameRegion md md' := by
  rw [← sameRegion_iff, suiteCsvDir_eq hh h, suiteCsvDir_eq hh h']
  constructor
  · intro e
    obtain ⟨e1, -⟩ := append_slash_inj (distRepr_name d).2 (distRepr_name d').2 e
    exact (append_slash_inj (regionRepr_name h).2 (regionRepr_name h').2 e1).2
  · intro e
    rw [e]
    rfl

/-- Two paths in the directories of suites. -/
theorem suitePath_inj {home : Str} (hh : DirName home) {md md' : RegionMeta} (h : '/' ∉ md.name)
    (h' : '/' ∉ md'.name) (d d' : DistKind) {f f' : Str} (hf : FileName f) (hf' : FileName f') :
    suiteCsvDir home md d ++ '/' :: f = suiteCsvDir home md' d' ++ '/' :: f' ↔ SameRegion md md' ∧ f = f' := by
  constructor
  · intro e
    obtain ⟨e1, e2⟩ := append_slash_inj hf.2 hf'.2 e
    exact ⟨(suiteCsvDir_inj hh h h' d d').1 e1, e2⟩
  · rintro ⟨e1, e2⟩
    rw [(suiteCsvDir_inj hh h h' d d').2 e1, e2]

theorem plain_names : '/' ∉ "clustering__".toList ∧ '/' ∉ "medoid_data__".toList ∧ '/' ∉ ".csv".toList ∧
    '/' ∉ "_count".toList ∧ '/' ∉ "_seed".toList ∧ '/' ∉ "_dist_medoid__".toList ∧
    '/' ∉ "_medoid_min_pred_error__".toList ∧ '/' ∉ sep2 ∧ '/' ∉ ['t', 'p'] ∧ '/' ∉ ['t', 'f'] := by
  decide

theorem append_ne_nil {a : Str} (b : Str) (h : a ≠ []) : a ++ b ≠ [] := by simp [h]

theorem SuiteId.analysisFile_name {s : SuiteId} (h : s.Good) : FileName s.analysisFile := by
  obtain ⟨h1, h2, h3, -⟩ := plain_names
  unfold SuiteId.analysisFile
  refine ⟨append_ne_nil _ (by decide), ?_⟩
  simp only [List.mem_append, not_or]
  exact ⟨h1, (SuiteId.repr_name h).2, h3⟩

theorem SuiteId.medoidFile_name {s : SuiteId} (h : s.Good) : FileName s.medoidFile := by
  obtain ⟨h1, h2, h3, -⟩ := plain_names
  unfold SuiteId.medoidFile
  refine ⟨append_ne_nil _ (by decide), ?_⟩
  simp only [List.mem_append, not_or]
  exact ⟨h2, (SuiteId.repr_name h).2, h3⟩

theorem countSeed_inj {a a' : Str} {c c' : Nat} {d d' : Int} :
    a ++ countSeed c d = a' ++ countSeed c' d' ↔ a = a' ∧ c = c' ∧ d = d' := by
  constructor
  · intro h
    have e : ∀ (a : Str) (c : Nat) (d : Int), a ++ countSeed c d = (a ++ '_' :: (['c', 'o', 'u', 'n', 't'] ++ natStr c)) ++
        '_' :: (['s', 'e', 'e', 'd'] ++ (intStr d ++ ['.', 'c', 's', 'v'])) := by
      intro a c d
      rw [countSeed, show "_count".toList = ['_', 'c', 'o', 'u', 'n', 't'] from rfl,
        show "_seed".toList = ['_', 's', 'e', 'e', 'd'] from rfl, show ".csv".toList = ['.', 'c', 's', 'v'] from rfl]
      simp
    have hd : ∀ d : Int, '_' ∉ ['s', 'e', 'e', 'd'] ++ (intStr d ++ ['.', 'c', 's', 'v']) := by
      intro d
      simp [intStr_no_underscore]
    have hc : ∀ c : Nat, '_' ∉ ['c', 'o', 'u', 'n', 't'] ++ natStr c := by
      intro c
      simp [(natStr_plain c).1]
    rw [e, e] at h
    obtain ⟨h1, h2⟩ := append_last_inj (hd d) (hd d') h
    obtain ⟨h3, h4⟩ := append_last_inj (hc c) (hc c') h1
    exact ⟨h3, natStr_inj (List.append_cancel_left h4),
      intStr_inj (List.append_cancel_right (List.append_cancel_left h2))⟩
  · rintro ⟨rfl, rfl, rfl⟩; rfl

theorem ChoiceFile.text_name (f : ChoiceFile) : FileName f.text := by
  cases f <;> exact ⟨by decide, by decide⟩

theorem ChoiceCriterion.file_name {c : ChoiceCriterion} (hc : c.Good) {s : SuiteId} (h : s.Good) (f : ChoiceFile)
    (count : Nat) (seed : Int) : FileName (c.file s f count seed) := by
  obtain ⟨-, -, h3, h4, h5, h6, h7, h8, h9, -⟩ := plain_names
  have hcs : '/' ∉ countSeed count seed := by
    unfold countSeed
    simp only [List.mem_append, not_or]
    exact ⟨h4, (natStr_plain count).2.1, h5, intStr_no_slash seed, h3⟩
  cases c with
  | minDistance =>
    unfold ChoiceCriterion.file
    refine ⟨append_ne_nil _ f.text_name.1, ?_⟩
    simp only [List.mem_append, not_or]
    exact ⟨f.text_name.2, h6, (SuiteId.repr_name h).2, hcs⟩
  | minError params testLen errorType =>
    unfold ChoiceCriterion.file
    refine ⟨append_ne_nil _ f.text_name.1, ?_⟩
    simp only [List.mem_append, not_or]
    exact ⟨f.text_name.2, h7, params.repr_good.1, h8, h9, (natStr_plain testLen).2.1, h8, hc.1, h8,
      (SuiteId.repr_name h).2, hcs⟩

theorem ChoiceCriterion.file_inj {c c' : ChoiceCriterion} (hc : c.Good) (hc' : c'.Good) {s s' : SuiteId}
    (h : s.Good) (h' : s'.Good) (f f' : ChoiceFile) (count count' : Nat) (seed seed' : Int) :
    c.file s f count seed = c'.file s' f' count' seed' ↔
      c.Same c' ∧ s = s' ∧ f = f' ∧ count = count' ∧ seed = seed' := by
  have ht : ∀ {f f' : ChoiceFile} {m m' r r' : Str}, m[0]? = some '_' → m'[0]? = some '_' →
      f.text ++ (m ++ r) = f'.text ++ (m' ++ r') → f = f' ∧ m ++ r = m' ++ r' := by
    intro f f' m m' r r' hm hm' e
    have : f = f' := by
      have e0 := congrArg (fun l : Str => l[0]?) e
      have k1 : ∀ x : Str, (ChoiceFile.choice.text ++ x)[0]? = some 'r' := fun _ => rfl
      have k2 : ∀ x : Str, (ChoiceFile.hist.text ++ x)[0]? = some 'h' := fun _ => rfl
      cases f <;> cases f' <;> simp only [k1, k2] at e0 <;> first | rfl | (revert e0; decide)
    subst this
    exact ⟨rfl, List.append_cancel_left e⟩
  have hm : "_dist_medoid__".toList[0]? = some '_' := rfl
  have hm' : "_medoid_min_pred_error__".toList[0]? = some '_' := rfl
  have hne : ∀ a b : Str, "_dist_medoid__".toList ++ a ≠ "_medoid_min_pred_error__".toList ++ b := by
    intro a b e
    have := congrArg (fun l : Str => l[1]?) e
    have h1 : ("_dist_medoid__".toList ++ a)[1]? = some 'd' := rfl
    have h2 : ("_medoid_min_pred_error__".toList ++ b)[1]? = some 'm' := rfl
    simp only [h1, h2] at this
    revert this; decide
  cases c with
  | minDistance =>
    cases c' with
    | minDistance =>
      simp only [ChoiceCriterion.file, ChoiceCriterion.Same, true_and]
      constructor
      · intro e
        obtain ⟨e1, e2⟩ := ht hm hm e
        obtain ⟨e3, e4, e5⟩ := countSeed_inj.1 (List.append_cancel_left e2)
        exact ⟨(SuiteId.repr_inj h h').1 e3, e1, e4, e5⟩
      · rintro ⟨rfl, rfl, rfl, rfl⟩; rfl
    | minError p t e =>
      simp only [ChoiceCriterion.file, ChoiceCriterion.Same, false_and, iff_false]
      intro e'
      exact hne _ _ (ht hm hm' e').2
  | minError p t e =>
    cases c' with
    | minDistance =>
      simp only [ChoiceCriterion.file, ChoiceCriterion.Same, false_and, iff_false]
      intro e'
      exact hne _ _ (ht hm' hm e').2.symm
    | minError p' t' e' =>
      simp only [ChoiceCriterion.file, ChoiceCriterion.Same]
      constructor
      · intro eq
        obtain ⟨e1, e2⟩ := ht hm' hm' eq
        obtain ⟨e3, e4⟩ := p.noDouble.cut p'.noDouble (List.append_cancel_left e2)
        replace e4 := List.append_cancel_left e4
        obtain ⟨e5, e6⟩ := (NoDouble.of_not_mem (natStr_plain t).1).cut (NoDouble.of_not_mem (natStr_plain t').1) e4
        obtain ⟨e7, e8⟩ := (NoDouble.of_not_mem hc.2).cut (NoDouble.of_not_mem hc'.2) e6
        obtain ⟨e9, e10, e11⟩ := countSeed_inj.1 e8
        exact ⟨⟨ModelParams.repr_inj e3, natStr_inj e5, e7⟩, (SuiteId.repr_inj h h').1 e9, e1, e10, e11⟩
      · rintro ⟨⟨q1, rfl, rfl⟩, rfl, rfl, rfl, rfl⟩
        rw [q1.repr]

/-- **C113**: two analyses of suites, or two lists of their medoids, share a file exactly if they agree in the
region and the suite. -/
theorem C113_suite {home : Str} (hh : DirName home) {md md' : RegionMeta} (hm : '/' ∉ md.name)
    (hm' : '/' ∉ md'.name) {s s' : SuiteId} (h : s.Good) (h' : s'.Good) (d d' : DistKind) :
    (s.analysisPath home md d = s'.analysisPath home md' d' ↔ SameRegion md md' ∧ s = s') ∧
    (s.medoidPath home md d = s'.medoidPath home md' d' ↔ SameRegion md md' ∧ s = s') := by
  constructor
  · rw [SuiteId.analysisPath, SuiteId.analysisPath,
      suitePath_inj hh hm hm' d d' (SuiteId.analysisFile_name h) (SuiteId.analysisFile_name h')]
    refine and_congr_right fun _ => ⟨fun e => ?_, fun e => by rw [e]⟩
    exact (SuiteId.repr_inj h h').1 (List.append_cancel_right (List.append_cancel_left e))
  · rw [SuiteId.medoidPath, SuiteId.medoidPath,
      suitePath_inj hh hm hm' d d' (SuiteId.medoidFile_name h) (SuiteId.medoidFile_name h')]
    refine and_congr_right fun _ => ⟨fun e => ?_, fun e => by rw [e]⟩
    exact (SuiteId.repr_inj h h').1 (List.append_cancel_right (List.append_cancel_left e))

/-- **C113** (part): two runs that create training input share a file exactly if it is the same one of the two
files and they agree in everything except the threshold. Missing: the threshold, see `C113_refuted`. -/
theorem C113_runs_partial {home : Str} (hh : DirName home) {r r' : ChoiceRun} (hm : '/' ∉ r.md.name)
    (hm' : '/' ∉ r'.md.name) (h : r.suite.Good) (h' : r'.suite.Good) (hc : r.criterion.Good)
    (hc' : r'.criterion.Good) (f f' : ChoiceFile) :
    r.path home f = r'.path home f' ↔ f = f' ∧ SameRegion r.md r'.md ∧ r.suite = r'.suite ∧
      r.criterion.Same r'.criterion ∧ r.count = r'.count ∧ r.seed = r'.seed := by
  have n1 := ChoiceCriterion.file_name hc h f r.count r.seed
  have n2 := ChoiceCriterion.file_name hc' h' f' r'.count r'.seed
  rw [ChoiceRun.path, ChoiceRun.path, osJoin_file (suiteCsvDir_dir hh hm _) n1,
    osJoin_file (suiteCsvDir_dir hh hm' _) n2, suitePath_inj hh hm hm' _ _ n1 n2,
    ChoiceCriterion.file_inj hc hc' h h']
  tauto

/-- **C113** (kinds): the analysis, the medoids and the training input never share a file. -/
theorem C113_kinds {home : Str} (hh : DirName home) {md md' : RegionMeta} (hm : '/' ∉ md.name)
    (hm' : '/' ∉ md'.name) {s s' : SuiteId} (h : s.Good) (h' : s'.Good) (d d' : DistKind) (r : ChoiceRun)
    (hr : '/' ∉ r.md.name) (hs : r.suite.Good) (hc : r.criterion.Good) (f : ChoiceFile) :
    s.analysisPath home md d ≠ s'.medoidPath home md' d' ∧ s.analysisPath home md d ≠ r.path home f ∧
      s.medoidPath home md d ≠ r.path home f := by
  have n1 := ChoiceCriterion.file_name hc hs f r.count r.seed
  have a1 : s.analysisFile[0]? = some 'c' := rfl
  have a2 : ∀ s : SuiteId, s.medoidFile[0]? = some 'm' := fun _ => rfl
  have a3 : (r.criterion.file r.suite f r.count r.seed)[0]? = some 'r' ∨
      (r.criterion.file r.suite f r.count r.seed)[0]? = some 'h' := by
    cases r.criterion <;> cases f <;> first | (left; rfl) | (right; rfl)
  refine ⟨?_, ?_, ?_⟩
  · intro e
    have := ((suitePath_inj hh hm hm' d d' (SuiteId.analysisFile_name h) (SuiteId.medoidFile_name h')).1 e).2
    rw [this, a2] at a1
    revert a1; decide
  · intro e
    rw [ChoiceRun.path, osJoin_file (suiteCsvDir_dir hh hr _) n1] at e
    have := ((suitePath_inj hh hm hr d _ (SuiteId.analysisFile_name h) n1).1 e).2
    rw [← this, a1] at a3
    revert a3; decide
  · intro e
    rw [ChoiceRun.path, osJoin_file (suiteCsvDir_dir hh hr _) n1] at e
    have := ((suitePath_inj hh hm hr d _ (SuiteId.medoidFile_name h) n1).1 e).2
    rw [← this, a2] at a3
    revert a3; decide

/-- A run on the first suite of the unit tests. -/
def exampleRun (threshold : Nat) : ChoiceRun where
  md := (exampleSolver 1 .dtw).md
  dist := .dtw
  suite := ⟨"kmedoids".toList, "quick".toList⟩
  criterion := .minError (.mean 3) 8 "sMAPE".toList
  count := 10
  seed := 1
  threshold := threshold

/-- **C113** is false of the code: a run with another threshold replaces both files, although its choices may be
different. -/
theorem C113_refuted : ∃ r r' : ChoiceRun, r.threshold ≠ r'.threshold ∧
    ∀ f, r.path "outputs".toList f = r'.path "outputs".toList f :=
  ⟨exampleRun 0, exampleRun 2, by decide, fun _ => rfl⟩

/-- The name of the file with the results of a classifier depends neither on the prediction region nor on the
number of samples. -/
theorem C113_classifier_refuted (s : SuiteId) (r r' : Region) (tp tp' : Nat) :
    s.classifierFile r tp = s.classifierFile r' tp' := rfl

/-- The conditions of C113 hold of this run. -/
example : (exampleRun 0).suite.Good ∧ (exampleRun 0).criterion.Good ∧ '/' ∉ (exampleRun 0).md.name ∧
    DirName "outputs".toList ∧
    (exampleRun 0).path "outputs".toList .hist = ("outputs/a_2014_2015_1spd/dtw/hist_medoid_min_pred_error__" ++
      "mean-past3__tp8__sMAPE__kmedoids-quick_count10_seed1.csv").toList := by
  refine ⟨⟨by decide, by decide, by decide⟩, ⟨by decide, by decide⟩, by decide, ⟨by decide, by decide⟩,
    by decide +kernel⟩

/-! ### Results of solvers -/

/-- The last part of the name of a file of a solver without clustering. -/
def plainTail (r : Region) (testLen forecastLen : Nat) (errorType : Str) : Str :=
  regionStr r ++ (sep2 ++ (['t', 'p'] ++ (natStr testLen ++ (sep2 ++ (['t', 'f'] ++ (natStr forecastLen ++ (sep2 ++
    (errorType ++ ".csv".toList))))))))

theorem plainTail_inj {r : Region} {t t' n n' : Nat} {e e' : Str} (h : plainTail r t n e = plainTail r t' n' e') :
    t = t' ∧ n = n' ∧ e = e' := by
  unfold plainTail at h
  replace h := List.append_cancel_left (List.append_cancel_left (List.append_cancel_left h))
  obtain ⟨e1, h⟩ := (NoDouble.of_not_mem (natStr_plain t).1).cut (NoDouble.of_not_mem (natStr_plain t').1) h
  replace h := List.append_cancel_left h
  obtain ⟨e2, h⟩ := (NoDouble.of_not_mem (natStr_plain n).1).cut (NoDouble.of_not_mem (natStr_plain n').1) h
  exact ⟨natStr_inj e1, natStr_inj e2, List.append_cancel_right h⟩

theorem AnyResult.namePrefix_plain (q : AnyResult) (k : CsvKind) : '_' ∉ q.namePrefix k ∧ FileName (q.namePrefix k) := by
  cases k with
  | result =>
    unfold AnyResult.namePrefix
    simp only
    split <;> exact ⟨by decide, by decide, by decide⟩
  | summary =>
    unfold AnyResult.namePrefix
    simp only
    exact ⟨by decide, by decide, by decide⟩

theorem AnyResult.namePrefix_inj {q q' : AnyResult} {k k' : CsvKind} (h : q.namePrefix k = q'.namePrefix k') :
    k = k' := by
  cases k <;> cases k' <;> first | rfl | skip
  · exfalso
    unfold AnyResult.namePrefix at h
    simp only at h
    split at h <;> revert h <;> decide
  · exfalso
    unfold AnyResult.namePrefix at h
    simp only at h
    split at h <;> revert h <;> decide

/-- The names of files of solvers with and without clustering. -/
theorem prefix_ne (q q' : AnyResult) (k k' : CsvKind) (c : ClusterMeta) (a b : Str) :
    q.namePrefix k ++ (sep2 ++ a) ≠ q'.namePrefix k' ++ '-' :: (c.repr ++ b) := by
  obtain ⟨x, xs, hx, hf⟩ := clusterRepr_head c
  intro e
  rw [hx] at e
  unfold AnyResult.namePrefix sep2 at e
  cases k <;> cases k' <;> simp only at e
  · split at e <;> split at e <;> simp at e
    exact hf e.1.symm
  · split at e <;> simp at e
  · split at e <;> simp at e
  · simp at e

theorem AnyResult.file_plain {q : AnyResult} (h : ∀ c d, q.kind ≠ .clustering c d) (pre : Str) :
    q.file pre = pre ++ (sep2 ++ plainTail q.region q.testLen q.forecastLen q.errorType) := by
  unfold AnyResult.file
  split
  · rename_i c d hk
    exact absurd hk (h c d)
  · rfl

theorem AnyResult.file_clustering {q : AnyResult} {c : ClusterMeta} {d : DistKind} (h : q.kind = .clustering c d)
    (pre : Str) : q.file pre = pre ++ '-' :: (c.repr ++ csvTail q.region q.testLen q.forecastLen q.errorType) := by
  unfold AnyResult.file
  rw [h]
  rfl

theorem plainTail_name {q : AnyResult} (h : q.Good) :
    '/' ∉ plainTail q.region q.testLen q.forecastLen q.errorType := by
  obtain ⟨-, -, h3, h4, h5, h6, h7, h8, h9, h10⟩ := plain_names
  unfold plainTail
  simp only [List.mem_append, not_or]
  exact ⟨(regionStr_name _).2, h8, h9, (natStr_plain _).2.1, h8, h10, (natStr_plain _).2.1, h8, h.2.1, h3⟩

theorem AnyResult.file_name {q : AnyResult} (h : q.Good) (k : CsvKind) : FileName (q.file (q.namePrefix k)) := by
  by_cases hc : ∃ c d, q.kind = .clustering c d
  · obtain ⟨c, d, hc⟩ := hc
    have hg : GoodNames q.md c := by
      have := h.2.2
      rw [hc] at this
      exact this
    have := csvFile_name (q := ⟨⟨q.md, q.params, q.testLen, q.errorType, c, d⟩, q.region, q.forecastLen⟩)
      ⟨hg, h.2.1⟩ k
    unfold AnyResult.file
    rw [hc]
    cases k <;> exact this
  · rw [AnyResult.file_plain (fun c d h => hc ⟨c, d, h⟩)]
    refine ⟨append_ne_nil _ (q.namePrefix_plain k).2.1, ?_⟩
    simp only [List.mem_append, not_or]
    exact ⟨(q.namePrefix_plain k).2.2, by decide, plainTail_name h⟩

theorem AnyResult.baseDir_dir {home : Str} (hh : DirName home) {q : AnyResult} (h : q.Good) :
    DirName (q.baseDir home) := by
  unfold AnyResult.baseDir
  have h3 := h.2.2
  split
  · rw [osJoin_file hh (regionRepr_name h.1)]
    exact (regionRepr_name h.1).dir.join
  · rename_i s d hk
    rw [hk] at h3
    rw [SuiteId.dir, osJoin_file (suiteCsvDir_dir hh h.1 d) (SuiteId.repr_name h3)]
    exact (SuiteId.repr_name h3).dir.join
  · rename_i c d hk
    rw [hk] at h3
    exact subdir_dir hh d h3

theorem AnyResult.path_eq {home : Str} (hh : DirName home) {q : AnyResult} (h : q.Good) (k : CsvKind) :
    q.path home k = ((q.baseDir home ++ '/' :: q.params.repr) ++ '/' :: regionStr q.region) ++ '/' ::
      q.file (q.namePrefix k) := by
  have p1 : FileName q.params.repr := ⟨q.params.repr_good.2, q.params.repr_good.1⟩
  rw [AnyResult.path, osJoin_file (AnyResult.baseDir_dir hh h) p1, osJoin_file p1.dir.join (regionStr_name _),
    osJoin_file (regionStr_name _).dir.join (AnyResult.file_name h k)]

/-- The base directories of solvers of the same kind. -/
theorem AnyResult.baseDir_iff {home : Str} (hh : DirName home) {q q' : AnyResult} (h : q.Good) (h' : q'.Good)
    (hk : (∃ c d c' d', q.kind = .clustering c d ∧ q'.kind = .clustering c' d') ∨
      ((∀ c d, q.kind ≠ .clustering c d) ∧ ∀ c d, q'.kind ≠ .clustering c d)) :
    q.baseDir home = q'.baseDir home ↔ SameRegion q.md q'.md ∧ q.kind.Same q.md q'.md q'.kind := by
  have h3 := h.2.2
  have h3' := h'.2.2
  rcases hk with ⟨c, d, c', d', hk, hk'⟩ | ⟨hk, hk'⟩
  · unfold AnyResult.baseDir
    rw [hk] at h3 ⊢
    rw [hk'] at h3' ⊢
    simp only [SolverKind.Same]
    rw [subdir_inj hh h3 h3']
    exact ⟨fun e => ⟨⟨e.1, e.2.1, e.2.2.1, e.2.2.2.1, e.2.2.2.2.1⟩, e⟩, fun e => e.2⟩
  · have hlen : ∀ (a b c d : Str), home ++ '/' :: a ≠ ((home ++ '/' :: b) ++ '/' :: c) ++ '/' :: d ∨ '/' ∈ a ∨
        '/' ∈ d := by
      intro a b c d
      by_cases ha : '/' ∈ a
      · exact Or.inr (Or.inl ha)
      · by_cases hd : '/' ∈ d
        · exact Or.inr (Or.inr hd)
        · left
          intro e
          have := congrArg List.length (append_slash_inj ha hd e).1
          simp at this
    have n1 := regionRepr_name h.1
    have n1' := regionRepr_name h'.1
    unfold AnyResult.baseDir
    cases k : q.kind with
    | clustering c d => exact absurd k (hk c d)
    | basic =>
      rw [k] at h3
      cases k' : q'.kind with
      | clustering c d => exact absurd k' (hk' c d)
      | basic =>
        simp only [SolverKind.Same, and_true]
        rw [osJoin_file hh n1, osJoin_file hh n1', ← sameRegion_iff]
        exact ⟨fun e => (append_slash_inj n1.2 n1'.2 e).2, fun e => by rw [e]⟩
      | suite s d =>
        rw [k'] at h3'
        simp only [SolverKind.Same, and_false, iff_false]
        rw [osJoin_file hh n1, SuiteId.dir, osJoin_file (suiteCsvDir_dir hh h'.1 d) (SuiteId.repr_name h3'),
          suiteCsvDir_eq hh h'.1]
        rcases hlen q.md.repr q'.md.repr d.repr s.repr with h | h | h
        · exact h
        · exact absurd h n1.2
        · exact absurd h (SuiteId.repr_name h3').2
    | suite s d =>
      rw [k] at h3
      cases k' : q'.kind with
      | clustering c d => exact absurd k' (hk' c d)
      | basic =>
        simp only [SolverKind.Same, and_false, iff_false]
        rw [osJoin_file hh n1', SuiteId.dir, osJoin_file (suiteCsvDir_dir hh h.1 d) (SuiteId.repr_name h3),
          suiteCsvDir_eq hh h.1]
        rcases hlen q'.md.repr q.md.repr d.repr s.repr with h | h | h
        · exact h.symm
        · exact absurd h n1'.2
        · exact absurd h (SuiteId.repr_name h3).2
      | suite s' d' =>
        rw [k'] at h3'
        simp only [SolverKind.Same]
        rw [SuiteId.dir, SuiteId.dir, osJoin_file (suiteCsvDir_dir hh h.1 d) (SuiteId.repr_name h3),
          osJoin_file (suiteCsvDir_dir hh h'.1 d') (SuiteId.repr_name h3'),
          suitePath_inj hh h.1 h'.1 d d' (SuiteId.repr_name h3) (SuiteId.repr_name h3'), SuiteId.repr_inj h3 h3']

/-- **C114**: two results (or summaries) of any solvers are written to the same file exactly if they agree in the
kind of the file and of the solver, the region, the suite or clustering, the parameters of the models, the
prediction region, the numbers of test and forecast samples and the type of the error. -/
theorem C114_results {home : Str} (hh : DirName home) {q q' : AnyResult} (h : q.Good) (h' : q'.Good)
    (k k' : CsvKind) :
    q.path home k = q'.path home k' ↔
      k = k' ∧ SameRegion q.md q'.md ∧ q.kind.Same q.md q'.md q'.kind ∧ SameParams q.params q'.params ∧
        q.region = q'.region ∧ q.testLen = q'.testLen ∧ q.forecastLen = q'.forecastLen ∧
        q.errorType = q'.errorType := by
  rw [AnyResult.path_eq hh h, AnyResult.path_eq hh h']
  have n1 := AnyResult.file_name h k
  have n1' := AnyResult.file_name h' k'
  constructor
  · intro e
    obtain ⟨e, e1⟩ := append_slash_inj n1.2 n1'.2 e
    obtain ⟨e, e2⟩ := append_slash_inj (regionStr_name _).2 (regionStr_name _).2 e
    obtain ⟨e, e3⟩ := append_slash_inj q.params.repr_good.1 q'.params.repr_good.1 e
    have e6 := regionStr_inj e2
    by_cases hc : ∃ c d, q.kind = .clustering c d
    · obtain ⟨c, d, hc⟩ := hc
      by_cases hc' : ∃ c d, q'.kind = .clustering c d
      · obtain ⟨c', d', hc'⟩ := hc'
        have hb := (AnyResult.baseDir_iff hh h h' (Or.inl ⟨c, d, c', d', hc, hc'⟩)).1 e
        have g : GoodNames q.md c := by have := h.2.2; rw [hc] at this; exact this
        have g' : GoodNames q'.md c' := by have := h'.2.2; rw [hc'] at this; exact this
        have hp := (C79_csv_path hh (q := ⟨⟨q.md, q.params, q.testLen, q.errorType, c, d⟩, q.region, q.forecastLen⟩)
          (q' := ⟨⟨q'.md, q'.params, q'.testLen, q'.errorType, c', d'⟩, q'.region, q'.forecastLen⟩)
          ⟨g, h.2.1⟩ ⟨g', h'.2.1⟩ k k').1 (by
            have a1 : ∀ (q : AnyResult) (c : ClusterMeta) (d : DistKind) (k : CsvKind), q.kind = .clustering c d →
                CsvResult.path ⟨⟨q.md, q.params, q.testLen, q.errorType, c, d⟩, q.region, q.forecastLen⟩ home k =
                  q.path home k := by
              intro q c d k hc
              unfold AnyResult.path AnyResult.baseDir AnyResult.file
              rw [hc]
              cases k <;> rfl
            rw [a1 q c d k hc, a1 q' c' d' k' hc', AnyResult.path_eq hh h, AnyResult.path_eq hh h', e, e1, e2, e3])
        obtain ⟨p1, p2, p3, p4, p5, p6, p7⟩ := hp
        exact ⟨p1, hb.1, hb.2, p3, p4, p5, p6, p7⟩
      · exfalso
        rw [AnyResult.file_clustering hc, AnyResult.file_plain (fun c d h => hc' ⟨c, d, h⟩)] at e1
        exact prefix_ne _ _ _ _ _ _ _ e1.symm
    · by_cases hc' : ∃ c d, q'.kind = .clustering c d
      · obtain ⟨c', d', hc'⟩ := hc'
        exfalso
        rw [AnyResult.file_clustering hc', AnyResult.file_plain (fun c d h => hc ⟨c, d, h⟩)] at e1
        exact prefix_ne _ _ _ _ _ _ _ e1
      · have hb := (AnyResult.baseDir_iff hh h h' (Or.inr ⟨fun c d h => hc ⟨c, d, h⟩, fun c d h => hc' ⟨c, d, h⟩⟩)).1 e
        rw [AnyResult.file_plain (fun c d h => hc ⟨c, d, h⟩), AnyResult.file_plain (fun c d h => hc' ⟨c, d, h⟩)] at e1
        obtain ⟨c1, c2⟩ := (NoDouble.of_not_mem (q.namePrefix_plain k).1).cut
          (NoDouble.of_not_mem (q'.namePrefix_plain k').1) e1
        rw [e6] at c2
        obtain ⟨c3, c4, c5⟩ := plainTail_inj c2
        exact ⟨AnyResult.namePrefix_inj c1, hb.1, hb.2, ModelParams.repr_inj e3, e6, c3, c4, c5⟩
  · rintro ⟨rfl, p2, p3, p4, p5, p6, p7, p8⟩
    have hpre : q.namePrefix k = q'.namePrefix k := by
      unfold AnyResult.namePrefix
      rw [p7]
    have hb : q.baseDir home = q'.baseDir home ∧ q.file (q.namePrefix k) = q'.file (q'.namePrefix k) := by
      by_cases hc : ∃ c d, q.kind = .clustering c d
      · obtain ⟨c, d, hc⟩ := hc
        have hc' : ∃ c d, q'.kind = .clustering c d := by
          rw [hc] at p3
          cases hk : q'.kind with
          | basic => rw [hk] at p3; exact p3.elim
          | suite s d => rw [hk] at p3; exact p3.elim
          | clustering c d => exact ⟨c, d, rfl⟩
        obtain ⟨c', d', hc'⟩ := hc'
        refine ⟨(AnyResult.baseDir_iff hh h h' (Or.inl ⟨c, d, c', d', hc, hc'⟩)).2 ⟨p2, p3⟩, ?_⟩
        have g : GoodNames q.md c := by have := h.2.2; rw [hc] at this; exact this
        have g' : GoodNames q'.md c' := by have := h'.2.2; rw [hc'] at this; exact this
        rw [hc, hc'] at p3
        rw [AnyResult.file_clustering hc, AnyResult.file_clustering hc', ((sameSettings_iff g g').2 p3).2, hpre, p5,
          p6, p7, p8]
      · have hc' : ¬ ∃ c d, q'.kind = .clustering c d := by
          rintro ⟨c, d, hk⟩
          rw [hk] at p3
          cases hk : q.kind with
          | basic => rw [hk] at p3; exact p3.elim
          | suite s d => rw [hk] at p3; exact p3.elim
          | clustering c d => exact hc ⟨c, d, hk⟩
        refine ⟨(AnyResult.baseDir_iff hh h h'
          (Or.inr ⟨fun c d h => hc ⟨c, d, h⟩, fun c d h => hc' ⟨c, d, h⟩⟩)).2 ⟨p2, p3⟩, ?_⟩
        rw [AnyResult.file_plain (fun c d h => hc ⟨c, d, h⟩), AnyResult.file_plain (fun c d h => hc' ⟨c, d, h⟩), hpre,
          p5, p6, p7, p8]
    rw [hb.1, hb.2, p4.repr, p5]

/-- The result of a solver with a model at each point. -/
def exampleResult (kind : SolverKind) : AnyResult where
  md := (exampleSolver 1 .dtw).md
  params := .knn 3 .dtw
  testLen := 8
  errorType := "MSE".toList
  kind := kind
  region := ⟨0, 1, 2, 4⟩
  forecastLen := 0

/-- The conditions of C114 hold of the three kinds of solvers. -/
example : (exampleResult .basic).Good ∧
    (exampleResult (.suite ⟨"kmedoids".toList, "quick".toList⟩ .dtw)).Good ∧
    (exampleResult (.clustering (.regular 2) .dtw)).Good ∧
    (exampleResult .basic).path "outputs".toList .result =
      "outputs/a_2014_2015_1spd/knn-k3-dtw/region-0-1-2-4/query-result__region-0-1-2-4__tp8__tf0__MSE.csv".toList ∧
    (exampleResult (.suite ⟨"kmedoids".toList, "quick".toList⟩ .dtw)).path "outputs".toList .summary =
      ("outputs/a_2014_2015_1spd/dtw/kmedoids-quick/knn-k3-dtw/region-0-1-2-4/" ++
        "query-summary__region-0-1-2-4__tp8__tf0__MSE.csv").toList := by
  refine ⟨⟨by decide, by decide, trivial⟩, ⟨by decide, by decide, by decide, by decide, by decide⟩,
    ⟨by decide, by decide, ?_⟩, by decide +kernel, by decide +kernel⟩
  show '/' ∉ (exampleSolver 1 .dtw).md.name
  decide

end Spta
