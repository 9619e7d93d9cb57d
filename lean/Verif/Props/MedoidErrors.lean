import Verif.Model.MedoidErrors
import Verif.Spec.MedoidErrors
import Verif.Props.SolverTrain
import Verif.Props.SolverFiles
import Verif.Props.PartitionAnalysis

/-!
# C109, C110, C111: the errors of the models of medoids
-/

set_option linter.unusedSectionVars false

namespace Spta

variable {K : Type} [Field K] [LinearOrder K] [IsStrictOrderedRing K]

section

variable {P M : Type} {t : Trainer K P M} {s : Stack K} {n : Nat} {medoids : List Point}
  {forecast : M → Nat → Except PyErr (List (Option K))} {errorType : String} {f : ErrorFun K}

/-- Both parts of the series of a point. -/
theorem split_series (hs : s.OK) (hn : n ≤ s.data.tLen) {p : Point} {v : List (Option K)}
    (hv : s.seriesAt p = .ok v) : ∃ past future, v = past ++ future ∧ future.length = n ∧
      past = v.take (v.length - n) := by
  have hl : v.length = s.data.tLen := Cube.get_length hs.data_wf (Stack.seriesAt_data hv)
  refine ⟨v.take (v.length - n), v.drop (v.length - n), (List.take_append_drop _ _).symm, ?_, rfl⟩
  rw [List.length_drop]; omega

/-- A forecast from a point is determined. -/
theorem ForecastFrom.unique {m : Point} {raw raw' : List (Option K)} (h : ForecastFrom t forecast s n m raw)
    (h' : ForecastFrom t forecast s n m raw') : raw = raw' := by
  obtain ⟨a, b, q, model, h1, h2, h3, h4, h5⟩ := h
  obtain ⟨a', b', q', model', h1', h2', h3', h4', h5'⟩ := h'
  rw [h1'] at h1
  obtain ⟨rfl, rfl⟩ := List.append_inj' (Except.ok.inj h1) (by rw [h2, h2'])
  rw [h3'] at h3; cases h3
  rw [h4'] at h4
  cases Except.ok.inj h4
  cases h5 with
  | missing => cases h5'; rfl
  | model e => cases h5' with | model e' => rw [e] at e'; exact Except.ok.inj e'

/-- The error at a point of a forecast from another one is determined. -/
theorem CrossError.unique {m p : Point} {e e' : ErrorVal K} (h : CrossError t forecast f s n m p e)
    (h' : CrossError t forecast f s n m p e') : e = e' := by
  obtain ⟨raw, shown, test, h1, h2, a, b, tr, k1, k2, k3, k4, k5⟩ := h
  obtain ⟨raw', shown', test', h1', h2', a', b', tr', k1', k2', k3', k4', k5'⟩ := h'
  cases h1.unique h1'
  cases h2.unique h2'
  rw [k1'] at k1
  obtain ⟨rfl, rfl⟩ := List.append_inj' (Except.ok.inj k1) (by rw [k2, k2'])
  cases k3.unique k3'
  cases k4.unique k4'
  rw [k5] at k5'
  exact Except.ok.inj k5'

theorem trainAt_ok (h : MedoidTraining t s n medoids) (zero : Option M) :
    ∃ (models : Grid (Option M)) (count : Nat),
      t.applyAtRepresentatives medoids zero (splitLast s n).1 = .ok (models, count) ∧
      ∀ m ∈ medoids, ∃ past future q model, s.seriesAt m = .ok (past ++ future) ∧ future.length = n ∧
        t.params.get m = .ok q ∧ t.train q past = .ok model ∧ models.get m = .ok model := by
  obtain ⟨ct, co, e1, e2, hct, hco, htx, hty, hox, hoy, hlt, hlo, hsplit⟩ := splitLast_new h.ok n h.enough
  have hat : ∀ p v, (s.new ct).seriesAt p = .ok v → ∃ u, s.seriesAt p = .ok u ∧
      v = u.take (u.length - n) := by
    intro p v hv
    obtain ⟨k1, u, hu⟩ := (Stack.seriesAt_new_iff h.ok htx hty).1 hv
    obtain ⟨past, future, rfl, hl, hp⟩ := split_series h.ok h.enough hu
    have := (hsplit p _ past future hu rfl hl).1
    rw [k1] at this
    cases this
    exact ⟨_, hu, hp⟩
  obtain ⟨g, items, g1, g2, g3, g4, g5, -⟩ := trainApply_ok (h.ok.new hct htx hty) t.params.xLen t.params.yLen
    (by rw [Stack.data_new, htx, h.params.2.1]) (by rw [Stack.data_new, hty, h.params.2.2])
    (t.functionAtRepresentatives medoids) zero (by
      intro p v hv
      obtain ⟨u, hu, rfl⟩ := hat p v hv
      unfold Trainer.functionAtRepresentatives
      split
      · rename_i hm
        have hr := Stack.seriesAt_range hu
        obtain ⟨q, hq⟩ := t.params.exists_get h.params.1 (p := p) (by rw [h.params.2.1]; exact hr.1)
          (by rw [h.params.2.2]; exact hr.2)
        simp only [Trainer.functionAt, hq]
        exact h.trains p hm q u hq hu
      · exact ⟨none, rfl⟩)
  refine ⟨g, _, by rw [e1]; exact g1, ?_⟩
  intro m hm
  obtain ⟨u, hu⟩ := h.inside m hm
  obtain ⟨past, future, rfl, hl, hp⟩ := split_series h.ok h.enough hu
  have hpast := (hsplit m _ past future hu rfl hl).1
  have hr := Stack.seriesAt_range hu
  obtain ⟨q, hq⟩ := t.params.exists_get h.params.1 (p := m) (by rw [h.params.2.1]; exact hr.1)
    (by rw [h.params.2.2]; exact hr.2)
  obtain ⟨x, hx⟩ := h.trains m hm q _ hq hu
  rw [← hp] at hx
  refine ⟨past, future, q, x, hu, hl, hq, hx, ?_⟩
  rw [g5 m past (by rw [Stack.seriesAt_new_eq _ hu]; exact hpast)]
  simp only [Trainer.functionAtRepresentatives, if_pos hm, Trainer.functionAt, hq, hx]

/-- The forecast of the model of a medoid. -/
theorem forecastSeriesAt_ok
    (hf : ∀ q v m, t.train q v = .ok (some m) → ∃ w, forecast m n = .ok w ∧ w.length = n)
    {models : Grid (Option M)} {m : Point} {past future : List (Option K)} {q : P} {model : Option M}
    (h1 : s.seriesAt m = .ok (past ++ future)) (h2 : future.length = n) (h3 : t.params.get m = .ok q)
    (h4 : t.train q past = .ok model) (h5 : models.get m = .ok model) :
    ∃ raw, forecastSeriesAt forecast n models m = .ok raw ∧ raw.length = n ∧
      RawForecast forecast n model raw := by
  unfold forecastSeriesAt
  rw [h5]
  cases model with
  | none => exact ⟨_, rfl, by simp, .missing⟩
  | some a =>
    obtain ⟨w, hw, hl⟩ := hf q past a h4
    exact ⟨w, hw, hl, .model hw⟩

/-- The errors of a forecast that is used at all points. -/
theorem repeatedNamed_ok (hs : s.OK) (h1 : s.OneScaling) (hn : n ≤ s.data.tLen)
    (hfunc : getErrorFunc errorType = .ok f) (hmase : errorType = "MASE" → s.data.tLen ≠ n + 1)
    {raw : List (Option K)} (hraw : raw.length = n) :
    ∃ ge : Grid (ErrorVal K),
      repeatedForecastNamed errorType (splitLast s n).2 (splitLast s n).1 raw = .ok (s.newSpatial ge) ∧
      ge.WF ∧ ge.xLen = s.data.grid.xLen ∧ ge.yLen = s.data.grid.yLen ∧
      ∀ p v, s.seriesAt p = .ok v → ∃ shown test e, InUnits s p raw shown ∧ ErrorOf f s n p shown test e ∧
        ge.get p = .ok e := by
  obtain ⟨ct, co, e1, e2, hct, hco, htx, hty, hox, hoy, hlt, hlo, hsplit⟩ := splitLast_new hs n hn
  have hcf : (⟨raw.length, Grid.const s.data.grid.xLen s.data.grid.yLen raw⟩ : Cube (Option K)).WF := by
    refine ⟨Grid.const_wf _ _ raw, ?_⟩
    intro w hw
    rw [(List.mem_replicate.1 hw).2]
  obtain ⟨ge, m1, m2, m3, m4, m5⟩ := measureError_ok hs h1 f co ct
    ⟨raw.length, Grid.const s.data.grid.xLen s.data.grid.yLen raw⟩ hco hct hcf hox hoy htx hty rfl rfl (by
      intro wf wo wt l1 l2 l3
      refine errorFun_ok hfunc (by rw [l1, l2, hlo]; exact hraw) ?_
      intro e; rw [l3]; have := hmase e; omega)
  refine ⟨ge, ?_, m2, m3, m4, ?_⟩
  · rw [e1, e2]
    simp only [repeatedForecastNamed, Stack.repeatSeries, reshape3_repeat, Stack.data_new, hox, hoy,
      Stack.new_new, hfunc]
    exact m1
  · intro p v hv
    obtain ⟨past, future, rfl, hl, -⟩ := split_series hs hn hv
    obtain ⟨k1, k2⟩ := hsplit p _ past future hv rfl hl
    have hr := Stack.seriesAt_range hv
    obtain ⟨shown, hsh⟩ := InUnits.exists hs hv raw
    obtain ⟨test, hte⟩ := InUnits.exists hs hv future
    obtain ⟨tr, htr⟩ := InUnits.exists hs hv past
    obtain ⟨e, he⟩ := ge.exists_get m2 (p := p) (by rw [m3]; exact hr.1) (by rw [m4]; exact hr.2)
    refine ⟨shown, test, e, hsh, ⟨past, future, tr, hv, hl, hte, htr, ?_⟩, he⟩
    rw [← he]
    exact (m5 p _ future past raw test tr shown hv k2 k1 (Grid.get_const (v := raw) hr.1 hr.2) hte htr hsh).symm

/-! ### C109 -/

theorem medoidErrorLoop_ok (line : Nat → Point → Except PyErr Str) (l : Nat → Point → Str) :
    ∀ (ms : List Point) (i : Nat) (file : List Str), (∀ m ∈ ms, ∀ j, line j m = .ok (l j m)) →
      medoidErrorLoop line i ms file = (.ok (), file ++ ms.mapIdx fun j m => l (i + j) m) := by
  intro ms
  induction ms with
  | nil => intro i file _; simp [medoidErrorLoop]
  | cons m ms ih =>
    intro i file h
    rw [medoidErrorLoop, h m (by simp)]
    simp only
    rw [ih (i + 1) _ fun a ha => h a (by simp [ha])]
    simp [List.mapIdx_cons, Nat.add_assoc, Nat.add_comm 1]

/-- One line of the file. -/
theorem medoidErrorLine_ok (h : MedoidTraining t s n medoids)
    (hf : ∀ q v m, t.train q v = .ok (some m) → ∃ w, forecast m n = .ok w ∧ w.length = n)
    (hfunc : getErrorFunc errorType = .ok f) (hmase : errorType = "MASE" → s.data.tLen ≠ n + 1)
    (showError : ErrorVal K → Str) {models : Grid (Option M)} {m : Point}
    (hm : ∃ past future q model, s.seriesAt m = .ok (past ++ future) ∧ future.length = n ∧
        t.params.get m = .ok q ∧ t.train q past = .ok model ∧ models.get m = .ok model) :
    ∃ errs : List (ErrorVal K), (∀ i, medoidErrorLine forecast errorType showError (splitLast s n).1
        (splitLast s n).2 models n medoids i m = .ok (csvRow (natStr i :: errs.map showError))) ∧
      errs.length = medoids.length ∧ ∀ (j : Nat) m' e, medoids[j]? = some m' → errs[j]? = some e →
        CrossError t forecast f s n m m' e := by
  obtain ⟨past, future, q, model, a1, a2, a3, a4, a5⟩ := hm
  obtain ⟨raw, r1, r2, r3⟩ := forecastSeriesAt_ok hf a1 a2 a3 a4 a5
  obtain ⟨ge, g1, g2, g3, g4, g5⟩ := repeatedNamed_ok h.ok h.one h.enough hfunc hmase r2
  have hval : ∀ m' ∈ medoids, ∃ e, (s.newSpatial ge).valueAt m' = .ok e ∧ CrossError t forecast f s n m m' e := by
    intro m' hm'
    obtain ⟨v, hv⟩ := h.inside m' hm'
    obtain ⟨shown, test, e, b1, b2, b3⟩ := g5 m' v hv
    exact ⟨e, by rw [Stack.valueAt_newSpatial _ hv]; exact b3, raw, shown, test,
      ⟨past, future, q, model, a1, a2, a3, a4, r3⟩, b1, b2⟩
  have : ∃ errs, medoids.mapM (s.newSpatial ge).valueAt = .ok errs := by
    have key : ∀ l : List Point, (∀ a ∈ l, a ∈ medoids) → ∃ errs, l.mapM (s.newSpatial ge).valueAt = .ok errs := by
      intro l
      induction l with
      | nil => intro _; exact ⟨[], rfl⟩
      | cons a l ih =>
        intro hl
        obtain ⟨e, he, -⟩ := hval a (hl a (by simp))
        obtain ⟨es, hes⟩ := ih fun b hb => hl b (by simp [hb])
        exact ⟨e :: es, by rw [List.mapM_cons, he, hes]; rfl⟩
    exact key medoids fun _ h => h
  obtain ⟨errs, he⟩ := this
  have hF := mapM_eq_ok.1 he
  refine ⟨errs, ?_, hF.length_eq.symm, ?_⟩
  · intro i
    simp only [medoidErrorLine, r1, g1, he]
  · intro j m' e hj hje
    obtain ⟨e', he', hc⟩ := hval m' (List.mem_of_getElem? hj)
    obtain ⟨e'', h1, h2⟩ := Forall₂.getElem? hF hj
    rw [hje] at h1; cases h1
    rw [he'] at h2; cases h2
    exact hc

/-- The file of the errors between medoids, line by line. -/
theorem medoidErrorsFile_ok (h : MedoidTraining t s n medoids)
    (hf : ∀ q v m, t.train q v = .ok (some m) → ∃ w, forecast m n = .ok w ∧ w.length = n)
    (hfunc : getErrorFunc errorType = .ok f) (hmase : errorType = "MASE" → s.data.tLen ≠ n + 1)
    (showError : ErrorVal K → Str) (k : Nat) (zero : Option M) :
    ∃ errs : Point → List (ErrorVal K),
      medoidErrorsFile t forecast errorType showError s n k medoids zero =
        (.ok (), some (medoidErrorHeader k :: medoids.mapIdx fun j m => csvRow (natStr j :: (errs m).map showError))) ∧
      ∀ m ∈ medoids, (errs m).length = medoids.length ∧ ∀ (j : Nat) m' e, medoids[j]? = some m' →
        (errs m)[j]? = some e → CrossError t forecast f s n m m' e := by
  obtain ⟨models, count, t1, t2⟩ := trainAt_ok h zero
  have hline : ∀ m, ∃ errs : List (ErrorVal K), m ∈ medoids →
      (∀ i, medoidErrorLine forecast errorType showError (splitLast s n).1
        (splitLast s n).2 models n medoids i m = .ok (csvRow (natStr i :: errs.map showError))) ∧
      errs.length = medoids.length ∧ ∀ (j : Nat) m' e, medoids[j]? = some m' → errs[j]? = some e →
        CrossError t forecast f s n m m' e := by
    intro m
    by_cases hm : m ∈ medoids
    · obtain ⟨errs, he⟩ := medoidErrorLine_ok h hf hfunc hmase showError (t2 m hm)
      exact ⟨errs, fun _ => he⟩
    · exact ⟨[], fun h => absurd h hm⟩
  choose errs herrs using hline
  have hloop := medoidErrorLoop_ok _ (fun i m => csvRow (natStr i :: (errs m).map showError)) medoids 0
    [medoidErrorHeader k] fun m hm j => (herrs m hm).1 j
  refine ⟨errs, ?_, fun m hm => (herrs m hm).2⟩
  simp only [medoidErrorsFile, t1, hloop, Nat.zero_add, List.singleton_append]

/-- **C109**: for models trained at `k` medoids without the last `n` samples, the file has a header with the
numbers of the clusters and one line per cluster, with its number and the errors, at all the medoids in the
order of the clusters, of the forecast made with the data of the medoid of that cluster. Each error is
measured in the original units of the point where it occurs. -/
theorem C109_file (h : MedoidTraining t s n medoids)
    (hf : ∀ q v m, t.train q v = .ok (some m) → ∃ w, forecast m n = .ok w ∧ w.length = n)
    (hfunc : getErrorFunc errorType = .ok f) (hmase : errorType = "MASE" → s.data.tLen ≠ n + 1)
    (showError : ErrorVal K → Str) (k : Nat) (hk : 1 ≤ k) (hlen : medoids.length = k) (zero : Option M) :
    ∃ file, medoidErrorsFile t forecast errorType showError s n k medoids zero = (.ok (), some file) ∧
      file.length = k + 1 ∧
      (∃ header, file[0]? = some header ∧
        csvReadRow header = .ok ("cluster".toList :: (List.range k).map natStr)) ∧
      ∀ (i : Nat) m, medoids[i]? = some m → ∃ (line : Str) (errs : List (ErrorVal K)),
        file[i + 1]? = some line ∧ csvReadRow line = .ok (natStr i :: errs.map showError) ∧ errs.length = k ∧
        ∀ (j : Nat) m' e, medoids[j]? = some m' → errs[j]? = some e → CrossError t forecast f s n m m' e := by
  obtain ⟨errs, h1, h2⟩ := medoidErrorsFile_ok h hf hfunc hmase showError k zero
  refine ⟨_, h1, ?_, ⟨_, rfl, ?_⟩, ?_⟩
  · simp [hlen]
  · obtain ⟨k', rfl⟩ : ∃ k', k = k' + 1 := ⟨k - 1, by omega⟩
    rw [medoidErrorHeader, List.range_succ_eq_map, List.map_cons]
    exact csvReadRow_csvRow
  · intro i m hm
    obtain ⟨e2, e3⟩ := h2 m (List.mem_of_getElem? hm)
    refine ⟨csvRow (natStr i :: (errs m).map showError), errs m, ?_, ?_, by rw [e2, hlen], e3⟩
    · rw [List.getElem?_cons_succ, List.getElem?_mapIdx, hm]
      rfl
    · cases he : errs m with
      | nil => rw [he] at e2; simp at e2; omega
      | cons a l => exact csvReadRow_csvRow

end

section

variable {P Q M : Type} {t : Trainer K P M} {refitter : Grid (Option M) → Trainer K Q M} {scaled : Bool}
  {s : Stack K} {n : Nat} {pt : Partition} {medoids : List Point}
  {forecast : M → Nat → Except PyErr (List (Option K))} {errorType : String} {f : ErrorFun K}

/-- The training of a solver trains models at the medoids. -/
theorem TrainingSetup.medoidTraining (h : TrainingSetup t refitter scaled s n pt medoids) :
    MedoidTraining t s n medoids where
  ok := h.created.ok.1
  one := h.created.ok.2.1
  enough := h.enough
  inside := by
    intro m hm
    obtain ⟨i, hi⟩ := List.mem_iff_getElem?.1 hm
    have hr := (Grid.get_eq_ok_iff _ _ _).1 (h.member i m hi)
    obtain ⟨v, hv⟩ := s.data.grid.exists_get h.created.ok.1.data_wf.1 (p := m) (by rw [← h.shape.1]; exact hr.1)
      (by rw [← h.shape.2]; exact hr.2.1)
    exact ⟨v, by rw [h.created.seriesAt, hv]⟩
  params := h.params
  trains := h.trains

/-- **C109** (diagonal): for the same data, partition, trainer and type of error, the error of each model at
its own medoid is the generalization error that the trained solver has for this medoid. -/
theorem C109_diagonal (h : TrainingSetup t refitter scaled s n pt medoids)
    (hf : ∀ q v m, t.train q v = .ok (some m) → ∃ w, forecast m n = .ok w ∧ w.length = n)
    (hfunc : getErrorFunc errorType = .ok f) (hmase : errorType = "MASE" → s.data.tLen ≠ n + 1)
    (showError : ErrorVal K → Str) (zero junk : Option M) :
    ∃ sv file, trainCompleteSolver t refitter forecast errorType scaled s n pt medoids zero junk = .ok sv ∧
      medoidErrorsFile t forecast errorType showError s n pt.k medoids zero = (.ok (), some file) ∧
      ∀ (i : Nat) m, medoids[i]? = some m → ∃ (line : Str) (cells : List Str) (e : ErrorVal K),
        file[i + 1]? = some line ∧ csvReadRow line = .ok (natStr i :: cells) ∧
        cells[i]? = some (showError e) ∧ sv.errors.valueAt m = .ok e := by
  have hm := h.medoidTraining
  obtain ⟨sv, ge, atMedoids, s1, s2, s3, s4, s5, s6⟩ := C90_train h forecast hf hfunc hmase zero junk
  obtain ⟨file, f1, -, -, f2⟩ := C109_file hm hf hfunc hmase showError pt.k h.valid.pos h.count zero
  refine ⟨sv, file, s1, f1, ?_⟩
  intro i m hi
  obtain ⟨line, errs, e1, e2, e3, e4⟩ := f2 i m hi
  have hilt : i < errs.length := by
    rw [e3, ← h.count]
    exact (List.getElem?_eq_some_iff.1 hi).1
  obtain ⟨raw, shown, test, c1, c2, c3⟩ := e4 i m _ hi (List.getElem?_eq_getElem hilt)
  have hl := h.member i m hi
  have hr := (Grid.get_eq_ok_iff _ _ _).1 hl
  obtain ⟨l, tr, wh, ⟨m1, a, past, future, q, q', m2, m3, m4, m5, m6, -⟩, d2, d3, d4⟩ :=
    s6 m (by rw [← h.shape.1]; exact hr.1) (by rw [← h.shape.2]; exact hr.2.1)
  rw [hl] at m1
  cases m1
  rw [hi] at m2
  cases m2
  obtain ⟨past', future', q2, model, b1, b2, b3, b4, b5⟩ := c1
  rw [m3] at b1
  obtain ⟨rfl, rfl⟩ := List.append_inj' (Except.ok.inj b1) (by rw [m4, b2])
  rw [m5] at b3
  cases b3
  rw [m6] at b4
  cases Except.ok.inj b4
  obtain ⟨test', e', g1, g2⟩ := d4 raw shown b5 c2
  have he : errs[i] = e' :=
    CrossError.unique (t := t) (forecast := forecast) (f := f) (s := s) (n := n) (m := m) (p := m)
      ⟨raw, shown, test, ⟨past, future, q, tr, m3, m4, m5, m6, b5⟩, c2, c3⟩
      ⟨raw, shown, test', ⟨past, future, q, tr, m3, m4, m5, m6, b5⟩, c2, g1⟩
  refine ⟨line, errs.map showError, e', e1, e2, ?_, ?_⟩
  · rw [List.getElem?_map, List.getElem?_eq_getElem hilt, he]
    rfl
  · rw [s5.errors]
    exact g2

end

/-! ### C110 -/

/-- The points of a cluster, in the order of the iteration. -/
def clusterPoints (pt : Partition) (i : Nat) : List Point :=
  (rowMajor pt.labels.xLen pt.labels.yLen).filter (pt.has i)

theorem mem_clusterPoints {pt : Partition} {i : Nat} {p : Point} :
    p ∈ clusterPoints pt i ↔ pt.labels.get p = .ok i := by
  unfold clusterPoints
  rw [List.mem_filter, pt.has_iff, mem_rowMajor]
  constructor
  · exact fun h => h.2
  · intro h
    have := (Grid.get_eq_ok_iff _ _ _).1 h
    exact ⟨⟨this.1, this.2.1⟩, h⟩

theorem clusterPoints_nodup (pt : Partition) (i : Nat) : (clusterPoints pt i).Nodup :=
  (rowMajor_nodup _ _).filter _

theorem clusterPoints_indices {pt : Partition} (hw : pt.labels.WF) (i : Nat) :
    indicesOf pt.labels.data i = (clusterPoints pt i).map fun p => p.x * pt.labels.yLen + p.y := by
  unfold clusterPoints indicesOf
  rw [rowMajor_eq_map, List.filter_map, List.map_map]
  have h1 : ∀ j : Nat, ((fun p : Point => p.x * pt.labels.yLen + p.y) ∘ fun n => (⟨n / pt.labels.yLen, n % pt.labels.yLen⟩ : Point)) j = j := by
    intro j
    simp only [Function.comp_apply]
    rw [Nat.mul_comm]
    exact Nat.div_add_mod j _
  rw [List.map_congr_left (g := id) fun j _ => h1 j, List.map_id, hw]
  apply List.filter_congr
  intro j hj
  have hj := List.mem_range.1 hj
  have hy : 0 < pt.labels.yLen := by
    rcases Nat.eq_zero_or_pos pt.labels.yLen with h | h
    · rw [h] at hj; simp at hj
    · exact h
  rw [Bool.eq_iff_iff, beq_iff_eq, Function.comp_apply, pt.has_iff, Grid.get_eq_ok_iff]
  have h2 : j / pt.labels.yLen * pt.labels.yLen + j % pt.labels.yLen = j := by
    rw [Nat.mul_comm]; exact Nat.div_add_mod j _
  simp only [h2]
  constructor
  · intro h
    exact ⟨by rw [Nat.div_lt_iff_lt_mul hy]; exact hj, Nat.mod_lt _ hy, h⟩
  · exact fun h => h.2.2

theorem cluster_items {s : Stack K} {pt : Partition} {i : Nat} (hs : (Stack.cluster s pt i).OK) :
    ∃ items, (Stack.cluster s pt i).items = .ok items ∧ items.map Prod.fst = clusterPoints pt i := by
  have hm := membersOf_ok pt hs.2.1 i (rowMajor pt.labels.xLen pt.labels.yLen)
    (fun p hp => mem_rowMajor.1 hp)
  obtain ⟨items, h1, h2, -⟩ := itemsAt_ok (Stack.cluster s pt i).seriesAt (clusterPoints pt i) (by
    intro p hp
    have hp := mem_clusterPoints.1 hp
    obtain ⟨v, hv⟩ := hs.2.2.2.2 p hp
    exact ⟨v, Stack.cluster_seriesAt_iff.2 ⟨hp, hv⟩⟩)
  refine ⟨items, ?_, h2⟩
  simp only [Stack.items, allPoints_eq, ← hs.2.2.1, ← hs.2.2.2.1, hm]
  exact h1

theorem cluster_errorItems {V : Type} {s : Stack K} {pt : Partition} {i : Nat} (hs : (Stack.cluster s pt i).OK)
    {g : Grid V} (hg : g.WF) (hx : g.xLen = s.data.grid.xLen) (hy : g.yLen = s.data.grid.yLen) :
    ∃ items, ((Stack.cluster s pt i).newSpatial g).items = .ok items ∧ items.map Prod.fst = clusterPoints pt i ∧
      ∀ it ∈ items, g.get it.1 = .ok it.2 := by
  have hm := membersOf_ok pt hs.2.1 i (rowMajor pt.labels.xLen pt.labels.yLen)
    (fun p hp => mem_rowMajor.1 hp)
  have hd : (s.newSpatial g).data = g := SpStack.data_newSpatial s g
  have hval : ∀ p ∈ clusterPoints pt i, (SpStack.cluster (s.newSpatial g) pt i).valueAt p = g.get p := by
    intro p hp
    have hp := mem_clusterPoints.1 hp
    obtain ⟨v, hv⟩ := hs.2.2.2.2 p hp
    exact Stack.valueAt_newSpatial (s := .cluster s pt i) g (Stack.cluster_seriesAt_iff.2 ⟨hp, hv⟩)
  obtain ⟨items, h1, h2, h3⟩ := itemsAt_ok (SpStack.cluster (s.newSpatial g) pt i).valueAt (clusterPoints pt i) (by
    intro p hp
    rw [hval p hp]
    have := (Grid.get_eq_ok_iff _ _ _).1 (mem_clusterPoints.1 hp)
    exact g.exists_get hg (by rw [hx, ← hs.2.2.1]; exact this.1) (by rw [hy, ← hs.2.2.2.1]; exact this.2.1))
  refine ⟨items, ?_, h2, ?_⟩
  · simp only [Stack.newSpatial, SpStack.items, hd, allPoints_eq, hx, hy, ← hs.2.2.1, ← hs.2.2.2.1, hm]
    exact h1
  · intro it hit
    rw [← hval it.1 (by rw [← h2]; exact List.mem_map_of_mem hit)]
    exact h3 it hit

theorem distanceErrorRows_ok (showDistance : Option K → Str) (showError : ErrorVal K → Str) (r : Region)
    (distances : List (Option K)) (errors : List (ErrorVal K)) (d : Point → Option K) (e : Point → ErrorVal K) :
    ∀ (ps : List Point) (j : Nat), distances.drop j = ps.map d → errors.drop j = ps.map e →
      distanceErrorRows showDistance showError r distances errors j ps =
        .ok (ps.map fun p => csvRow [pointText (absolutePosition r p), showDistance (d p), showError (e p)]) := by
  intro ps
  induction ps with
  | nil => intro j _ _; rfl
  | cons p ps ih =>
    intro j h1 h2
    have a1 : distances[j]? = some (d p) := by
      have := congrArg (·[0]?) h1
      simpa using this
    have a2 : errors[j]? = some (e p) := by
      have := congrArg (·[0]?) h2
      simpa using this
    have b1 : distances.drop (j + 1) = ps.map d := by
      have := congrArg (List.drop 1) h1
      simpa using this
    have b2 : errors.drop (j + 1) = ps.map e := by
      have := congrArg (List.drop 1) h2
      simpa using this
    simp only [distanceErrorRows, listAt, a1, a2, ih (j + 1) b1 b2, List.map_cons]

section

variable {P M : Type} {t : Trainer K P M} {scaled : Bool} {s : Stack K} {n : Nat} {pt : Partition}
  {forecast : M → Nat → Except PyErr (List (Option K))} {errorType : String} {f : ErrorFun K}

theorem CreatedRegion.cluster_ok {i : Nat} (hc : CreatedRegion scaled s) (hw : pt.labels.WF)
    (hx : pt.labels.xLen = s.data.grid.xLen) (hy : pt.labels.yLen = s.data.grid.yLen) :
    (Stack.cluster s pt i).OK := by
  refine ⟨hc.ok.1, hw, hx, hy, ?_⟩
  intro p hp
  have hr := (Grid.get_eq_ok_iff _ _ _).1 hp
  obtain ⟨v, hv⟩ := s.data.grid.exists_get hc.ok.1.data_wf.1 (p := p) (by rw [← hx]; exact hr.1)
    (by rw [← hy]; exact hr.2.1)
  exact ⟨v, by rw [hc.seriesAt, hv]⟩

theorem CrossError.of_cluster {i : Nat} {m p : Point} {e : ErrorVal K}
    (h : CrossError t forecast f (.cluster s pt i) n m p e) : CrossError t forecast f s n m p e := by
  obtain ⟨raw, shown, test, ⟨past, future, q, model, h1, h2⟩, hu, a, b, tr, k1, k2, k3, k4, k5⟩ := h
  cases hu with
  | cluster _ _ hu =>
    cases k3 with
    | cluster _ _ k3 =>
      cases k4 with
      | cluster _ _ k4 =>
        exact ⟨raw, shown, test, ⟨past, future, q, model, (Stack.cluster_seriesAt_iff.1 h1).2, h2⟩, hu, a, b, tr,
          (Stack.cluster_seriesAt_iff.1 k1).2, k2, k3, k4, k5⟩

/-- The file of a cluster, line by line. -/
theorem distanceErrorsOf_ok (hc : CreatedRegion scaled s) (hw : pt.labels.WF)
    (hx : pt.labels.xLen = s.data.grid.xLen) (hy : pt.labels.yLen = s.data.grid.yLen) {i : Nat}
    {medoid : Point} (hmem : pt.labels.get medoid = .ok i) (h : MedoidTraining t s n [medoid])
    (hf : ∀ q v m, t.train q v = .ok (some m) → ∃ w, forecast m n = .ok w ∧ w.length = n)
    (hfunc : getErrorFunc errorType = .ok f) (hmase : errorType = "MASE" → s.data.tLen ≠ n + 1)
    (showDistance : Option K → Str) (showError : ErrorVal K → Str) (r : Region) (m : Grid (Option K))
    (d : Point → Option K)
    (hd : ∀ p, pt.labels.get p = .ok i →
      m.get ⟨medoid.x * s.data.grid.yLen + medoid.y, p.x * s.data.grid.yLen + p.y⟩ = .ok (d p))
    (zero : Option M) :
    ∃ (model : Option M) (e : Point → ErrorVal K),
      distanceErrorsOf t forecast errorType showDistance showError r m s n pt i medoid zero =
        .ok (model, distanceErrorHeader :: (clusterPoints pt i).map fun p =>
          csvRow [pointText (absolutePosition r p), showDistance (d p), showError (e p)]) ∧
      (∃ past future q, s.seriesAt medoid = .ok (past ++ future) ∧ future.length = n ∧
        t.params.get medoid = .ok q ∧ t.train q past = .ok model) ∧
      ∀ p ∈ clusterPoints pt i, CrossError t forecast f s n medoid p (e p) := by
  have hok := hc.cluster_ok (i := i) hw hx hy
  have hin : ∀ p v, pt.labels.get p = .ok i → s.seriesAt p = .ok v →
      (Stack.cluster s pt i).seriesAt p = .ok v := fun p v h1 h2 => Stack.cluster_seriesAt_iff.2 ⟨h1, h2⟩
  obtain ⟨vm, hvm⟩ := h.inside medoid (by simp)
  have h' : MedoidTraining t (.cluster s pt i) n [medoid] := {
    ok := hok
    one := h.one
    enough := h.enough
    inside := by
      intro a ha
      rw [List.mem_singleton] at ha
      subst ha
      exact ⟨vm, hin _ _ hmem hvm⟩
    params := h.params
    trains := by
      intro a ha q v hq hv
      exact h.trains a ha q v hq (Stack.cluster_seriesAt_iff.1 hv).2 }
  obtain ⟨models, count, t1, t2⟩ := trainAt_ok h' zero
  obtain ⟨past, future, q, model, a1, a2, a3, a4, a5⟩ := t2 medoid (by simp)
  obtain ⟨raw, r1, r2, r3⟩ := forecastSeriesAt_ok hf a1 a2 a3 a4 a5
  obtain ⟨ge, g1, g2, g3, g4, g5⟩ := repeatedNamed_ok hok h'.one h'.enough hfunc hmase r2
  obtain ⟨items, i1, i2⟩ := cluster_items hok
  obtain ⟨eitems, j1, j2, j3⟩ := cluster_errorItems hok g2 g3 g4
  have hobs : ∃ w, (splitLast (Stack.cluster s pt i) n).2.seriesAt medoid = .ok w := by
    obtain ⟨ct, co, e1, e2, hct, hco, htx, hty, hox, hoy, hlt, hlo, hsplit⟩ :=
      splitLast_new hok n h'.enough
    rw [e2, Stack.seriesAt_new_eq _ a1]
    exact ⟨_, (hsplit medoid _ past future a1 rfl a2).2⟩
  obtain ⟨w, hw'⟩ := hobs
  have hdist : distancesToPointWithMatrix m s.data.grid.yLen medoid (indicesOf pt.labels.data i) =
      .ok ((clusterPoints pt i).map d) := by
    rw [clusterPoints_indices hw, hy, distancesToPointWithMatrix, List.mapM_map]
    exact mapM_ok _ _ _ fun p hp => hd p (mem_clusterPoints.1 hp)
  have hind : (⟨s.data.grid, pt, i, 0⟩ : ClusterObj (List (Option K))).allPointIndices =
      .ok (indicesOf pt.labels.data i) :=
    allPointIndices_eq (c := ⟨s.data.grid, pt, i, 0⟩) ⟨hc.ok.1.data_wf.1, hw, hx, hy⟩
  have herr : ∃ e : Point → ErrorVal K, eitems.map Prod.snd = (clusterPoints pt i).map e ∧
      ∀ p ∈ clusterPoints pt i, ge.get p = .ok (e p) := by
    refine ⟨fun p => match ge.get p with | .ok v => v | .error _ => none, ?_, ?_⟩
    · rw [← j2, List.map_map]
      apply List.map_congr_left
      intro it hit
      simp only [Function.comp_apply, j3 it hit]
    · intro p hp
      rw [← j2] at hp
      obtain ⟨it, hit, rfl⟩ := List.mem_map.1 hp
      simp only [j3 it hit]
  obtain ⟨e, he1, he2⟩ := herr
  have hrows := distanceErrorRows_ok showDistance showError r ((clusterPoints pt i).map d)
    (eitems.map Prod.snd) d e (clusterPoints pt i) 0 rfl he1
  refine ⟨model, e, ?_, ⟨past, future, q, (Stack.cluster_seriesAt_iff.1 a1).2, a2, a3, a4⟩, ?_⟩
  · simp only [distanceErrorsOf, hind, hdist, t1, r1, hw', a5, g1, j1, i1, i2, hrows]
  · intro p hp
    obtain ⟨v, hv⟩ := hok.2.2.2.2 p (mem_clusterPoints.1 hp)
    obtain ⟨shown, test, e', b1, b2, b3⟩ := g5 p v (hin p v (mem_clusterPoints.1 hp) hv)
    rw [he2 p hp] at b3
    cases b3
    exact CrossError.of_cluster (i := i) (pt := pt)
      ⟨raw, shown, test, ⟨past, future, q, model, a1, a2, a3, a4, r3⟩, b1, b2⟩

/-- **C110**: the file of a cluster has one line for every point of the cluster and no other, with the position
of the point in the whole dataset, the distance from the medoid of the cluster to this point and the error, at
this point, of the forecast made with the data of the medoid. -/
theorem C110_cluster (hc : CreatedRegion scaled s) (hw : pt.labels.WF)
    (hx : pt.labels.xLen = s.data.grid.xLen) (hy : pt.labels.yLen = s.data.grid.yLen) {i : Nat}
    {medoid : Point} (hmem : pt.labels.get medoid = .ok i) (h : MedoidTraining t s n [medoid])
    (hf : ∀ q v m, t.train q v = .ok (some m) → ∃ w, forecast m n = .ok w ∧ w.length = n)
    (hfunc : getErrorFunc errorType = .ok f) (hmase : errorType = "MASE" → s.data.tLen ≠ n + 1)
    (showDistance : Option K → Str) (showError : ErrorVal K → Str) (r : Region) (m : Grid (Option K))
    (d : Point → Option K)
    (hd : ∀ p, pt.labels.get p = .ok i →
      m.get ⟨medoid.x * s.data.grid.yLen + medoid.y, p.x * s.data.grid.yLen + p.y⟩ = .ok (d p))
    (zero : Option M) :
    ∃ model lines, distanceErrorsOf t forecast errorType showDistance showError r m s n pt i medoid zero =
        .ok (model, lines) ∧
      (∃ past future q, s.seriesAt medoid = .ok (past ++ future) ∧ future.length = n ∧
        t.params.get medoid = .ok q ∧ t.train q past = .ok model) ∧
      ClusterFile t forecast f showDistance showError r s n medoid d (fun p => pt.labels.get p = .ok i)
        lines := by
  obtain ⟨model, e, h1, h2, h3⟩ := distanceErrorsOf_ok hc hw hx hy hmem h hf hfunc hmase showDistance showError r m d
    hd zero
  refine ⟨model, _, h1, h2, ⟨_, rfl, csvReadRow_csvRow⟩, clusterPoints pt i, clusterPoints_nodup pt i,
    fun p => mem_clusterPoints, by simp, ?_⟩
  intro j p hj
  refine ⟨_, e p, ?_, csvReadRow_csvRow, h3 p (List.mem_of_getElem? hj)⟩
  rw [List.getElem?_cons_succ, List.getElem?_map, hj]
  simp only [Option.map_some, absolutePosition, Nat.add_comm]
  rfl

/-- **C110** (all clusters): with one medoid in each cluster, there is a file per cluster, so every point of the
region has its line in the file of its cluster. -/
theorem C110_all {Q : Type} {refitter : Grid (Option M) → Trainer K Q M} {medoids : List Point}
    (h : TrainingSetup t refitter scaled s n pt medoids)
    (hf : ∀ q v m, t.train q v = .ok (some m) → ∃ w, forecast m n = .ok w ∧ w.length = n)
    (hfunc : getErrorFunc errorType = .ok f) (hmase : errorType = "MASE" → s.data.tLen ≠ n + 1)
    (showDistance : Option K → Str) (showError : ErrorVal K → Str) (r : Region) (m : Grid (Option K))
    (d : Point → Point → Option K)
    (hd : ∀ p q : Point, p.x < s.data.grid.xLen → p.y < s.data.grid.yLen → q.x < s.data.grid.xLen →
      q.y < s.data.grid.yLen → m.get ⟨p.x * s.data.grid.yLen + p.y, q.x * s.data.grid.yLen + q.y⟩ = .ok (d p q))
    (zero : Option M) :
    ∃ files : List (Option M × List Str),
      distanceErrorsAll t forecast errorType showDistance showError r m s n pt medoids zero = .ok files ∧
      files.length = pt.k ∧
      (∀ (i : Nat) medoid, medoids[i]? = some medoid → ∃ model lines, files[i]? = some (model, lines) ∧
        ClusterFile t forecast f showDistance showError r s n medoid (d medoid)
          (fun p => pt.labels.get p = .ok i) lines) ∧
      ∀ p : Point, p.x < s.data.grid.xLen → p.y < s.data.grid.yLen →
        ∃ (i j : Nat) (medoid : Point) (model : Option M) (lines : List Str) (line : Str) (e : ErrorVal K),
          pt.labels.get p = .ok i ∧ medoids[i]? = some medoid ∧ files[i]? = some (model, lines) ∧
          lines[j + 1]? = some line ∧
          csvReadRow line = .ok ["Point(x=".toList ++ (natStr (r.x1 + p.x) ++ (", y=".toList ++
            (natStr (r.y1 + p.y) ++ [')']))), showDistance (d medoid p), showError e] ∧
          CrossError t forecast f s n medoid p e := by
  have hone : ∀ i, ∃ file : Option M × List Str, ∀ medoid, medoids[i]? = some medoid →
      distanceErrorsOf t forecast errorType showDistance showError r m s n pt i medoid zero = .ok file ∧
      ClusterFile t forecast f showDistance showError r s n medoid (d medoid)
          (fun p => pt.labels.get p = .ok i) file.2 := by
    intro i
    cases hi : medoids[i]? with
    | none => exact ⟨(none, []), fun _ h => by cases h⟩
    | some medoid =>
      have hm := h.medoidTraining
      have hl := h.member i medoid hi
      have hmem := List.mem_of_getElem? hi
      have hrange : ∀ p l, pt.labels.get p = .ok l → p.x < s.data.grid.xLen ∧ p.y < s.data.grid.yLen := by
        intro p l hp
        have := (Grid.get_eq_ok_iff _ _ _).1 hp
        exact ⟨by rw [← h.shape.1]; exact this.1, by rw [← h.shape.2]; exact this.2.1⟩
      obtain ⟨model, lines, k1, -, k2⟩ := C110_cluster h.created h.valid.wf h.shape.1 h.shape.2 hl
        (MedoidTraining.mk (t := t) hm.ok hm.one hm.enough
          (fun a ha => hm.inside a (by rw [List.mem_singleton.1 ha]; exact hmem)) hm.params
          (fun a ha => hm.trains a (by rw [List.mem_singleton.1 ha]; exact hmem))) hf hfunc hmase showDistance
        showError r m (d medoid) (fun p hp => hd medoid p (hrange _ _ hl).1 (hrange _ _ hl).2 (hrange _ _ hp).1
          (hrange _ _ hp).2) zero
      refine ⟨(model, lines), ?_⟩
      intro a ha
      cases ha
      exact ⟨k1, k2⟩
  choose file hfile using hone
  have hat : ∀ i < pt.k, ∃ medoid, medoids[i]? = some medoid := by
    intro i hi
    exact ⟨_, List.getElem?_eq_getElem (by rw [h.count]; exact hi)⟩
  have hfiles : ∀ (i : Nat) medoid, medoids[i]? = some medoid →
      ∃ model lines, ((List.range pt.k).map file)[i]? = some (model, lines) ∧
        ClusterFile t forecast f showDistance showError r s n medoid (d medoid)
          (fun p => pt.labels.get p = .ok i) lines := by
    intro i medoid hi
    have hlt : i < pt.k := by rw [← h.count]; exact (List.getElem?_eq_some_iff.1 hi).1
    refine ⟨(file i).1, (file i).2, ?_, (hfile i medoid hi).2⟩
    rw [List.getElem?_map, List.getElem?_range hlt]
    rfl
  refine ⟨(List.range pt.k).map file, ?_, by simp, hfiles, ?_⟩
  · unfold distanceErrorsAll
    rw [if_neg (by rintro ⟨-, h1⟩; exact h1 h.shape), if_neg (by rintro ⟨-, h1⟩; rw [h.count] at h1; omega)]
    refine mapM_ok _ _ _ ?_
    intro i hi
    obtain ⟨medoid, hm⟩ := hat i (List.mem_range.1 hi)
    simp only [hm, (hfile i medoid hm).1]
  · intro p hx hy
    obtain ⟨l, hl⟩ := pt.labels.exists_get h.valid.wf (p := p) (by rw [h.shape.1]; exact hx)
      (by rw [h.shape.2]; exact hy)
    have hlk : l < pt.k := by
      have := (Grid.get_eq_ok_iff _ _ _).1 hl
      exact h.valid.lt l (List.mem_of_getElem? this.2.2)
    obtain ⟨medoid, hm⟩ := hat l hlk
    obtain ⟨model, lines, k1, k2, points, k3, k4, k5, k6⟩ := hfiles l medoid hm
    obtain ⟨j, hj⟩ := List.mem_iff_getElem?.1 ((k4 p).2 hl)
    obtain ⟨line, e, q1, q2, q3⟩ := k6 j p hj
    exact ⟨l, j, medoid, model, lines, line, e, hl, hm, k1, q1, q2, q3⟩

end

/-- The errors between the medoids of the trained region and the file of its first cluster; errors are shown
as the integer part of their hundredfold. -/
example :
    let show' : ErrorVal ℚ → Str := fun e => match e with
      | none => ['n', 'a', 'n']
      | some (some v) => intStr (v * 100).floor
      | some none => ['i', 'n', 'f']
    let showD : Option ℚ → Str := fun d => match d with
      | none => ['n', 'a', 'n']
      | some v => intStr v.floor
    medoidErrorsFile meanTrainer repeatMean "MSE" show' trainedRegion 1 2 [⟨0, 1⟩, ⟨0, 2⟩] none =
      (.ok (), some ["cluster 0 1".toList, "0 900 225".toList, "1 0 3600".toList]) ∧
    (distanceErrorsOf meanTrainer repeatMean "MSE" showD show' ⟨5, 6, 7, 10⟩
      ⟨3, 3, [some 0, some 4, some 6, some 4, some 0, some 5, some 6, some 5, some 0]⟩ trainedRegion 1
      trainedPartition 0 ⟨0, 1⟩ none).map Prod.snd =
      .ok ["position distance_dtw forecast_error".toList, "|Point(x=5, y=7)| 4 25".toList,
        "|Point(x=5, y=8)| 0 900".toList] := by
  refine ⟨?_, ?_⟩ <;> decide +kernel

/-! ### C111 -/

theorem outputFile_iff {home : Str} (hh : DirName home) {m m' : SolverMeta} (h : GoodSolver m)
    (h' : GoodSolver m') {f f' : Str} (hf : FileName f) (hf' : FileName f') :
    osJoin (m.outputDir home) f = osJoin (m'.outputDir home) f' ↔
      SameSettings m.md m'.md m.clustering m'.clustering ∧ SameParams m.params m'.params ∧ f = f' := by
  have hp : ∀ (q : SolverMeta) (f : Str), GoodSolver q → FileName f → osJoin (q.outputDir home) f =
      (osJoin (osJoin home q.md.repr) (osJoin q.dist.repr q.clustering.repr) ++ '/' :: q.params.repr) ++
        '/' :: f := by
    intro q f h hf
    have p1 : FileName q.params.repr := ⟨q.params.repr_good.2, q.params.repr_good.1⟩
    rw [SolverMeta.outputDir, osJoin_file (subdir_dir hh q.dist h.1) p1, osJoin_file p1.dir.join hf]
  rw [hp m f h hf, hp m' f' h' hf']
  constructor
  · intro e
    obtain ⟨e, e1⟩ := append_slash_inj hf.2 hf'.2 e
    obtain ⟨e, e3⟩ := append_slash_inj m.params.repr_good.1 m'.params.repr_good.1 e
    exact ⟨(subdir_inj hh h.1 h'.1).1 e, ModelParams.repr_inj e3, e1⟩
  · rintro ⟨e1, e2, rfl⟩
    rw [(subdir_inj (dist := m.dist) (dist' := m'.dist) hh h.1 h'.1).2 e1, e2.repr]

/-- The name of the file of the errors between medoids. -/
def betweenName (m : SolverMeta) : Str :=
  "error-between-medoids".toList ++ (sep2 ++ (m.clustering.repr ++ (sep2 ++ (m.errorType ++ ".csv".toList))))

/-- The name of the file of distances and errors of a cluster. -/
def distErrorName (m : SolverMeta) (i : Nat) (p d q : Int) : Str :=
  "dist-error".toList ++ (sep2 ++ (m.clustering.repr ++ (sep2 ++ (m.errorType ++ (sep2 ++
      ("cluster".toList ++ (natStr i ++ (sep2 ++ ("auto-arima-p".toList ++ (intStr p ++ ("-d".toList ++
        (intStr d ++ ("-q".toList ++ (intStr q ++ ".csv".toList))))))))))))))

theorem betweenName_name {m : SolverMeta} (h : GoodSolver m) : FileName (betweenName m) := by
  have hne : ∀ a b : Str, a ≠ [] → a ++ b ≠ [] := fun a b h => by simp [h]
  unfold betweenName
  refine ⟨hne _ _ (by decide), ?_⟩
  simp only [List.mem_append, not_or]
  refine ⟨by decide, by decide, h.1.repr.1, by decide, h.2, by decide⟩

theorem distErrorName_name {m : SolverMeta} (h : GoodSolver m) (i : Nat) (p d q : Int) :
    FileName (distErrorName m i p d q) := by
  have hne : ∀ a b : Str, a ≠ [] → a ++ b ≠ [] := fun a b h => by simp [h]
  unfold distErrorName
  refine ⟨hne _ _ (by decide), ?_⟩
  simp only [List.mem_append, not_or]
  refine ⟨by decide, by decide, h.1.repr.1, by decide, h.2, by decide, by decide, (natStr_plain i).2.1, by decide,
    by decide, intStr_no_slash _, by decide, intStr_no_slash _, by decide, intStr_no_slash _, by decide⟩

/-- **C111** (errors between medoids): two runs write the same file exactly if they agree in the settings, the
parameters of the models and the type of the error. The forecast length does not matter. -/
theorem C111_between_partial {home : Str} (hh : DirName home) {m m' : SolverMeta} (h : GoodSolver m)
    (h' : GoodSolver m') :
    medoidErrorsPath m home = medoidErrorsPath m' home ↔
      SameSettings m.md m'.md m.clustering m'.clustering ∧ SameParams m.params m'.params ∧
        m.errorType = m'.errorType := by
  have : ∀ m : SolverMeta, medoidErrorsPath m home = osJoin (m.outputDir home) (betweenName m) := fun _ => rfl
  rw [this, this, outputFile_iff hh h h' (betweenName_name h) (betweenName_name h')]
  constructor
  · rintro ⟨e1, e2, e3⟩
    refine ⟨e1, e2, ?_⟩
    unfold betweenName at e3
    rw [((sameSettings_iff h.1 h'.1).2 e1).2] at e3
    exact List.append_cancel_right (List.append_cancel_left (List.append_cancel_left (List.append_cancel_left
      (List.append_cancel_left e3))))
  · rintro ⟨e1, e2, e3⟩
    refine ⟨e1, e2, ?_⟩
    unfold betweenName
    rw [((sameSettings_iff h.1 h'.1).2 e1).2, e3]

/-- **C111** (distance against error): two runs write the same file exactly if they agree in the settings, the
parameters of the models, the type of the error, the cluster and the order of the model of its medoid. The
forecast length does not matter. -/
theorem C111_distance_partial {home : Str} (hh : DirName home) {m m' : SolverMeta} (h : GoodSolver m)
    (h' : GoodSolver m') (he : '_' ∉ m.errorType) (he' : '_' ∉ m'.errorType) (i i' : Nat)
    (p d q p' d' q' : Int) :
    distanceErrorsPath m home i p d q = distanceErrorsPath m' home i' p' d' q' ↔
      SameSettings m.md m'.md m.clustering m'.clustering ∧ SameParams m.params m'.params ∧
        m.errorType = m'.errorType ∧ i = i' ∧ p = p' ∧ d = d' ∧ q = q' := by
  have : ∀ (m : SolverMeta) i p d q, distanceErrorsPath m home i p d q =
    osJoin (m.outputDir home) (distErrorName m i p d q) := fun _ _ _ _ _ => rfl
  rw [this, this, outputFile_iff hh h h' (distErrorName_name h _ _ _ _) (distErrorName_name h' _ _ _ _)]
  constructor
  · rintro ⟨e1, e2, e3⟩
    unfold distErrorName at e3
    rw [((sameSettings_iff h.1 h'.1).2 e1).2] at e3
    replace e3 := List.append_cancel_left (List.append_cancel_left (List.append_cancel_left
      (List.append_cancel_left e3)))
    obtain ⟨e4, e3⟩ := (NoDouble.of_not_mem he).cut (NoDouble.of_not_mem he') e3
    replace e3 := List.append_cancel_left e3
    simp only [sep2, List.cons_append, List.nil_append] at e3
    obtain ⟨e5, e3⟩ := natStr_delim (by decide) (by decide) e3
    simp only [List.cons.injEq, true_and] at e3
    replace e3 := List.append_cancel_left e3
    rw [show "-d".toList = ['-', 'd'] from rfl, show "-q".toList = ['-', 'q'] from rfl] at e3
    simp only [List.cons_append, List.nil_append] at e3
    obtain ⟨e6, e3⟩ := intStr_delim (by decide) (by decide) e3
    simp only [List.cons.injEq, true_and] at e3
    obtain ⟨e7, e3⟩ := intStr_delim (by decide) (by decide) e3
    simp only [List.cons.injEq, true_and] at e3
    exact ⟨e1, e2, e4, e5, e6, e7, intStr_inj (List.append_cancel_right e3)⟩
  · rintro ⟨e1, e2, e3, rfl, rfl, rfl, rfl⟩
    refine ⟨e1, e2, ?_⟩
    unfold distErrorName
    rw [((sameSettings_iff h.1 h'.1).2 e1).2, e3]

/-- **C111** (kinds): the two experiments never write the same file. -/
theorem C111_kinds {home : Str} (hh : DirName home) {m m' : SolverMeta} (h : GoodSolver m)
    (h' : GoodSolver m') (i : Nat) (p d q : Int) :
    medoidErrorsPath m home ≠ distanceErrorsPath m' home i p d q := by
  intro e
  have := ((outputFile_iff hh h h' (betweenName_name h) (distErrorName_name h' i p d q)).1 e).2.2
  have h0 : (betweenName m)[0]? = some 'e' := rfl
  have h1 : (distErrorName m' i p d q)[0]? = some 'd' := rfl
  rw [this, h1] at h0
  simp at h0

/-- **C111** (refuted): runs with different forecast lengths write to the same files, although the errors
differ (see the contents below): the later run replaces the results of the earlier one. -/
theorem C111_refuted : ∃ m m' : SolverMeta, GoodSolver m ∧ GoodSolver m' ∧ m.testLen ≠ m'.testLen ∧
    (∀ home, medoidErrorsPath m home = medoidErrorsPath m' home) ∧
    (∀ home i p d q, distanceErrorsPath m home i p d q = distanceErrorsPath m' home i p d q) ∧
    (medoidErrorsFile meanTrainer repeatMean "MSE" (fun e => if e = some 0 then ['0'] else ['1']) trainedRegion
      m.testLen 2 [⟨0, 1⟩, ⟨0, 2⟩] none).2 ≠
    (medoidErrorsFile meanTrainer repeatMean "MSE" (fun e => if e = some 0 then ['0'] else ['1']) trainedRegion
      m'.testLen 2 [⟨0, 1⟩, ⟨0, 2⟩] none).2 := by
  refine ⟨exampleSolver 1 .dtw, exampleSolver 2 .dtw, exampleSolver_good _ _, exampleSolver_good _ _, by decide,
    fun _ => rfl, fun _ _ _ _ _ => rfl, by decide +kernel⟩

/-- The paths of the two files. -/
example : medoidErrorsPath (exampleSolver 1 .dtw) "outputs".toList =
      ("outputs/a_2014_2015_1spd/dtw/regular_k2/auto-arima-start_p1-start_q1-max_p3-max_q3-dNone-stepwiseTrue/" ++
        "error-between-medoids__regular_k2__MSE.csv").toList ∧
    distanceErrorsPath (exampleSolver 1 .dtw) "outputs".toList 1 2 0 (-1) =
      ("outputs/a_2014_2015_1spd/dtw/regular_k2/auto-arima-start_p1-start_q1-max_p3-max_q3-dNone-stepwiseTrue/" ++
        "dist-error__regular_k2__MSE__cluster1__auto-arima-p2-d0-q-1.csv").toList ∧
    GoodSolver (exampleSolver 1 .dtw) ∧ '_' ∉ (exampleSolver 1 .dtw).errorType := by
  refine ⟨by decide +kernel, by decide +kernel, exampleSolver_good _ _, by decide⟩

end Spta
