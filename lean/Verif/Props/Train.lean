import Verif.Lemmas.Train
import Verif.Props.Util
import Verif.Props.Merge

/-!
# C45 – C47: training and test data, nearest neighbours, models of the medoids
-/

set_option linter.unusedSectionVars false

namespace Spta

variable {K : Type} [Field K] [LinearOrder K]

/-! ### C45 -/

/-- **C45**: the series of the training region followed by the series of the test region is the
original series, and the test part has `test_len` samples. Both parts have the points of the original
region and its decorations (scaling data, clusters). -/
theorem C45_split (s : Stack K) (hs : s.OK) (testLen : Nat) (h : testLen ≤ s.data.tLen) :
    (splitLast s testLen).1.data.tLen + testLen = s.data.tLen ∧
    (splitLast s testLen).2.data.tLen = testLen ∧
    (∀ p v, s.seriesAt p = .ok v → ∃ a b, (splitLast s testLen).1.seriesAt p = .ok a ∧
      (splitLast s testLen).2.seriesAt p = .ok b ∧ a ++ b = v ∧ b.length = testLen) ∧
    (∀ p a, (splitLast s testLen).1.seriesAt p = .ok a → ∃ v, s.seriesAt p = .ok v) ∧
    (∀ p b, (splitLast s testLen).2.seriesAt p = .ok b → ∃ v, s.seriesAt p = .ok v) ∧
    (splitLast s testLen).1.new s.data = s ∧ (splitLast s testLen).2.new s.data = s := by
  have e1 : sliceInterval s.data.tLen 0 ((s.data.tLen : Int) - testLen) =
      ⟨0, s.data.tLen - testLen⟩ := by
    simp only [sliceInterval, pyBound, TimeInterval.mk.injEq]
    constructor <;> split <;> omega
  have e2 : sliceInterval s.data.tLen ((s.data.tLen : Int) - testLen) s.data.tLen =
      ⟨s.data.tLen - testLen, s.data.tLen⟩ := by
    simp only [sliceInterval, pyBound, TimeInterval.mk.injEq]
    constructor <;> split <;> omega
  simp only [splitLast, e1, e2]
  refine ⟨?_, ?_, ?_, ?_, ?_, ?_, ?_⟩
  · rw [Stack.intervalSubset_eq, Stack.data_new]
    simp only [Cube.intervalSlice]; omega
  · rw [Stack.intervalSubset_eq, Stack.data_new]
    simp only [Cube.intervalSlice]; omega
  · intro p v hv
    have hl := Stack.seriesAt_length hs hv
    refine ⟨_, _, (seriesAt_intervalSubset hs _).2 ⟨v, hv, rfl⟩,
      (seriesAt_intervalSubset hs _).2 ⟨v, hv, rfl⟩, ?_, ?_⟩
    · simp only [sliceSeries, List.drop_zero]
      rw [List.take_of_length_le (i := s.data.tLen) (by omega)]
      exact List.take_append_drop _ _
    · rw [sliceSeries_length]; simp only; omega
  · intro p a ha
    obtain ⟨v, hv, _⟩ := (seriesAt_intervalSubset hs _).1 ha
    exact ⟨v, hv⟩
  · intro p a ha
    obtain ⟨v, hv, _⟩ := (seriesAt_intervalSubset hs _).1 ha
    exact ⟨v, hv⟩
  · rw [Stack.intervalSubset_eq, Stack.new_new, Stack.new_data]
  · rw [Stack.intervalSubset_eq, Stack.new_new, Stack.new_data]

/-- Beyond the series (outside the claim): for `test_len` larger than the series the split raises
nothing, but no split has `test_len` test samples. -/
theorem C45_too_long (s : Stack K) (testLen : Nat) (h : s.data.tLen < testLen) :
    (splitLast s testLen).2.data.tLen < testLen := by
  simp only [splitLast]
  rw [Stack.intervalSubset_eq, Stack.data_new]
  simp only [Cube.intervalSlice]
  omega

/-- A scaled 1 by 2 region with series of length 4, split with 1 test sample. -/
example : (splitLast (.scaled (.plain ⟨4, ⟨1, 2, [[some (0 : ℚ), some 1, none, some 1],
      [some 1, some 0, some (1/2), some (1/4)]]⟩⟩)
      (.plain ⟨1, 2, [some 3, some 7]⟩) (.plain ⟨1, 2, [some 5, some 8]⟩)) 1).2 =
    .scaled (.plain ⟨1, ⟨1, 2, [[some (1 : ℚ)], [some (1/4)]]⟩⟩)
      (.plain ⟨1, 2, [some 3, some 7]⟩) (.plain ⟨1, 2, [some 5, some 8]⟩) := by decide +kernel

/-! ### C46 -/

/-- **C46**: with at least `k` candidates of the right length the result is `k` different indices of
candidates, and no other candidate is nearer. -/
theorem C46_nearest {A V : Type} [LinearOrder V] (measure : List A → List A → V)
    (argpartition : List V → Nat → List Nat)
    (hpart : ∀ values k, k < values.length → IsArgPartition values k (argpartition values k))
    (array : List A) (k : Nat) (possible : List (List A))
    (hlen : ∀ n ∈ possible, n.length = array.length) (hk : k ≤ possible.length) :
    ∃ idx, findKNearest measure argpartition array k possible = .ok idx ∧
      AreNearest (fun i => measure array (possible.getD i [])) possible.length k idx := by
  have h0 : possible.any (fun n => n.length != array.length) = false := by
    rw [List.any_eq_false]; intro n hn; simp [hlen n hn]
  unfold findKNearest
  rw [h0, if_neg (by simp), if_neg (by omega)]
  by_cases he : possible.length = k
  · rw [if_pos he]
    refine ⟨_, rfl, by simp, List.nodup_range, ?_, ?_⟩
    · intro i hi; rw [he]; exact List.mem_range.1 hi
    · intro i _ j hj hn
      exact absurd (List.mem_range.2 (by omega)) hn
  · rw [if_neg he]
    have hp := hpart (possible.map fun n => measure array n) k (by rw [List.length_map]; omega)
    set order := argpartition (possible.map fun n => measure array n) k with ho
    have hol : order.length = possible.length := by
      rw [hp.perm.length_eq, List.length_range, List.length_map]
    have hnd : order.Nodup := hp.perm.nodup_iff.2 List.nodup_range
    have hmem : ∀ a, a ∈ order ↔ a < possible.length := by
      intro a; rw [hp.perm.mem_iff, List.mem_range, List.length_map]
    have hd : ∀ a, a < possible.length →
        (possible.map fun n => measure array n)[a]? = some (measure array (possible.getD a [])) := by
      intro a ha
      rw [List.getElem?_map, List.getElem?_eq_getElem ha]
      simp [List.getD, List.getElem?_eq_getElem ha]
    refine ⟨_, rfl, ?_, ?_, ?_, ?_⟩
    · rw [List.length_take, ← ho]; omega
    · exact hnd.sublist (List.take_sublist _ _)
    · intro i hi; exact (hmem i).1 (List.mem_of_mem_take hi)
    · intro a ha b hb hnb
      obtain ⟨i, hi⟩ := List.mem_iff_getElem?.1 ha
      have hik : i < k := by
        have := (List.getElem?_eq_some_iff.1 hi).1
        rw [List.length_take] at this; omega
      rw [List.getElem?_take_of_lt hik] at hi
      obtain ⟨j, hj⟩ := List.mem_iff_getElem?.1 ((hmem b).2 hb)
      have hjk : k ≤ j := by
        by_contra hc
        apply hnb
        rw [List.mem_iff_getElem?]
        exact ⟨j, by rw [List.getElem?_take_of_lt (by omega)]; exact hj⟩
      exact hp.split i j a b _ _ hik hjk hi hj
        (hd a ((hmem a).1 (List.mem_of_getElem? hi))) (hd b hb)

/-- **C46**: fewer than `k` candidates, or a candidate of another length, raise ValueError. -/
theorem C46_errors {A V : Type} (measure : List A → List A → V)
    (argpartition : List V → Nat → List Nat) (array : List A) (k : Nat) (possible : List (List A))
    (h : possible.length < k ∨ ∃ n ∈ possible, n.length ≠ array.length) :
    findKNearest measure argpartition array k possible = .error .valueError := by
  unfold findKNearest
  by_cases h0 : possible.any (fun n => n.length != array.length) = true
  · rw [if_pos h0]
  · rw [if_neg h0, if_pos]
    rcases h with h | ⟨n, hn, hne⟩
    · exact h
    · exfalso; apply h0
      rw [List.any_eq_true]; exact ⟨n, hn, by simpa using hne⟩

theorem mean_between [IsStrictOrderedRing K] (l : List K) (h : l ≠ []) :
    (∃ a ∈ l, a ≤ l.sum / l.length) ∧ ∃ b ∈ l, l.sum / l.length ≤ b := by
  have hpos : (0 : K) < l.length := by
    have : 0 < l.length := List.length_pos_iff.2 h
    exact_mod_cast this
  constructor
  · by_contra hc
    push Not at hc
    have hs := List.sum_lt_sum (fun _ : K => l.sum / l.length) id (l := l)
      (fun i hi => (hc i hi).le) (by
        obtain ⟨a, ha⟩ := List.exists_mem_of_ne_nil l h
        exact ⟨a, ha, hc a ha⟩)
    simp only [List.map_const', List.sum_replicate, List.map_id, nsmul_eq_mul] at hs
    rw [mul_div_cancel₀ _ hpos.ne'] at hs
    exact lt_irrefl _ hs
  · by_contra hc
    push Not at hc
    have hs := List.sum_lt_sum id (fun _ : K => l.sum / l.length) (l := l)
      (fun i hi => (hc i hi).le) (by
        obtain ⟨a, ha⟩ := List.exists_mem_of_ne_nil l h
        exact ⟨a, ha, hc a ha⟩)
    simp only [List.map_const', List.sum_replicate, List.map_id, nsmul_eq_mul] at hs
    rw [mul_div_cancel₀ _ hpos.ne'] at hs
    exact lt_irrefl _ hs

/-- **C46**: the forecast of a series of real numbers. With `n` samples and `n - forecast_len ≥ k ≥ 1`
there are `k` different starts of windows (never the last window) nearest to the last window; the
forecast has `forecast_len` samples, each the mean of the `k` values of these windows at the same position,
and so between two of them. -/
theorem C46_forecast [IsStrictOrderedRing K] {V : Type} [LinearOrder V]
    (measure : List (Option K) → List (Option K) → V) (argpartition : List V → Nat → List Nat)
    (hpart : ∀ values k, k < values.length → IsArgPartition values k (argpartition values k))
    (series : List K) (k forecastLen : Nat) (hk : 0 < k) (hn : forecastLen + k ≤ series.length) :
    ∃ starts f, predictKnn measure argpartition (series.map some) k forecastLen = .ok f ∧
      AreNearest (fun i => measure ((series.drop (series.length - forecastLen)).map some)
        (((series.drop i).take forecastLen).map some)) (series.length - forecastLen) k starts ∧
      f.length = forecastLen ∧
      ∀ j < forecastLen, ∃ y, f[j]? = some (some y) ∧
        (∃ values, List.Forall₂ (fun i a => series[i + j]? = some a) starts values ∧
          y * (k : K) = values.sum) ∧
        (∃ i ∈ starts, ∃ a, series[i + j]? = some a ∧ a ≤ y) ∧
        (∃ i ∈ starts, ∃ b, series[i + j]? = some b ∧ y ≤ b) := by
  obtain ⟨ws, h1, h2⟩ := C41_windows (series.map some) forecastLen 1 (by omega)
  obtain ⟨ws', h1', h3, _⟩ := C41_count (series.map some) forecastLen 1 (by omega)
  rw [h1] at h1'; cases h1'
  have hl : ws.length = series.length + 1 - forecastLen := by simpa using h3 rfl
  have hw : ∀ i, i + forecastLen ≤ series.length →
      ws[i]? = some (((series.drop i).take forecastLen).map some) := by
    intro i hi
    rw [h2, isSlice_iff]
    refine ⟨by simpa using hi, ?_⟩
    simp
  have hlast : ws.getLast? = some ((series.drop (series.length - forecastLen)).map some) := by
    rw [List.getLast?_eq_getElem?, hl, show series.length + 1 - forecastLen - 1 =
      series.length - forecastLen by omega, hw _ (by omega), List.take_of_length_le]
    simp; omega
  have hdl : ws.dropLast.length = series.length - forecastLen := by
    rw [List.length_dropLast, hl]; omega
  have hdw : ∀ i, i < series.length - forecastLen →
      ws.dropLast[i]? = some (((series.drop i).take forecastLen).map some) := by
    intro i hi
    rw [List.getElem?_dropLast, if_pos (by omega), hw i (by omega)]
  obtain ⟨idx, i1, i2⟩ := C46_nearest measure argpartition hpart
    ((series.drop (series.length - forecastLen)).map some) k ws.dropLast (by
      intro n hn
      obtain ⟨i, hi⟩ := List.mem_iff_getElem?.1 hn
      have := (List.getElem?_eq_some_iff.1 hi).1
      rw [hdw i (by omega)] at hi
      cases hi
      simp; omega) (by omega)
  have hrow : idx.mapM (takeRow ws.dropLast) =
      .ok (idx.map fun i => ((series.drop i).take forecastLen).map some) := by
    apply mapM_ok
    intro i hi
    rw [takeRow, hdw i (by rw [← hdl]; exact i2.lt i hi)]
  have hlt : ∀ i ∈ idx, i < series.length - forecastLen := by
    intro i hi; rw [← hdl]; exact i2.lt i hi
  refine ⟨idx, columnMeans forecastLen (idx.map fun i => ((series.drop i).take forecastLen).map some),
    ?_, ?_, ?_, ?_⟩
  · simp only [predictKnn, h1, hlast, i1, hrow]
  · refine ⟨i2.length, i2.nodup, hlt, ?_⟩
    intro i hi j hj hn
    have := i2.nearest i hi j (by omega) hn
    simpa [List.getD, hdw i (hlt i hi), hdw j hj] using this
  · simp [columnMeans]
  · intro j hj
    have hval : ∀ i, i < series.length - forecastLen → ∃ a, series[i + j]? = some a := by
      intro i hi
      exact ⟨_, List.getElem?_eq_getElem (by omega)⟩
    have hcol : (idx.map fun i => ((series.drop i).take forecastLen).map some).map
        (fun r => (r[j]?).join) = (idx.map fun i => series.getD (i + j) 0).map some := by
      rw [List.map_map, List.map_map]
      apply List.map_congr_left
      intro i hi
      obtain ⟨a, ha⟩ := hval i (hlt i hi)
      simp only [Function.comp]
      rw [List.getElem?_map, List.getElem?_take_of_lt hj, List.getElem?_drop, ha]
      simp [List.getD, ha]
    have hne : (idx.map fun i => series.getD (i + j) 0) ≠ [] := by
      intro hc
      have := congrArg List.length hc
      rw [List.length_map, i2.length, List.length_nil] at this
      omega
    obtain ⟨⟨a, ha, ha'⟩, ⟨b, hb, hb'⟩⟩ := mean_between _ hne
    refine ⟨(idx.map fun i => series.getD (i + j) 0).sum /
      (idx.map fun i => series.getD (i + j) 0).length, ?_, ⟨idx.map fun i => series.getD (i + j) 0, ?_, ?_⟩, ?_, ?_⟩
    · rw [columnMeans, List.getElem?_map, List.getElem?_range hj, Option.map_some, hcol,
        floatMean_some hne]
    · rw [List.forall₂_map_right_iff, List.forall₂_same]
      intro i hi
      obtain ⟨x, hx⟩ := hval i (hlt i hi)
      simp [List.getD, hx]
    · rw [List.length_map, i2.length]
      exact div_mul_cancel₀ _ (Nat.cast_ne_zero.2 (by omega))
    · obtain ⟨i, hi, rfl⟩ := List.mem_map.1 ha
      obtain ⟨x, hx⟩ := hval i (hlt i hi)
      exact ⟨i, hi, x, hx, by simpa [List.getD, hx] using ha'⟩
    · obtain ⟨i, hi, rfl⟩ := List.mem_map.1 hb
      obtain ⟨x, hx⟩ := hval i (hlt i hi)
      exact ⟨i, hi, x, hx, by simpa [List.getD, hx] using hb'⟩

/-- **C46**: a series with fewer than `forecast_len + k` samples has too few windows. -/
theorem C46_forecast_errors {V : Type} (measure : List (Option K) → List (Option K) → V)
    (argpartition : List V → Nat → List Nat) (series : List (Option K)) (k forecastLen : Nat)
    (hn : series.length < forecastLen + k) :
    predictKnn measure argpartition series k forecastLen =
      .error (if series.length < forecastLen then .indexError else .valueError) := by
  obtain ⟨ws, h1, h3, _, h4⟩ := C41_count series forecastLen 1 (by omega)
  have hl : ws.length = series.length + 1 - forecastLen := h3 rfl
  by_cases h : series.length < forecastLen
  · simp [predictKnn, h1, h4 h, h]
  · have hne : ws ≠ [] := by
      intro hc; rw [hc] at hl; simp at hl; omega
    simp only [predictKnn, h1, List.getLast?_eq_some_getLast hne]
    rw [C46_errors _ _ _ _ _ (Or.inl (by rw [List.length_dropLast, hl]; omega)), if_neg h]

/-- Sum of squared differences as distance, selection by insertion sort: of the windows of
1, 5, 2, 4, 9, 2 with two samples the two nearest to the last one (9, 2) are (5, 2) and (2, 4). -/
example : predictKnn (K := ℚ)
    (fun a b => ((a.zip b).map fun p => (p.1.getD 0 - p.2.getD 0) * (p.1.getD 0 - p.2.getD 0)).sum)
    (fun values _ => (List.range values.length).insertionSort
      (fun i j => values.getD i 0 ≤ values.getD j 0))
    [some 1, some 5, some 2, some 4, some 9, some 2] 2 2 = .ok [some (7/2), some 3] := by
  have h : slidingWindow (A := Option ℚ) [some 1, some 5, some 2, some 4, some 9, some 2] 2 1 =
      .ok [[some 1, some 5], [some 5, some 2], [some 2, some 4], [some 4, some 9], [some 9, some 2]] := by
    simp [slidingWindow, rangeStep, pySlice, pyBound]
  simp only [predictKnn, h]
  decide +kernel

/-! ### C47 -/

theorem Stack.OK.intervalSubset {s : Stack K} (hs : s.OK) (ti : TimeInterval) :
    (s.intervalSubset ti).OK := by
  rw [Stack.intervalSubset_eq]
  exact hs.new (Cube.intervalSlice_wf hs.data_wf ti) rfl rfl

/-- Replication: each point has the model of the medoid of its cluster. -/
theorem replicateModels_ok {M : Type} (models : Grid (Option M)) (hm : models.WF) (pt : Partition)
    (hp : pt.Valid) (h0 : pt.pointIndex = 0) (sx : pt.labels.xLen = models.xLen)
    (sy : pt.labels.yLen = models.yLen) (medoids : List Point) (hlen : medoids.length = pt.k)
    (hmed : ∀ i m, medoids[i]? = some m → pt.labels.get m = .ok i) (junk : Option M) :
    ∃ g, replicateModels models pt medoids junk = .ok g ∧ g.WF ∧ g.xLen = models.xLen ∧
      g.yLen = models.yLen ∧ ∀ p l m, pt.labels.get p = .ok l → medoids[l]? = some m →
        g.get p = models.get m := by
  obtain ⟨cs, h1, h2, _⟩ := C14_merge_representatives pt hp h0 models hm sx sy medoids hlen (by
    intro m hmm
    obtain ⟨i, hi⟩ := List.mem_iff_getElem?.1 hmm
    have := (Grid.get_eq_ok_iff _ _ _).1 (hmed i m hi)
    rw [← sx, ← sy]; exact ⟨this.1, this.2.1⟩) junk
  obtain ⟨h, k1, k2, k3, k4, k5⟩ := h2 hmed
  refine ⟨h, by simp only [replicateModels, h1, k1], k2, k3, k4, ?_⟩
  intro p l m hl hml
  have hr := (Grid.get_eq_ok_iff _ _ _).1 hl
  obtain ⟨l', m', v, e1, e2, e3, e4⟩ := k5 p (by rw [← sx]; exact hr.1) (by rw [← sy]; exact hr.2.1)
  rw [hl] at e1; cases e1
  rw [hml] at e2; cases e2
  rw [e4, e3]

/-- **C47**: after the training of a solver, at every point of the domain, with `m` the medoid of the
cluster of the point and `v` the series of `m`: the training model of the point is the result of
training with the parameters and the training part of the series of `m`, the whole model of the point
is the result of refitting with the series of `m`. -/
theorem C47_models_of_medoids {P Q M : Type} (t : Trainer K P M)
    (refitter : Grid (Option M) → Trainer K Q M) (s : Stack K) (hs : s.OK)
    (hall : ∀ p : Point, p.x < s.data.grid.xLen → p.y < s.data.grid.yLen → ∃ v, s.seriesAt p = .ok v)
    (testLen : Nat) (htl : testLen ≤ s.data.tLen)
    (pt : Partition) (hp : pt.Valid) (h0 : pt.pointIndex = 0)
    (sx : pt.labels.xLen = s.data.grid.xLen) (sy : pt.labels.yLen = s.data.grid.yLen)
    (medoids : List Point) (hlen : medoids.length = pt.k)
    (hmed : ∀ i m, medoids[i]? = some m → pt.labels.get m = .ok i)
    (ht : t.params.WF) (tx : t.params.xLen = s.data.grid.xLen) (ty : t.params.yLen = s.data.grid.yLen)
    (htrain : ∀ m ∈ medoids, ∀ q v, t.params.get m = .ok q → s.seriesAt m = .ok v →
      ∃ x, t.train q (v.take (v.length - testLen)) = .ok x)
    (hr : ∀ g : Grid (Option M), g.WF → g.xLen = s.data.grid.xLen → g.yLen = s.data.grid.yLen →
      (refitter g).params.WF ∧ (refitter g).params.xLen = s.data.grid.xLen ∧
      (refitter g).params.yLen = s.data.grid.yLen ∧
      ∀ p q v, (refitter g).params.get p = .ok q → s.seriesAt p = .ok v →
        ∃ x, (refitter g).train q v = .ok x)
    (zero junk : Option M) :
    ∃ atMedoids training whole,
      trainSolver t refitter s testLen pt medoids zero junk = .ok (training, whole) ∧
      (training.WF ∧ training.xLen = s.data.grid.xLen ∧ training.yLen = s.data.grid.yLen) ∧
      (whole.WF ∧ whole.xLen = s.data.grid.xLen ∧ whole.yLen = s.data.grid.yLen) ∧
      atMedoids.WF ∧ atMedoids.xLen = s.data.grid.xLen ∧ atMedoids.yLen = s.data.grid.yLen ∧
      (∀ p : Point, p.x < s.data.grid.xLen → p.y < s.data.grid.yLen → p ∉ medoids →
        atMedoids.get p = .ok none) ∧
      ∀ p : Point, p.x < s.data.grid.xLen → p.y < s.data.grid.yLen →
        ∃ l m v q q', pt.labels.get p = .ok l ∧ medoids[l]? = some m ∧ s.seriesAt m = .ok v ∧
          t.params.get m = .ok q ∧
          training.get p = t.train q (v.take (v.length - testLen)) ∧
          atMedoids.get m = t.train q (v.take (v.length - testLen)) ∧
          (refitter atMedoids).params.get m = .ok q' ∧
          whole.get p = (refitter atMedoids).train q' v := by
  obtain ⟨_, _, hsplit, hsplit', _, _, _⟩ := C45_split s hs testLen htl
  have hsOK : (splitLast s testLen).1.OK := hs.intervalSubset _
  have hx1 : (splitLast s testLen).1.data.grid.xLen = s.data.grid.xLen := by
    simp only [splitLast]; rw [Stack.intervalSubset_eq, Stack.data_new]; rfl
  have hy1 : (splitLast s testLen).1.data.grid.yLen = s.data.grid.yLen := by
    simp only [splitLast]; rw [Stack.intervalSubset_eq, Stack.data_new]; rfl
  have hpart : ∀ p v, s.seriesAt p = .ok v →
      (splitLast s testLen).1.seriesAt p = .ok (v.take (v.length - testLen)) := by
    intro p v hv
    obtain ⟨a, b, ha, hb, hab, hbl⟩ := hsplit p v hv
    rw [ha, ← hab, List.length_append, hbl, Nat.add_sub_cancel, List.take_left']
    rfl
  have hrange : ∀ m ∈ medoids, m.x < s.data.grid.xLen ∧ m.y < s.data.grid.yLen := by
    intro m hm
    obtain ⟨i, hi⟩ := List.mem_iff_getElem?.1 hm
    have := (Grid.get_eq_ok_iff _ _ _).1 (hmed i m hi)
    rw [← sx, ← sy]; exact ⟨this.1, this.2.1⟩
  have hparam : ∀ p : Point, p.x < s.data.grid.xLen → p.y < s.data.grid.yLen →
      ∃ q, t.params.get p = .ok q := fun p h1 h2 =>
    t.params.exists_get ht (by rw [tx]; exact h1) (by rw [ty]; exact h2)
  -- training at the medoids
  obtain ⟨g, items, a1, a2, a3, a4, a5, -, -, -⟩ := trainApply_ok hsOK t.params.xLen t.params.yLen
    (by rw [hx1, tx]) (by rw [hy1, ty]) (t.functionAtRepresentatives medoids) zero (by
      intro p v hv
      by_cases hpm : p ∈ medoids
      · simp only [Trainer.functionAtRepresentatives, if_pos hpm, Trainer.functionAt]
        obtain ⟨h1, h2⟩ := hrange p hpm
        obtain ⟨q, hq⟩ := hparam p h1 h2
        obtain ⟨w, hw⟩ := hall p h1 h2
        have := hpart p w hw
        rw [hv] at this; cases this
        rw [hq]
        exact htrain p hpm q w hq hw
      · exact ⟨none, by simp only [Trainer.functionAtRepresentatives, if_neg hpm]⟩)
  rw [tx] at a3
  rw [ty] at a4
  obtain ⟨gT, b1, b2, b3, b4, b5⟩ := replicateModels_ok g a2 pt hp h0 (by rw [a3, sx]) (by rw [a4, sy])
    medoids hlen hmed junk
  -- refitting
  obtain ⟨r1, r2, r3, r4⟩ := hr g a2 a3 a4
  have hparam' : ∀ p : Point, p.x < s.data.grid.xLen → p.y < s.data.grid.yLen →
      ∃ q, (refitter g).params.get p = .ok q := fun p h1 h2 =>
    (refitter g).params.exists_get r1 (by rw [r2]; exact h1) (by rw [r3]; exact h2)
  obtain ⟨g2, items2, c1, c2, c3, c4, c5, -, -, -⟩ := trainApply_ok hs (refitter g).params.xLen
    (refitter g).params.yLen (by rw [r2]) (by rw [r3]) (refitter g).functionAt zero (by
      intro p v hv
      obtain ⟨h1, h2⟩ := Stack.seriesAt_range hv
      obtain ⟨q, hq⟩ := hparam' p h1 h2
      obtain ⟨x, hx⟩ := r4 p q v hq hv
      exact ⟨x, by simp only [Trainer.functionAt, hq, hx]⟩)
  rw [r2] at c3
  rw [r3] at c4
  obtain ⟨gW, d1, d2, d3, d4, d5⟩ := replicateModels_ok g2 c2 pt hp h0 (by rw [c3, sx]) (by rw [c4, sy])
    medoids hlen hmed junk
  refine ⟨g, gT, gW, ?_, ⟨b2, b3.trans a3, b4.trans a4⟩, ⟨d2, d3.trans c3, d4.trans c4⟩, a2, a3, a4,
    ?_, ?_⟩
  · simp only [trainSolver, Trainer.applyAtRepresentatives, a1, b1, Trainer.applyTo, c1, d1]
  · intro p h1 h2 hpm
    obtain ⟨v, hv⟩ := hall p h1 h2
    rw [a5 p _ (hpart p v hv), Trainer.functionAtRepresentatives, if_neg hpm]
  · intro p h1 h2
    obtain ⟨l, hl⟩ := pt.labels.exists_get hp.wf (p := p) (by rw [sx]; exact h1) (by rw [sy]; exact h2)
    have hlk : l < medoids.length := by rw [hlen]; exact hp.get_lt hl
    have hm := List.getElem?_eq_getElem hlk
    obtain ⟨m1, m2⟩ := hrange _ (List.mem_of_getElem? hm)
    obtain ⟨v, hv⟩ := hall _ m1 m2
    obtain ⟨q, hq⟩ := hparam _ m1 m2
    obtain ⟨q', hq'⟩ := hparam' _ m1 m2
    have hgm : g.get medoids[l] = t.train q (v.take (v.length - testLen)) := by
      rw [a5 _ _ (hpart _ v hv), Trainer.functionAtRepresentatives, if_pos (List.mem_of_getElem? hm),
        Trainer.functionAt, hq]
    refine ⟨l, medoids[l], v, q, q', hl, hm, hv, hq, ?_, hgm, hq', ?_⟩
    · rw [b5 p l _ hl hm, hgm]
    · rw [d5 p l _ hl hm, c5 _ v hv, Trainer.functionAt, hq']

/-- **C47** for trainers with constant parameters that refit with themselves (k-NN, mean of the past,
ARIMA with fixed order). -/
theorem C47_constant_trainer {P M : Type} (params : P)
    (train : P → List (Option K) → Except PyErr (Option M)) (s : Stack K) (hs : s.OK)
    (hall : ∀ p : Point, p.x < s.data.grid.xLen → p.y < s.data.grid.yLen → ∃ v, s.seriesAt p = .ok v)
    (testLen : Nat) (htl : testLen ≤ s.data.tLen)
    (pt : Partition) (hp : pt.Valid) (h0 : pt.pointIndex = 0)
    (sx : pt.labels.xLen = s.data.grid.xLen) (sy : pt.labels.yLen = s.data.grid.yLen)
    (medoids : List Point) (hlen : medoids.length = pt.k)
    (hmed : ∀ i m, medoids[i]? = some m → pt.labels.get m = .ok i)
    (htrain : ∀ v, ∃ x, train params v = .ok x) (zero junk : Option M) :
    ∃ training whole,
      trainSolver (Trainer.constant params s.data.grid.xLen s.data.grid.yLen train)
        (Trainer.constant params s.data.grid.xLen s.data.grid.yLen train).sameRefitter
        s testLen pt medoids zero junk = .ok (training, whole) ∧
      ∀ p : Point, p.x < s.data.grid.xLen → p.y < s.data.grid.yLen →
        ∃ l m v, pt.labels.get p = .ok l ∧ medoids[l]? = some m ∧ s.seriesAt m = .ok v ∧
          training.get p = train params (v.take (v.length - testLen)) ∧
          whole.get p = train params v := by
  have hq : ∀ p q, (Grid.const s.data.grid.xLen s.data.grid.yLen params).get p = .ok q → q = params := by
    intro p q h
    have hr := (Grid.get_eq_ok_iff _ _ _).1 h
    have hc := Grid.get_const (v := params) (p := p) hr.1 hr.2.1
    change (Grid.const s.data.grid.xLen s.data.grid.yLen params).get p = _ at hc
    rw [hc] at h
    cases h; rfl
  obtain ⟨g, gT, gW, h1, -, -, -, -, -, -, h2⟩ := C47_models_of_medoids
    (Trainer.constant params s.data.grid.xLen s.data.grid.yLen train)
    (Trainer.constant params s.data.grid.xLen s.data.grid.yLen train).sameRefitter s hs hall testLen htl
    pt hp h0 sx sy medoids hlen hmed (Grid.const_wf _ _ _) rfl rfl
    (fun m _ q v hq' _ => by rw [hq m q hq']; exact htrain _)
    (fun g _ _ _ => ⟨Grid.const_wf _ _ _, rfl, rfl, fun p q v hq' _ => by
      rw [hq p q hq']; exact htrain _⟩) zero junk
  refine ⟨gT, gW, h1, ?_⟩
  intro p hx hy
  obtain ⟨l, m, v, q, q', e1, e2, e3, e4, e5, e6, e7, e8⟩ := h2 p hx hy
  rw [hq m q e4] at e5
  rw [hq m q' e7] at e8
  exact ⟨l, m, v, e1, e2, e3, e5, e8⟩

/-- A 1 by 3 region with series of 3 samples, two clusters, medoids (0, 1) and (0, 2), mean of the last
2 samples, 1 test sample. -/
example : trainSolver (K := ℚ) (Trainer.constant 2 1 3 meanOfPast) (Trainer.constant 2 1 3 meanOfPast).sameRefitter
    (.plain ⟨3, ⟨1, 3, [[some 9, some 9, some 9], [some 1, some 2, some 4], [some 0, none, some 6]]⟩⟩) 1
    ⟨⟨1, 3, [0, 0, 1]⟩, 2, 0⟩ [⟨0, 1⟩, ⟨0, 2⟩] none none =
    .ok (⟨1, 3, [some (some (3/2)), some (some (3/2)), some none]⟩,
      ⟨1, 3, [some (some 3), some (some 3), some none]⟩) := by decide +kernel

/-- **C47** for auto ARIMA: the whole model of a point is fitted to the series of its medoid with the
order found on the training part of that series (no model if none was found). -/
theorem C47_auto_arima {P O M : Type} (params : P)
    (search : P → List (Option K) → Option M) (order : M → O) (fit : O → List (Option K) → Option M)
    (s : Stack K) (hs : s.OK)
    (hall : ∀ p : Point, p.x < s.data.grid.xLen → p.y < s.data.grid.yLen → ∃ v, s.seriesAt p = .ok v)
    (testLen : Nat) (htl : testLen ≤ s.data.tLen)
    (pt : Partition) (hp : pt.Valid) (h0 : pt.pointIndex = 0)
    (sx : pt.labels.xLen = s.data.grid.xLen) (sy : pt.labels.yLen = s.data.grid.yLen)
    (medoids : List Point) (hlen : medoids.length = pt.k)
    (hmed : ∀ i m, medoids[i]? = some m → pt.labels.get m = .ok i) (zero junk : Option M) :
    ∃ training whole,
      trainSolver (Trainer.constant params s.data.grid.xLen s.data.grid.yLen
          fun q v => .ok (search q v)) (arimaRefitter order fit)
        s testLen pt medoids zero junk = .ok (training, whole) ∧
      ∀ p : Point, p.x < s.data.grid.xLen → p.y < s.data.grid.yLen →
        ∃ l m v, pt.labels.get p = .ok l ∧ medoids[l]? = some m ∧ s.seriesAt m = .ok v ∧
          training.get p = .ok (search params (v.take (v.length - testLen))) ∧
          whole.get p = .ok ((search params (v.take (v.length - testLen))).bind
            fun model => fit (order model) v) := by
  have hq : ∀ p q, (Grid.const s.data.grid.xLen s.data.grid.yLen params).get p = .ok q → q = params := by
    intro p q h
    have hr := (Grid.get_eq_ok_iff _ _ _).1 h
    have hc := Grid.get_const (v := params) (p := p) hr.1 hr.2.1
    change (Grid.const s.data.grid.xLen s.data.grid.yLen params).get p = _ at hc
    rw [hc] at h
    cases h; rfl
  obtain ⟨g, gT, gW, h1, -, -, -, -, -, -, h2⟩ := C47_models_of_medoids
    (Trainer.constant params s.data.grid.xLen s.data.grid.yLen
      fun q v => (.ok (search q v) : Except PyErr (Option M)))
    (arimaRefitter order fit) s hs hall testLen htl
    pt hp h0 sx sy medoids hlen hmed (Grid.const_wf _ _ _) rfl rfl
    (fun m _ q v _ _ => ⟨_, rfl⟩)
    (fun g hg gx gy => ⟨by
        have : g.data.length = g.xLen * g.yLen := hg
        simpa [arimaRefitter, Grid.WF] using this, gx, gy, fun p q v _ _ => by
      cases q <;> exact ⟨_, rfl⟩⟩) zero junk
  refine ⟨gT, gW, h1, ?_⟩
  intro p hx hy
  obtain ⟨l, m, v, q, q', e1, e2, e3, e4, e5, e6, e7, e8⟩ := h2 p hx hy
  have e4' := hq m q e4
  subst e4'
  refine ⟨l, m, v, e1, e2, e3, e5, ?_⟩
  have e9 : (arimaRefitter order fit g : Trainer K (Option O) M).params.get m =
      (g.get m).map fun x => x.map order := Grid.get_map g _ m
  rw [e9, e6] at e7
  simp only [Trainer.constant, Except.map, Except.ok.injEq] at e7
  rw [e8, ← e7]
  cases search q (v.take (v.length - testLen)) <;> rfl

end Spta
