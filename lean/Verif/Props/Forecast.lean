import Verif.Lemmas.Forecast
import Verif.Props.Extrema
import Mathlib.Tactic.Positivity
import Mathlib.Analysis.Real.Sqrt
import Mathlib.Tactic.IntervalCases

/-!
# C64 – C68: forecast errors over regions
-/

set_option linter.unusedSectionVars false

namespace Spta

variable {K : Type} [Field K] [LinearOrder K] [IsStrictOrderedRing K]

/-! ### Split regions -/

/-- The two tables of error functions agree. -/
theorem getOverallErrorFunc_eq (errorType : String) :
    getOverallErrorFunc (K := K) errorType = getErrorFunc errorType := by
  unfold getOverallErrorFunc
  split
  · subst_vars; rfl
  split
  · subst_vars; rfl
  split
  · subst_vars; rfl
  · simp only [getErrorFunc, *, if_false]

/-- The two parts of a split as regions with the structure of the original one. -/
theorem splitLast_new {s : Stack K} (hs : s.OK) (n : Nat) (h : n ≤ s.data.tLen) :
    ∃ ct co : Cube (Option K), (splitLast s n).1 = s.new ct ∧ (splitLast s n).2 = s.new co ∧ ct.WF ∧ co.WF ∧
      ct.grid.xLen = s.data.grid.xLen ∧ ct.grid.yLen = s.data.grid.yLen ∧
      co.grid.xLen = s.data.grid.xLen ∧ co.grid.yLen = s.data.grid.yLen ∧
      ct.tLen + n = s.data.tLen ∧ co.tLen = n ∧
      ∀ p v past future, s.seriesAt p = .ok v → v = past ++ future → future.length = n →
        ct.grid.get p = .ok past ∧ co.grid.get p = .ok future := by
  obtain ⟨k1, k2, k3, _⟩ := C45_split s hs n h
  refine ⟨s.data.intervalSlice _, s.data.intervalSlice _, Stack.intervalSubset_eq _ _,
    Stack.intervalSubset_eq _ _, Cube.intervalSlice_wf hs.data_wf _, Cube.intervalSlice_wf hs.data_wf _,
    rfl, rfl, rfl, rfl, ?_, ?_, ?_⟩
  · have := k1
    rwa [show (splitLast s n).1 = s.new _ from Stack.intervalSubset_eq _ _, Stack.data_new] at this
  · have := k2
    rwa [show (splitLast s n).2 = s.new _ from Stack.intervalSubset_eq _ _, Stack.data_new] at this
  · intro p v past future hv e hl
    obtain ⟨a, b, ha, hb, hab, hbl⟩ := k3 p v hv
    have ha' := Stack.seriesAt_data ha
    have hb' := Stack.seriesAt_data hb
    rw [show (splitLast s n).1 = s.new _ from Stack.intervalSubset_eq _ _, Stack.data_new] at ha'
    rw [show (splitLast s n).2 = s.new _ from Stack.intervalSubset_eq _ _, Stack.data_new] at hb'
    obtain ⟨rfl, rfl⟩ := List.append_inj' (hab.trans e) (by rw [hbl, hl])
    exact ⟨ha', hb'⟩

/-! ### C64 -/

/-- The hypotheses of an analysis: the region, the split, the result of the training and the forecasts. -/
structure AnalysisInput {M : Type} (s : Stack K) (train : Stack K → Except PyErr (Grid (Option M)))
    (forecast : M → Nat → Except PyErr (List (Option K))) (testLen : Nat) (models : Grid (Option M))
    (errorType : String) (f : ErrorFun K) : Prop where
  ok : s.OK
  one : s.OneScaling
  fits : testLen ≤ s.data.tLen
  train : train (splitLast s testLen).1 = .ok models
  modelsWF : models.WF
  modelsX : models.xLen = s.data.grid.xLen
  modelsY : models.yLen = s.data.grid.yLen
  forecasts : ∀ p v m, s.seriesAt p = .ok v → models.get p = .ok (some m) →
    ∃ w, forecast m testLen = .ok w ∧ w.length = testLen
  func : getErrorFunc errorType = .ok f
  mase : errorType = "MASE" → s.data.tLen ≠ testLen + 1

section

variable {M : Type} {s : Stack K} {train : Stack K → Except PyErr (Grid (Option M))}
  {forecast : M → Nat → Except PyErr (List (Option K))} {testLen : Nat} {models : Grid (Option M)}
  {errorType : String} {f : ErrorFun K}

theorem AnalysisInput.facts (h : AnalysisInput s train forecast testLen models errorType f)
    (junk : Option K) :
    ∃ (ct co : Cube (Option K)) (g : Grid (List (Option K))) (ge : Grid (ErrorVal K)),
      (splitLast s testLen).1 = s.new ct ∧ (splitLast s testLen).2 = s.new co ∧ ct.WF ∧ co.WF ∧
      ct.grid.xLen = s.data.grid.xLen ∧ ct.grid.yLen = s.data.grid.yLen ∧
      co.grid.xLen = s.data.grid.xLen ∧ co.grid.yLen = s.data.grid.yLen ∧
      ct.tLen + testLen = s.data.tLen ∧ co.tLen = testLen ∧
      (∀ p v past future, s.seriesAt p = .ok v → v = past ++ future → future.length = testLen →
        ct.grid.get p = .ok past ∧ co.grid.get p = .ok future) ∧
      forecastEach forecast junk ⟨s, s.new ct, s.new co, testLen⟩ models testLen =
        .ok (s.new ⟨testLen, g⟩) ∧
      (⟨testLen, g⟩ : Cube (Option K)).WF ∧ g.xLen = s.data.grid.xLen ∧ g.yLen = s.data.grid.yLen ∧
      (∀ p v m raw, s.seriesAt p = .ok v → models.get p = .ok m → RawForecast forecast testLen m raw →
        g.get p = .ok raw) ∧
      measureError f (s.new co) (some (s.new ct)) (s.new ⟨testLen, g⟩) = .ok (s.newSpatial ge) ∧ ge.WF ∧
      ge.xLen = s.data.grid.xLen ∧ ge.yLen = s.data.grid.yLen ∧
      (∀ p v vo vt vf wo wt wf, s.seriesAt p = .ok v → co.grid.get p = .ok vo → ct.grid.get p = .ok vt →
        g.get p = .ok vf → InUnits s p vo wo → InUnits s p vt wt → InUnits s p vf wf →
        ge.get p = f wf wo (some wt)) := by
  obtain ⟨ct, co, e1, e2, hct, hco, htx, hty, hox, hoy, hlt, hlo, hsplit⟩ :=
    splitLast_new h.ok testLen h.fits
  obtain ⟨g, g1, g2, g3, g4, g5⟩ := forecastEach_ok h.ok (tr := s.new ct)
    (te := s.new co) (n := testLen) ct rfl hct htx hty forecast junk models h.modelsWF h.modelsX
    h.modelsY h.forecasts
  obtain ⟨ge, m1, m2, m3, m4, m5⟩ := measureError_ok h.ok h.one f co ct ⟨testLen, g⟩ hco hct g2 hox hoy
    htx hty g3 g4 (by
      intro wf wo wt l1 l2 l3
      refine errorFun_ok h.func (by rw [l1, l2, hlo]) ?_
      intro e; rw [l3]; have := h.mase e; omega)
  exact ⟨ct, co, g, ge, e1, e2, hct, hco, htx, hty, hox, hoy, hlt, hlo, hsplit, g1, g2, g3, g4, g5, m1, m2,
    m3, m4, m5⟩

/-- **C64**: after training with a split that leaves `testLen` samples for the test, the forecast region
holds at each point what the model of this point forecasts (NaN without a model), and the error at the
point is the requested error function applied to forecast, last `testLen` samples and remaining samples of
this point, all three in the original units. The errors are those of the points of the region. -/
theorem C64_forecast_at_each_point (h : AnalysisInput s train forecast testLen models errorType f)
    (a : Analysis K M) (junk : Option K) :
    ∃ region errors, ((a.trainModels train s testLen).2.forecastAtEach forecast junk testLen errorType).1 =
        .ok (region, errors) ∧
      (∀ p v m raw past future wf wo wt, s.seriesAt p = .ok v → models.get p = .ok m →
        RawForecast forecast testLen m raw → v = past ++ future → future.length = testLen →
        InUnits s p raw wf → InUnits s p future wo → InUnits s p past wt →
        region.seriesAt p = .ok raw ∧ errors.valueAt p = f wf wo (some wt)) ∧
      ∃ items, errors.items = .ok items ∧ (items.map Prod.fst).Nodup ∧
        (∀ it ∈ items, errors.valueAt it.1 = .ok it.2) ∧
        ∀ p, p ∈ items.map Prod.fst ↔ ∃ v, s.seriesAt p = .ok v := by
  obtain ⟨ct, co, g, ge, e1, e2, hct, hco, htx, hty, hox, hoy, hlt, hlo, hsplit, g1, g2, g3, g4, g5, m1, m2,
    m3, m4, m5⟩ := h.facts junk
  obtain ⟨items, i1, i2, i3, i4⟩ := items_newSpatial h.ok m2 m3 m4
  refine ⟨s.new ⟨testLen, g⟩, s.newSpatial ge, ?_, ?_, items, i1, i2, ?_, i4⟩
  · unfold Analysis.trainModels Analysis.forecastAtEach Analysis.check
    simp only [h.train, h.func, if_true]
    rw [e1, e2]
    simp only [g1, m1]
  · intro p v m raw past future wf wo wt hv hmod hraw e hl uf uo ut
    have hg := g5 p v m raw hv hmod hraw
    obtain ⟨hp1, hp2⟩ := hsplit p v past future hv e hl
    refine ⟨by rw [Stack.seriesAt_new_eq _ hv]; exact hg, ?_⟩
    rw [Stack.valueAt_newSpatial _ hv]
    exact m5 p v future past raw wo wt wf hv hp2 hp1 hg uo ut uf
  · intro it hit
    obtain ⟨v, hv⟩ := (i4 it.1).1 (List.mem_map.2 ⟨it, hit, rfl⟩)
    rw [Stack.valueAt_newSpatial _ hv]
    exact i3 it hit

end

/-- **C64**, for data without NaN: the error functions are the textbook errors. -/
theorem C64_textbook_error {errorType : String} {f : ErrorFun K} (h : getErrorFunc errorType = .ok f)
    (F O T : List K) (r : K) (hlen : F.length = O.length) (h0 : F ≠ []) (he : ErrorIs errorType F O T r) :
    f (F.map some) (O.map some) (some (T.map some)) = .ok (numVal r) := errorFun_eq h hlen h0 he

theorem numberOf_errorMean (l : List (ErrorVal K)) :
    numberOf (errorMean l) = floatMean (l.map numberOf) := by
  by_cases h0 : l = []
  · subst h0; simp [errorMean, numberOf, floatMean, floatSum, floatDiv]
  by_cases hn : none ∈ l
  · rw [errorMean, if_neg h0, errorSum_none hn, floatMean_none]
    · rfl
    · exact List.mem_map.2 ⟨none, hn, rfl⟩
  by_cases ht : some ⊤ ∈ l
  · rw [errorMean, if_neg h0, errorSum_top hn ht, floatMean_none]
    · rfl
    · exact List.mem_map.2 ⟨some ⊤, ht, rfl⟩
  have : ∃ xs : List K, l = xs.map numVal := by
    clear h0
    induction l with
    | nil => exact ⟨[], rfl⟩
    | cons a l ih =>
      obtain ⟨xs, rfl⟩ := ih (fun h => hn (List.mem_cons_of_mem _ h)) (fun h => ht (List.mem_cons_of_mem _ h))
      match a, hn, ht with
      | none, hn, _ => simp at hn
      | some ⊤, _, ht => simp at ht
      | some (WithTop.some x), _, _ => exact ⟨x :: xs, rfl⟩
  obtain ⟨xs, rfl⟩ := this
  have hx : xs ≠ [] := by rintro rfl; exact h0 rfl
  rw [errorMean_fin hx, List.map_map]
  show some _ = floatMean (xs.map some)
  rw [floatMean_some hx]

theorem numberOf_absDiv (a b : Option K) : numberOf (absDiv a b) = floatAbs (floatDiv a b) := by
  cases a with
  | none => rfl
  | some x =>
    cases b with
    | none => rfl
    | some y =>
      simp only [absDiv, floatDiv]
      by_cases h : y = 0
      · simp only [if_pos h]
        by_cases hx : x = 0
        · rw [if_pos hx]; rfl
        · rw [if_neg hx]; rfl
      · simp only [if_neg h]; rfl

theorem numberOf_percentDiv (a b : Option K) :
    numberOf (percentDiv a b) = liftOp (· * ·) (some 200) (floatDiv a b) := by
  cases a with
  | none => rfl
  | some x =>
    cases b with
    | none => rfl
    | some y =>
      simp only [percentDiv, floatDiv]
      by_cases h : y = 0
      · simp only [if_pos h]
        by_cases hx : x = 0
        · rw [if_pos hx]; rfl
        · rw [if_neg hx]; rfl
      · simp only [if_neg h]; rfl

theorem broadcastOp_length {op op' : Option K → Option K → Option K} {a b l l' : List (Option K)}
    (h : broadcastOp op a b = .ok l) (h' : broadcastOp op' a b = .ok l') : l.length = l'.length := by
  have key : ∀ (op : Option K → Option K → Option K) l, broadcastOp op a b = .ok l →
      l.length = if a.length = 1 then b.length else a.length := by
    intro op l h
    unfold broadcastOp at h
    split at h
    · rename_i e
      cases h
      rw [List.length_zipWith, e, min_self, ite_self]
    · rename_i e
      split at h
      · cases h; simp
      · cases h
        rw [List.length_map, if_neg (by simpa using e)]
      · cases h
  rw [key op l h, key op' l' h']

/-- The error functions agree with those of C43, which do not tell infinities from NaN. -/
theorem C64_error_functions (F O T : List (Option K)) :
    (maseFun F O (some T)).map numberOf = mase F O T ∧
    (smapeFun F O (some T)).map numberOf = smape F O ∧
    (mseFun F O (some T)).map numberOf = mse F O := by
  refine ⟨?_, ?_, ?_⟩
  · unfold maseFun mase
    cases broadcastOp (liftOp (· - ·)) F O with
    | error e => rfl
    | ok et =>
      simp only
      split
      · rfl
      · simp only [Except.map, numberOf_errorMean, List.map_map]
        congr 3
        funext e
        exact numberOf_absDiv _ _
  · unfold smapeFun smape
    cases h1 : broadcastOp (liftOp (· - ·)) F O with
    | error e => rfl
    | ok et =>
      cases h2 : broadcastOp (liftOp (· + ·)) F O with
      | error e => rfl
      | ok total =>
        have hl : (et.map floatAbs).length = total.length := by
          rw [List.length_map]; exact broadcastOp_length h1 h2
        simp only [broadcastOp_eq _ hl, Except.map, numberOf_errorMean, List.map_zipWith]
        congr 3
        funext a b
        exact numberOf_percentDiv _ _
  · unfold mseFun
    cases mse F O with
    | error e => rfl
    | ok v => cases v <;> rfl

/-- MASE needs the training series; the other error functions do not look at it. -/
theorem C64_without_training (F O : List (Option K)) (h : F.length = O.length) (T : Option (List (Option K))) :
    maseFun F O none = .error .typeError ∧ smapeFun F O T = smapeFun F O none ∧ mseFun F O T = mseFun F O none := by
  refine ⟨?_, rfl, rfl⟩
  unfold maseFun
  rw [broadcastOp_eq _ h]

/-! ### C65 -/

theorem errorSquare_isSome (l : List (ErrorVal K)) :
    (l.map errorSquare).filter (·.isSome) = (l.filter (·.isSome)).map errorSquare := by
  induction l with
  | nil => rfl
  | cons a l ih => cases a <;> simp [errorSquare, ih]

theorem errorRms_spec {root : K → K} (hr : IsRoot root) (values : List (ErrorVal K)) :
    RmsOf values (errorRms root values) := by
  have hnone : none ∉ (values.filter (·.isSome)).map errorSquare := by
    intro h
    obtain ⟨a, ha, e⟩ := List.mem_map.1 h
    have := (List.mem_filter.1 ha).2
    cases a with
    | none => simp at this
    | some x => simp [errorSquare] at e
  have hfin : ∀ xs : List K, xs ≠ [] → values.filter (·.isSome) = xs.map numVal →
      errorRms root values = numVal (root ((xs.map fun y => y * y).sum / xs.length)) := by
    intro xs hxs e
    unfold errorRms
    rw [errorSquare_isSome, e, List.map_map]
    have : errorSquare ∘ numVal = numVal ∘ fun y : K => y * y := by funext y; rfl
    rw [this, ← List.map_map, errorMean_fin (by simpa using hxs), List.length_map]
    rfl
  have htop : some ⊤ ∈ values → errorRms root values = some ⊤ := by
    intro h
    have h1 : (some ⊤ : ErrorVal K) ∈ (values.filter (·.isSome)).map errorSquare :=
      List.mem_map.2 ⟨some ⊤, List.mem_filter.2 ⟨h, rfl⟩, rfl⟩
    unfold errorRms
    rw [errorSquare_isSome, errorMean, if_neg (List.ne_nil_of_mem h1), errorSum_top hnone h1]
    rfl
  have hnan : (∀ v ∈ values, v = none) → errorRms root values = none := by
    intro h
    have : values.filter (·.isSome) = [] := by
      rw [List.filter_eq_nil_iff]
      intro a ha; rw [h a ha]; simp
    unfold errorRms
    rw [errorSquare_isSome, this]
    rfl
  have hcase : (∀ v ∈ values, v = none) ∨ some ⊤ ∈ values ∨
      ∃ xs : List K, xs ≠ [] ∧ values.filter (·.isSome) = xs.map numVal := by
    by_cases h1 : some ⊤ ∈ values
    · exact .inr (.inl h1)
    have key : ∀ l : List (ErrorVal K), some ⊤ ∉ l → ∃ xs : List K, l.filter (·.isSome) = xs.map numVal := by
      intro l
      induction l with
      | nil => intro _; exact ⟨[], rfl⟩
      | cons a l ih =>
        intro h
        obtain ⟨xs, e⟩ := ih (fun h' => h (List.mem_cons_of_mem _ h'))
        match a, h with
        | none, _ => exact ⟨xs, by simpa using e⟩
        | some ⊤, h => simp at h
        | some (WithTop.some x), _ => exact ⟨x :: xs, by simp [e, numVal]⟩
    obtain ⟨xs, e⟩ := key values h1
    by_cases h2 : xs = []
    · left
      rw [h2, List.map_nil, List.filter_eq_nil_iff] at e
      intro v hv
      simpa using e v hv
    · exact .inr (.inr ⟨xs, h2, e⟩)
  refine ⟨⟨?_, hnan⟩, ⟨?_, htop⟩, ?_⟩
  · intro e
    rcases hcase with h | h | ⟨xs, h1, h2⟩
    · exact h
    · rw [htop h] at e; cases e
    · rw [hfin xs h1 h2] at e; cases e
  · intro e
    rcases hcase with h | h | ⟨xs, h1, h2⟩
    · rw [hnan h] at e; cases e
    · exact h
    · rw [hfin xs h1 h2] at e; cases e
  · intro xs h1 h2
    refine ⟨_, hfin xs h1 h2, ?_⟩
    have hn : (0 : K) < xs.length := by
      have := List.length_pos_iff.2 h1; exact_mod_cast this
    have hs : 0 ≤ (xs.map fun y => y * y).sum := by
      refine List.sum_nonneg ?_
      intro y hy
      obtain ⟨x, _, rfl⟩ := List.mem_map.1 hy
      exact mul_self_nonneg x
    obtain ⟨k1, k2⟩ := hr _ (div_nonneg hs hn.le)
    refine ⟨k1, ?_⟩
    rw [k2, div_mul_cancel₀ _ hn.ne']

/-- **C65**: the overall error of a region is the root mean square of the errors of its points: NaN are
ignored, the result is NaN exactly if there is nothing else, and infinite exactly if one error is. -/
theorem C65_overall_error {root : K → K} (hr : IsRoot root) (errors : SpStack (ErrorVal K))
    (items : List (Point × ErrorVal K)) (h : errors.items = .ok items) :
    ∃ r, overallError root errors = .ok r ∧ RmsOf (items.map Prod.snd) r :=
  ⟨_, by simp only [overallError, h], errorRms_spec hr _⟩

theorem sum_bounds (xs : List K) (lo hi : K) (h : ∀ y ∈ xs, lo ≤ y ∧ y ≤ hi) :
    lo * xs.length ≤ xs.sum ∧ xs.sum ≤ hi * xs.length := by
  induction xs with
  | nil => simp
  | cons a l ih =>
    have h1 := ih fun y hy => h y (List.mem_cons_of_mem _ hy)
    have h2 := h a (List.mem_cons_self ..)
    rw [List.sum_cons, List.length_cons, Nat.cast_add, Nat.cast_one]
    constructor
    · have : lo * ((l.length : K) + 1) = lo + lo * l.length := by ring
      rw [this]; exact add_le_add h2.1 h1.1
    · have : hi * ((l.length : K) + 1) = hi + hi * l.length := by ring
      rw [this]; exact add_le_add h2.2 h1.2

/-- **C65**: the overall error lies between the smallest and the largest error, if these are not
negative. -/
theorem C65_between {values : List (ErrorVal K)} {r : ErrorVal K} (h : RmsOf values r) (xs : List K)
    (h0 : xs ≠ []) (hx : values.filter (·.isSome) = xs.map numVal) (lo hi : K) (hlo : 0 ≤ lo)
    (hb : ∀ y ∈ xs, lo ≤ y ∧ y ≤ hi) : ∃ x, r = numVal x ∧ lo ≤ x ∧ x ≤ hi := by
  obtain ⟨x, hx, hx0, hxx⟩ := h.finite xs h0 hx
  have hn : (0 : K) < xs.length := by
    have := List.length_pos_iff.2 h0; exact_mod_cast this
  have hhi : 0 ≤ hi := by
    obtain ⟨y, hy⟩ := List.exists_mem_of_ne_nil _ h0
    exact hlo.trans ((hb y hy).1.trans (hb y hy).2)
  obtain ⟨k1, k2⟩ := sum_bounds (xs.map fun y => y * y) (lo * lo) (hi * hi) (by
    intro y hy
    obtain ⟨z, hz, rfl⟩ := List.mem_map.1 hy
    have := hb z hz
    exact ⟨mul_self_le_mul_self hlo this.1, mul_self_le_mul_self (hlo.trans this.1) this.2⟩)
  rw [List.length_map, ← hxx] at k1 k2
  refine ⟨x, hx, ?_, ?_⟩
  · exact (mul_self_le_mul_self_iff hlo hx0).2 (le_of_mul_le_mul_right k1 hn)
  · exact (mul_self_le_mul_self_iff hx0 hhi).2 (le_of_mul_le_mul_right k2 hn)

/-! ### C66 -/

section

variable {M : Type} {s : Stack K} {train : Stack K → Except PyErr (Grid (Option M))}
  {forecast : M → Nat → Except PyErr (List (Option K))} {testLen : Nat} {models : Grid (Option M)}
  {errorType : String} {f : ErrorFun K}

/-- The analysis after training and forecasting at each point. -/
theorem AnalysisInput.state (h : AnalysisInput s train forecast testLen models errorType f)
    (a : Analysis K M) (junk : Option K) :
    ∃ (ct co : Cube (Option K)) (g : Grid (List (Option K))) (ge : Grid (ErrorVal K)),
      (splitLast s testLen).1 = s.new ct ∧ (splitLast s testLen).2 = s.new co ∧
      (a.trainModels train s testLen).2.forecastAtEach forecast junk testLen errorType =
        (.ok (s.new ⟨testLen, g⟩, s.newSpatial ge),
          ⟨some ⟨s, s.new ct, s.new co, testLen⟩, some models, some (s.new ⟨testLen, g⟩)⟩) ∧
      ct.WF ∧ co.WF ∧
      ct.grid.xLen = s.data.grid.xLen ∧ ct.grid.yLen = s.data.grid.yLen ∧
      co.grid.xLen = s.data.grid.xLen ∧ co.grid.yLen = s.data.grid.yLen ∧
      ct.tLen + testLen = s.data.tLen ∧ co.tLen = testLen ∧
      (∀ p v past future, s.seriesAt p = .ok v → v = past ++ future → future.length = testLen →
        ct.grid.get p = .ok past ∧ co.grid.get p = .ok future) ∧
      (⟨testLen, g⟩ : Cube (Option K)).WF ∧ g.xLen = s.data.grid.xLen ∧ g.yLen = s.data.grid.yLen ∧
      (∀ p v m raw, s.seriesAt p = .ok v → models.get p = .ok m → RawForecast forecast testLen m raw →
        g.get p = .ok raw) ∧
      ge.WF ∧ ge.xLen = s.data.grid.xLen ∧ ge.yLen = s.data.grid.yLen ∧
      (∀ p v vo vt vf wo wt wf, s.seriesAt p = .ok v → co.grid.get p = .ok vo → ct.grid.get p = .ok vt →
        g.get p = .ok vf → InUnits s p vo wo → InUnits s p vt wt → InUnits s p vf wf →
        ge.get p = f wf wo (some wt)) := by
  obtain ⟨ct, co, g, ge, e1, e2, hct, hco, htx, hty, hox, hoy, hlt, hlo, hsplit, g1, g2, g3, g4, g5, m1, m2,
    m3, m4, m5⟩ := h.facts junk
  refine ⟨ct, co, g, ge, e1, e2, ?_, hct, hco, htx, hty, hox, hoy, hlt, hlo, hsplit, g2, g3, g4, g5, m2,
    m3, m4, m5⟩
  unfold Analysis.trainModels Analysis.forecastAtEach Analysis.check
  simp only [h.train, h.func, if_true]
  rw [e1, e2]
  simp only [g1, m1]

/-- Errors when the same forecast is used everywhere. -/
theorem repeated_ok (hs : s.OK) (h1 : s.OneScaling) (ct co : Cube (Option K)) (hct : ct.WF) (hco : co.WF)
    (htx : ct.grid.xLen = s.data.grid.xLen) (hty : ct.grid.yLen = s.data.grid.yLen)
    (hox : co.grid.xLen = s.data.grid.xLen) (hoy : co.grid.yLen = s.data.grid.yLen)
    (hsplit : ∀ p v past future, s.seriesAt p = .ok v → v = past ++ future → future.length = testLen →
        ct.grid.get p = .ok past ∧ co.grid.get p = .ok future)
    (hlo : co.tLen = testLen) (hE : getErrorFunc errorType = .ok f)
    (hm : errorType = "MASE" → ct.tLen ≠ 1) (raw : List (Option K)) (hraw : raw.length = testLen) :
    ∃ (ge : Grid (ErrorVal K)) (items : List (Point × ErrorVal K)),
      repeatedForecastError f (s.new co) (some (s.new ct)) raw = .ok (s.newSpatial ge) ∧
      (s.newSpatial ge).items = .ok items ∧ ErrorsOf f s testLen (fun _ => raw) items := by
  have hcf : (⟨raw.length, Grid.const s.data.grid.xLen s.data.grid.yLen raw⟩ : Cube (Option K)).WF := by
    refine ⟨Grid.const_wf _ _ raw, ?_⟩
    intro w hw
    rw [(List.mem_replicate.1 hw).2]
  obtain ⟨ge, m1, m2, m3, m4, m5⟩ := measureError_ok hs h1 f co ct
    ⟨raw.length, Grid.const s.data.grid.xLen s.data.grid.yLen raw⟩ hco hct hcf hox hoy htx hty rfl rfl (by
      intro wf wo wt l1 l2 l3
      refine errorFun_ok hE (by rw [l1, l2, hlo]; exact hraw) ?_
      intro e; rw [l3]; exact hm e)
  obtain ⟨items, i1, i2, i3, i4⟩ := items_newSpatial hs m2 m3 m4
  refine ⟨ge, items, ?_, i1, i2, i4, ?_⟩
  · simp only [repeatedForecastError, Stack.repeatSeries, reshape3_repeat, Stack.data_new, hox, hoy,
      Stack.new_new]
    exact m1
  · intro it hit v past future wf wo wt hv e hl uf uo ut
    obtain ⟨k1, k2⟩ := hsplit it.1 v past future hv e hl
    have hr := Stack.seriesAt_range hv
    rw [← m5 it.1 v future past raw wo wt wf hv k2 k1 (Grid.get_const (v := raw) hr.1 hr.2) uo ut uf]
    exact i3 it hit

theorem overallGeneric_ok (hs : s.OK) (h1 : s.OneScaling) (ct co : Cube (Option K)) (hct : ct.WF) (hco : co.WF)
    (htx : ct.grid.xLen = s.data.grid.xLen) (hty : ct.grid.yLen = s.data.grid.yLen)
    (hox : co.grid.xLen = s.data.grid.xLen) (hoy : co.grid.yLen = s.data.grid.yLen)
    (hsplit : ∀ p v past future, s.seriesAt p = .ok v → v = past ++ future → future.length = testLen →
        ct.grid.get p = .ok past ∧ co.grid.get p = .ok future)
    (hlo : co.tLen = testLen) (hE : getErrorFunc errorType = .ok f)
    (hm : errorType = "MASE" → ct.tLen ≠ 1) {root : K → K} (hroot : IsRoot root)
    (raw : List (Option K)) (hraw : raw.length = testLen) :
    ∃ r, overallErrorGeneric root f (s.new co) (some (s.new ct)) raw = .ok r ∧
      ((∀ x ∈ raw, x = none) → r = none) ∧
      ((∃ x, some x ∈ raw) → ∃ items, ErrorsOf f s testLen (fun _ => raw) items ∧
        RmsOf (items.map Prod.snd) r) := by
  unfold overallErrorGeneric
  by_cases hall : raw.all (·.isNone) = true
  · rw [if_pos hall]
    refine ⟨none, rfl, fun _ => rfl, ?_⟩
    rintro ⟨x, hx⟩
    have := List.all_eq_true.1 hall _ hx
    simp at this
  · rw [if_neg hall]
    obtain ⟨ge, items, k1, k2, k3⟩ := repeated_ok hs h1 ct co hct hco htx hty hox hoy hsplit hlo hE hm raw hraw
    simp only [k1]
    obtain ⟨r, hr, hr'⟩ := C65_overall_error hroot (s.newSpatial ge) items k2
    refine ⟨r, hr, ?_, fun _ => ⟨items, k3, hr'⟩⟩
    intro h
    exact absurd (List.all_eq_true.2 fun x hx => by rw [h x hx]; rfl) hall

/-- **C66**: the error of a model for the whole region: the value at point `p` is NaN if the forecast of
`p` is NaN throughout; otherwise it is the root mean square of the errors over all points of the region,
when the forecast made at `p` (in the representation of the region) is used at every point. -/
theorem C66_overall_with_each_forecast (h : AnalysisInput s train forecast testLen models errorType f)
    (a : Analysis K M) (junk junk' : Option K) {root : K → K} (hroot : IsRoot root) :
    ∃ overall, ((((a.trainModels train s testLen).2.forecastAtEach forecast junk testLen errorType).2).withAllModels
        root forecast junk' testLen errorType).1 = .ok overall ∧
      (∀ p v m raw, s.seriesAt p = .ok v → models.get p = .ok m → RawForecast forecast testLen m raw →
        ∃ r, overall.valueAt p = .ok r ∧ ((∀ x ∈ raw, x = none) → r = none) ∧
          ((∃ x, some x ∈ raw) → ∃ items, ErrorsOf f s testLen (fun _ => raw) items ∧
            RmsOf (items.map Prod.snd) r)) ∧
      ∃ items, overall.items = .ok items ∧ (items.map Prod.fst).Nodup ∧
        (∀ it ∈ items, overall.valueAt it.1 = .ok it.2) ∧
        ∀ p, p ∈ items.map Prod.fst ↔ ∃ v, s.seriesAt p = .ok v := by
  obtain ⟨ct, co, g, ge, e1, e2, hst, hct, hco, htx, hty, hox, hoy, hlt, hlo, hsplit, g2, g3, g4, g5, m2,
    m3, m4, m5⟩ := h.state a junk
  have hm : errorType = "MASE" → ct.tLen ≠ 1 := by intro e; have := h.mase e; omega
  have hgen := fun raw hraw => overallGeneric_ok h.ok h.one ct co hct hco htx hty hox hoy hsplit hlo h.func hm
    hroot raw hraw
  have hfor : ∀ p w, (s.new ⟨testLen, g⟩).seriesAt p = .ok w → w.length = testLen ∧ g.get p = .ok w ∧
      ∃ v, s.seriesAt p = .ok v := by
    intro p w hw
    obtain ⟨k1, k2⟩ := (Stack.seriesAt_new_iff h.ok g3 g4).1 hw
    exact ⟨Cube.get_length g2 k1, k1, k2⟩
  obtain ⟨gr, o1, o2, o3, o4, o5, _⟩ := applyObjects_ok (h.ok.new g2 g3 g4) co.grid.xLen co.grid.yLen
    (by rw [Stack.data_new, hox]; exact g3) (by rw [Stack.data_new, hoy]; exact g4)
    (fun _ series => overallErrorGeneric root f (s.new co) (some (s.new ct)) series) (some 0) (by
      intro p w hw
      obtain ⟨r, hr, _⟩ := hgen w (hfor p w hw).1
      exact ⟨r, hr⟩)
  rw [Stack.newSpatial_new] at o1
  obtain ⟨items, i1, i2, i3, i4⟩ := items_newSpatial h.ok o2 (by rw [o3, hox]) (by rw [o4, hoy])
  refine ⟨s.newSpatial gr, ?_, ?_, items, i1, i2, ?_, i4⟩
  · rw [hst]
    unfold Analysis.withAllModels Analysis.check Analysis.reuse
    simp only [if_true, getOverallErrorFunc_eq, h.func, overallEach, Stack.data_new]
    exact o1
  · intro p v m raw hv hmod hraw
    have hg := g5 p v m raw hv hmod hraw
    have hs' : (s.new ⟨testLen, g⟩).seriesAt p = .ok raw := by
      rw [Stack.seriesAt_new_eq _ hv]; exact hg
    obtain ⟨r, hr, hr1, hr2⟩ := hgen raw (hfor p raw hs').1
    refine ⟨r, ?_, hr1, hr2⟩
    rw [Stack.valueAt_newSpatial _ hv, o5 p raw hs']
    exact hr
  · intro it hit
    obtain ⟨v, hv⟩ := (i4 it.1).1 (List.mem_map.2 ⟨it, hit, rfl⟩)
    rw [Stack.valueAt_newSpatial _ hv]
    exact i3 it hit

/-- **C66** (single model): the errors when the model of one point is used everywhere. -/
theorem C66_single_model (h : AnalysisInput s train forecast testLen models errorType f)
    (a : Analysis K M) (junk junk' : Option K) (p : Point) (v : List (Option K)) (m : Option M)
    (raw : List (Option K)) (hv : s.seriesAt p = .ok v) (hmod : models.get p = .ok m)
    (hraw : RawForecast forecast testLen m raw) :
    ∃ errors items, ((((a.trainModels train s testLen).2.forecastAtEach forecast junk testLen
        errorType).2).withSingleModel forecast junk' p testLen errorType).1 = .ok errors ∧
      errors.items = .ok items ∧ ErrorsOf f s testLen (fun _ => raw) items := by
  obtain ⟨ct, co, g, ge, e1, e2, hst, hct, hco, htx, hty, hox, hoy, hlt, hlo, hsplit, g2, g3, g4, g5, m2,
    m3, m4, m5⟩ := h.state a junk
  have hm : errorType = "MASE" → ct.tLen ≠ 1 := by intro e; have := h.mase e; omega
  have hg := g5 p v m raw hv hmod hraw
  have hs' : (s.new ⟨testLen, g⟩).seriesAt p = .ok raw := by
    rw [Stack.seriesAt_new_eq _ hv]; exact hg
  obtain ⟨ge', items, k1, k2, k3⟩ := repeated_ok h.ok h.one ct co hct hco htx hty hox hoy hsplit hlo h.func hm
    raw (Cube.get_length g2 hg)
  refine ⟨s.newSpatial ge', items, ?_, k2, k3⟩
  rw [hst]
  unfold Analysis.withSingleModel Analysis.check Analysis.reuse
  simp only [if_true, hs', h.func]
  exact k1

end

/-! ### C66, parallel -/

theorem errorTask_ok {g : List (Option K) → Except PyErr (ErrorVal K)} {fc : Stack K} {out : Grid (ErrorVal K)}
    {p : Point} {w : List (Option K)} {r : ErrorVal K} (hw : fc.seriesAt p = .ok w) (hr : g w = .ok r) :
    errorTask g fc out p = out.set p r := by simp only [errorTask, hw, hr]

theorem tasks_ok (g : List (Option K) → Except PyErr (ErrorVal K)) (fc : Stack K)
    (hg : ∀ p w, fc.seriesAt p = .ok w → ∃ r, g w = .ok r) :
    ∀ (order : List Point) (out : Grid (ErrorVal K)), out.WF →
      (∀ p ∈ order, (∃ w, fc.seriesAt p = .ok w) ∧ p.x < out.xLen ∧ p.y < out.yLen) →
      ∃ res, order.foldlM (errorTask g fc) out = .ok res ∧ res.WF ∧ res.xLen = out.xLen ∧
        res.yLen = out.yLen ∧ (∀ p w, p ∈ order → fc.seriesAt p = .ok w → res.get p = g w) ∧
        ∀ p, p ∉ order → res.get p = out.get p := by
  intro order
  induction order with
  | nil => intro out ho _; exact ⟨out, rfl, ho, rfl, rfl, by simp, fun _ _ => rfl⟩
  | cons q rest ih =>
    intro out ho h
    obtain ⟨⟨w, hw⟩, hx, hy⟩ := h q (List.mem_cons_self ..)
    obtain ⟨r, hr⟩ := hg q w hw
    obtain ⟨out', hset, hout'⟩ : ∃ out', out.set q r = .ok out' ∧ out'.WF ∧ out'.xLen = out.xLen ∧
        out'.yLen = out.yLen ∧ out'.get q = .ok r ∧ ∀ p, p ≠ q → out'.get p = out.get p := by
      refine ⟨_, Grid.set_ok out r hx hy, ?_⟩
      obtain ⟨b1, b2, b3, b4⟩ := Grid.get_set out _ ho r (Grid.set_ok out r hx hy) hx hy
      refine ⟨b3, b1, b2, by rw [b4, if_pos rfl], ?_⟩
      intro p hp
      by_cases hr : p.x < out.xLen ∧ p.y < out.yLen
      · obtain ⟨_, _, _, c4⟩ := Grid.get_set out _ ho r (Grid.set_ok out r hx hy) hr.1 hr.2
        rw [c4, if_neg hp]
      · unfold Grid.get
        rw [if_neg hr, if_neg hr]
    obtain ⟨h1, h2, h3, h4, h5⟩ := hout'
    obtain ⟨res, k1, k2, k3, k4, k5, k6⟩ := ih out' h1 (by
      intro p hp
      rw [h2, h3]
      exact h p (List.mem_cons_of_mem _ hp))
    refine ⟨res, ?_, k2, by rw [k3, h2], by rw [k4, h3], ?_, ?_⟩
    · rw [List.foldlM_cons, errorTask_ok hw hr, hset]
      exact k1
    · intro p w' hp hw'
      by_cases hpr : p ∈ rest
      · exact k5 p w' hpr hw'
      · rcases List.mem_cons.1 hp with rfl | hp
        · rw [hw] at hw'; cases hw'
          rw [k6 p hpr, h4, hr]
        · exact absurd hp hpr
    · intro p hp
      rw [k6 p (fun h => hp (List.mem_cons_of_mem _ h)), h5 p (fun h => hp (h ▸ List.mem_cons_self ..))]

/-- **C66** (parallel): whatever the order in which the workers finish the points, the result is that of
the serial computation. -/
theorem C66_parallel_eq_serial (root : K → K) (f : ErrorFun K) (observation : Stack K)
    (training : Option (Stack K)) (fc : Stack K) (hfc : fc.OK)
    (hx : fc.data.grid.xLen = observation.data.grid.xLen) (hy : fc.data.grid.yLen = observation.data.grid.yLen)
    (hg : ∀ p w, fc.seriesAt p = .ok w → ∃ r, overallErrorGeneric root f observation training w = .ok r)
    (items : List (Point × List (Option K))) (hitems : fc.items = .ok items) (order : List Point)
    (hperm : order.Perm (items.map Prod.fst)) :
    ∃ result, overallEach root f observation training fc = .ok result ∧
      overallEachParallel root f observation training fc order = .ok result := by
  obtain ⟨items', i1, i2, i3, i4⟩ := Stack.items_ok hfc
  rw [hitems] at i1; cases i1
  obtain ⟨gs, s1, s2, s3, s4, s5, s6⟩ := applyObjects_ok hfc _ _ hx hy
    (fun _ series => overallErrorGeneric root f observation training series) (some 0) hg
  obtain ⟨gp, p1, p2, p3, p4, p5, p6⟩ := tasks_ok (overallErrorGeneric root f observation training) fc hg order
    (Grid.const fc.data.grid.xLen fc.data.grid.yLen (some 0)) (Grid.const_wf _ _ _) (by
      intro p hp
      obtain ⟨it, hit, rfl⟩ := List.mem_map.1 (hperm.mem_iff.1 hp)
      exact ⟨⟨_, i3 it hit⟩, Stack.seriesAt_range (i3 it hit)⟩)
  refine ⟨fc.newSpatial gs, s1, ?_⟩
  unfold overallEachParallel
  simp only [p1]
  congr 2
  refine Grid.ext_get p2 s2 (by rw [p3, s3]; exact hx) (by rw [p4, s4]; exact hy) ?_
  intro p hpx hpy
  rw [p3] at hpx
  rw [p4] at hpy
  simp only [Grid.const] at hpx hpy
  by_cases hp : p ∈ order
  · obtain ⟨it, hit, rfl⟩ := List.mem_map.1 (hperm.mem_iff.1 hp)
    rw [p5 _ _ hp (i3 it hit), s5 _ _ (i3 it hit)]
  · rw [p6 p hp, Grid.get_const hpx hpy, s6 p (hx ▸ hpx) (hy ▸ hpy)]
    intro v hv
    exact hp (hperm.mem_iff.2 (List.mem_map.2 ⟨_, i4 p v hv, rfl⟩))

theorem tasks_raise (g : List (Option K) → Except PyErr (ErrorVal K)) (fc : Stack K) :
    ∀ (order : List Point) (out : Grid (ErrorVal K)),
      (∀ p ∈ order, (∃ w, fc.seriesAt p = .ok w) ∧ p.x < out.xLen ∧ p.y < out.yLen) →
      (∃ p ∈ order, ∃ w e, fc.seriesAt p = .ok w ∧ g w = .error e) →
      ∃ p ∈ order, ∃ w e, fc.seriesAt p = .ok w ∧ g w = .error e ∧
        order.foldlM (errorTask g fc) out = .error e := by
  intro order
  induction order with
  | nil => rintro out _ ⟨p, hp, _⟩; simp at hp
  | cons q rest ih =>
    intro out h hex
    obtain ⟨⟨w, hw⟩, hx, hy⟩ := h q (List.mem_cons_self ..)
    cases hr : g w with
    | error e =>
      refine ⟨q, List.mem_cons_self .., w, e, hw, hr, ?_⟩
      rw [List.foldlM_cons]
      unfold errorTask
      rw [hw]
      simp only [hr]
      rfl
    | ok r =>
      obtain ⟨p, hp, w', e, h1, h2, h3⟩ := ih { out with data := out.data.set (q.x * out.yLen + q.y) r }
        (fun p hp => h p (List.mem_cons_of_mem _ hp)) (by
          obtain ⟨p, hp, w', e, k1, k2⟩ := hex
          rcases List.mem_cons.1 hp with rfl | hp
          · rw [hw] at k1; cases k1
            rw [hr] at k2; cases k2
          · exact ⟨p, hp, w', e, k1, k2⟩)
      refine ⟨p, List.mem_cons_of_mem _ hp, w', e, h1, h2, ?_⟩
      rw [List.foldlM_cons, errorTask_ok hw hr, Grid.set_ok out r hx hy]
      exact h3

theorem applyWith_raises {α β : Type} (f : Point → α → Except PyErr β) :
    ∀ (items : List (Point × α)) (out : Grid β), (∀ it ∈ items, it.1.x < out.xLen ∧ it.1.y < out.yLen) →
      (∃ it ∈ items, ∃ e, f it.1 it.2 = .error e) →
      ∃ it ∈ items, ∃ e, f it.1 it.2 = .error e ∧ applyWith f items out = .error e := by
  intro items
  induction items with
  | nil => rintro out _ ⟨it, hit, _⟩; simp at hit
  | cons it rest ih =>
    intro out h hex
    obtain ⟨hx, hy⟩ := h it (List.mem_cons_self ..)
    obtain ⟨q, v⟩ := it
    unfold applyWith
    cases hr : f q v with
    | error e => exact ⟨_, List.mem_cons_self .., e, hr, rfl⟩
    | ok r =>
      obtain ⟨it, hit, e, h1, h2⟩ := ih { out with data := out.data.set (q.x * out.yLen + q.y) r }
        (fun p hp => h p (List.mem_cons_of_mem _ hp)) (by
          obtain ⟨it, hit, e, k1⟩ := hex
          rcases List.mem_cons.1 hit with rfl | hit
          · rw [hr] at k1; cases k1
          · exact ⟨it, hit, e, k1⟩)
      refine ⟨it, List.mem_cons_of_mem _ hit, e, h1, ?_⟩
      simp only
      rw [Grid.set_ok (p := q) out r hx hy]
      exact h2

/-- **C66** (exceptions): if the error of some point raises, so do the serial and the parallel computation, whatever the
order in which the workers finish; each raises the exception of one of the points. -/
theorem C66_raises (root : K → K) (f : ErrorFun K) (observation : Stack K)
    (training : Option (Stack K)) (fc : Stack K) (hfc : fc.OK)
    (hx : fc.data.grid.xLen = observation.data.grid.xLen) (hy : fc.data.grid.yLen = observation.data.grid.yLen)
    (items : List (Point × List (Option K))) (hitems : fc.items = .ok items) (order : List Point)
    (hperm : order.Perm (items.map Prod.fst))
    (hraise : ∃ it ∈ items, ∃ e, overallErrorGeneric root f observation training it.2 = .error e) :
    (∃ it ∈ items, ∃ e, overallErrorGeneric root f observation training it.2 = .error e ∧
      overallEach root f observation training fc = .error e) ∧
    ∃ it ∈ items, ∃ e, overallErrorGeneric root f observation training it.2 = .error e ∧
      overallEachParallel root f observation training fc order = .error e := by
  obtain ⟨items', i1, i2, i3, i4⟩ := Stack.items_ok hfc
  rw [hitems] at i1; cases i1
  constructor
  · obtain ⟨it, hit, e, h1, h2⟩ := applyWith_raises
      (fun _ series => overallErrorGeneric root f observation training series) items
      (Grid.const fc.data.grid.xLen fc.data.grid.yLen (some 0))
      (fun it hit => Stack.seriesAt_range (i3 it hit)) hraise
    refine ⟨it, hit, e, h1, ?_⟩
    unfold overallEach Stack.applyObjects
    rw [if_pos ⟨hx, hy⟩, hitems]
    simp only [h2]
  · obtain ⟨p, hp, w, e, h1, h2, h3⟩ := tasks_raise (overallErrorGeneric root f observation training) fc order
      (Grid.const fc.data.grid.xLen fc.data.grid.yLen (some 0)) (by
        intro p hp
        obtain ⟨it, hit, rfl⟩ := List.mem_map.1 (hperm.mem_iff.1 hp)
        exact ⟨⟨_, i3 it hit⟩, Stack.seriesAt_range (i3 it hit)⟩) (by
        obtain ⟨it, hit, e, he⟩ := hraise
        exact ⟨it.1, hperm.mem_iff.2 (List.mem_map.2 ⟨it, hit, rfl⟩), it.2, e, i3 it hit, he⟩)
    refine ⟨(p, w), i4 p w h1, e, h2, ?_⟩
    unfold overallEachParallel
    simp only [h3]

/-! ### C67 -/

theorem mem_split_first {own : List (Point × ErrorVal K)} {pre post pre' post' : List (Point × ErrorVal K)}
    {p p' : Point} {m m' : WithTop K} (h : own = pre ++ (p, some m) :: post)
    (h' : own = pre' ++ (p', some m') :: post')
    (h1 : ∀ it ∈ pre, ∀ v, it.2 = some v → m < v) (h2 : ∀ it ∈ post, ∀ v, it.2 = some v → m ≤ v)
    (h1' : ∀ it ∈ pre', ∀ v, it.2 = some v → m' < v) (h2' : ∀ it ∈ post', ∀ v, it.2 = some v → m' ≤ v) :
    p = p' := by
  rw [h] at h'
  rcases List.append_eq_append_iff.1 h' with ⟨l, e1, e2⟩ | ⟨l, e1, e2⟩
  · cases l with
    | nil => simp only [List.nil_append, List.cons.injEq, Prod.mk.injEq] at e2; exact e2.1.1
    | cons a l =>
      simp only [List.cons_append, List.cons.injEq] at e2
      have k1 := h1' (p, some m) (by rw [e1, e2.1]; simp) m rfl
      have k2 := h2 (p', some m') (by rw [e2.2]; simp) m' rfl
      exact absurd (k1.trans_le k2) (lt_irrefl _)
  · cases l with
    | nil => simp only [List.nil_append, List.cons.injEq, Prod.mk.injEq] at e2; exact e2.1.1.symm
    | cons a l =>
      simp only [List.cons_append, List.cons.injEq] at e2
      have k1 := h1 (p', some m') (by rw [e1, e2.1]; simp) m' rfl
      have k2 := h2' (p, some m) (by rw [e2.2]; simp) m rfl
      exact absurd (k1.trans_le k2) (lt_irrefl _)

theorem gatherErrors_ok {each : ErrorVal K} {errorsEach overall : SpStack (ErrorVal K)}
    {centroid : Option Point} {own whole : List (Point × ErrorVal K)} (ho : errorsEach.items = .ok own)
    (hw : overall.items = .ok whole) (hv : ∀ it ∈ whole, overall.valueAt it.1 = .ok it.2)
    (hp : ∀ p, p ∈ own.map Prod.fst → p ∈ whole.map Prod.fst)
    (hc : ∀ p, centroid = some p → p ∈ whole.map Prod.fst) (hr : RmsOf (own.map Prod.snd) each) :
    ∃ e, gatherErrors each errorsEach overall centroid = .ok e ∧ Reports own whole centroid e := by
  have hval : ∀ p, p ∈ whole.map Prod.fst → ∃ v, overall.valueAt p = .ok v ∧ (p, v) ∈ whole := by
    intro p hp
    obtain ⟨it, hit, rfl⟩ := List.mem_map.1 hp
    exact ⟨it.2, hv it hit, hit⟩
  have hval? : ∀ p : Option Point, (∀ q, p = some q → q ∈ whole.map Prod.fst) →
      ∃ v, overall.valueAtOpt p = .ok v ∧ (p = none → v = none) ∧ ∀ q, p = some q → (q, v) ∈ whole := by
    intro p h
    cases p with
    | none => exact ⟨none, rfl, fun _ => rfl, by simp⟩
    | some q =>
      obtain ⟨v, h1, h2⟩ := hval q (h q rfl)
      exact ⟨v, h1, by simp, by rintro _ ⟨⟩; exact h2⟩
  have hlt : ∀ a b : WithTop K, ¬ a < b → ¬ b < a → a = b :=
    fun a b h1 h2 => le_antisymm (not_lt.1 h2) (not_lt.1 h1)
  obtain ⟨cv, c1, c2, c3⟩ := hval? centroid hc
  have hmin : ∃ q mn, overall.findMin = .ok (q, mn) ∧ (∀ it ∈ whole, ∀ v, it.2 = some v → mn ≤ v) ∧
      (mn = ⊤ ∨ ∃ p, (p, some mn) ∈ whole) := by
    simp only [SpStack.findMin, hw]
    rcases strictBest_spec (V := WithTop K) (· < ·) (fun _ _ _ => lt_trans) hlt whole (none, ⊤) with
      ⟨h1, h2⟩ | ⟨pre, i, m, post, h1, h2, h3, h4, h5⟩
    · rw [h1]
      exact ⟨_, _, rfl, fun it hit v hv => not_lt.1 (h2 it hit v hv), .inl rfl⟩
    · rw [h2]
      refine ⟨_, _, rfl, ?_, .inr ⟨i, by rw [h1]; simp⟩⟩
      intro it hit v hv
      rw [h1] at hit
      rcases List.mem_append.1 hit with hit | hit
      · exact (h4 it hit v hv).le
      · rcases List.mem_cons.1 hit with rfl | hit
        · cases hv; exact le_refl _
        · exact not_lt.1 (h5 it hit v hv)
  have hmax : ∃ q mx, overall.findMax = .ok (q, mx) ∧
      (∀ it ∈ whole, ∀ v, it.2 = some v → WithBot.some v ≤ mx) ∧
      (mx = ⊥ ∨ ∃ p v, (p, some v) ∈ whole ∧ mx = WithBot.some v) := by
    simp only [SpStack.findMax, hw]
    rcases strictBest_spec (V := WithBot (WithTop K)) (· > ·) (fun _ _ _ h h' => lt_trans h' h)
      (fun a b h1 h2 => le_antisymm (not_lt.1 h1) (not_lt.1 h2))
      (whole.map fun it => (it.1, it.2.map WithBot.some)) (none, ⊥) with
      ⟨h1, h2⟩ | ⟨pre, i, m, post, h1, h2, h3, h4, h5⟩
    · rw [h1]
      refine ⟨_, _, rfl, fun it hit v hv => not_lt.1 (h2 _ (List.mem_map.2 ⟨it, hit, rfl⟩) _ ?_), .inl rfl⟩
      simp [hv]
    · rw [h2]
      refine ⟨_, _, rfl, ?_, .inr ?_⟩
      · intro it hit v hv
        have : (it.1, it.2.map WithBot.some) ∈ pre ++ (i, some m) :: post := by
          rw [← h1]; exact List.mem_map.2 ⟨it, hit, rfl⟩
        rw [hv] at this
        rcases List.mem_append.1 this with hit | hit
        · exact (h4 _ hit _ rfl).le
        · rcases List.mem_cons.1 hit with e | hit
          · cases e; exact le_refl _
          · exact not_lt.1 (h5 _ hit _ rfl)
      · have : (i, some m) ∈ whole.map fun it => (it.1, it.2.map WithBot.some) := by rw [h1]; simp
        obtain ⟨it, hit, e⟩ := List.mem_map.1 this
        obtain ⟨q, ov⟩ := it
        cases ov with
        | none => cases e
        | some v => cases e; exact ⟨_, v, hit, rfl⟩
  have hloc : ∃ q mn, errorsEach.findMin = .ok (q, mn) ∧ ((q = none ∧ ∀ it ∈ own, ∀ v, it.2 = some v → v = ⊤) ∨
      ∃ pre i m post, own = pre ++ (i, some m) :: post ∧ q = some i ∧ m < ⊤ ∧
        (∀ it ∈ pre, ∀ v, it.2 = some v → m < v) ∧ (∀ it ∈ post, ∀ v, it.2 = some v → m ≤ v)) := by
    simp only [SpStack.findMin, ho]
    rcases strictBest_spec (V := WithTop K) (· < ·) (fun _ _ _ => lt_trans) hlt own (none, ⊤) with
      ⟨h1, h2⟩ | ⟨pre, i, m, post, h1, h2, h3, h4, h5⟩
    · rw [h1]
      exact ⟨_, _, rfl, .inl ⟨rfl, fun it hit v hv => not_lt_top_iff.1 (h2 it hit v hv)⟩⟩
    · rw [h2]
      exact ⟨_, _, rfl, .inr ⟨pre, i, m, post, h1, rfl, h3, h4, fun it hit v hv => not_lt.1 (h5 it hit v hv)⟩⟩
  obtain ⟨q1, mn, a1, a2, a3⟩ := hmin
  obtain ⟨q2, mx, b1, b2, b3⟩ := hmax
  obtain ⟨q3, ml, d1, d2⟩ := hloc
  obtain ⟨lv, l1, l2, l3⟩ := hval? q3 (by
    rintro q rfl
    rcases d2 with ⟨h, _⟩ | ⟨pre, i, m, post, h1, h2, _⟩
    · cases h
    · cases h2; exact hp q (by rw [h1]; simp))
  refine ⟨⟨each, mn, lv, cv, mx⟩, ?_, hr, a2, a3, b2, b3, ?_, ?_, c2, c3⟩
  · unfold gatherErrors
    simp only [a1, d1, l1, c1, b1]
  · intro pre p m post e hm h1 h2
    apply l3
    rcases d2 with ⟨_, h⟩ | ⟨pre', i, m', post', k1, k2, k3, k4, k5⟩
    · exact absurd (h (p, some m) (by rw [e]; simp) m rfl) hm.ne
    · rw [k2, mem_split_first e k1 h1 h2 k4 k5]
  · intro h
    apply l2
    rcases d2 with ⟨h, _⟩ | ⟨pre', i, m', post', k1, k2, k3, k4, k5⟩
    · exact h
    · exact absurd (h (i, some m') (by rw [k1]; simp) m' rfl) k3.ne

section

variable {M : Type} {s : Stack K} {train : Stack K → Except PyErr (Grid (Option M))}
  {forecast : M → Nat → Except PyErr (List (Option K))} {testLen : Nat} {models : Grid (Option M)}
  {errorType : String} {f : ErrorFun K}

/-- **C67**: whatever was done before with the analysis object, `analyze_errors` reports the combined error of
the models at their own points, and over the errors that each single model makes on the whole region the
least, the greatest, that of the model with the least own error and that of the model at the centroid. -/
theorem C67_analyze_errors (h : AnalysisInput s train forecast testLen models errorType f)
    (a : Analysis K M) (junk : Option K) {root : K → K} (hroot : IsRoot root) (centroid : Option Point)
    (hc : ∀ p, centroid = some p → ∃ v, s.seriesAt p = .ok v) (predicted : Point → List (Option K))
    (hpred : ∀ p v, s.seriesAt p = .ok v → ∃ m, models.get p = .ok m ∧
      RawForecast forecast testLen m (predicted p)) :
    ∃ e own whole, (a.analyze root train forecast junk s centroid errorType testLen).1 = .ok e ∧
      ErrorsOf f s testLen predicted own ∧ WholeErrors f s testLen predicted whole ∧
      Reports own whole centroid e := by
  obtain ⟨region, errors, r1, r2, own, o1, o2, o3, o4⟩ := C64_forecast_at_each_point h a junk
  obtain ⟨overall, w1, w2, whole, w3, w4, w5, w6⟩ := C66_overall_with_each_forecast h a junk junk hroot
  obtain ⟨each, k1, k2⟩ := C65_overall_error hroot errors own o1
  obtain ⟨e, g1, g2⟩ := gatherErrors_ok (each := each) (errorsEach := errors) (overall := overall)
    (centroid := centroid) o1 w3 w5 (fun p hp => (w6 p).2 ((o4 p).1 hp)) (fun p hp => (w6 p).2 (hc p hp)) k2
  refine ⟨e, own, whole, ?_, ⟨o2, o4, ?_⟩, ⟨w4, w6, ?_, ?_⟩, g2⟩
  · have ht : (a.trainModels train s testLen).1 = .ok models := by
      unfold Analysis.trainModels; simp only [h.train]
    have hcv : ∃ x, errors.valueAtOpt centroid = .ok x := by
      cases centroid with
      | none => exact ⟨none, rfl⟩
      | some p =>
        obtain ⟨it, hit, rfl⟩ := List.mem_map.1 ((o4 p).2 (hc p rfl))
        exact ⟨_, o3 it hit⟩
    obtain ⟨x, hx⟩ := hcv
    unfold Analysis.analyze
    rcases hA : a.trainModels train s testLen with ⟨t1, a1⟩
    rw [hA] at ht r1 w1
    simp only at ht r1 w1
    subst ht
    rcases hB : a1.forecastAtEach forecast junk testLen errorType with ⟨t2, a2⟩
    rw [hB] at r1 w1
    simp only at r1 w1
    subst r1
    rcases hC : a2.withAllModels root forecast junk testLen errorType with ⟨t3, a3⟩
    rw [hC] at w1
    simp only at w1
    subst w1
    simp only [hB, k1, hx, hC]
    exact g1
  · intro it hit v past future wf wo wt hv e' hl uf uo ut
    obtain ⟨m, hm, hraw⟩ := hpred it.1 v hv
    rw [← o3 it hit, (r2 it.1 v m _ past future wf wo wt hv hm hraw e' hl uf uo ut).2]
  · intro it hit hn
    obtain ⟨v, hv⟩ := (w6 it.1).1 (List.mem_map.2 ⟨it, hit, rfl⟩)
    obtain ⟨m, hm, hraw⟩ := hpred it.1 v hv
    obtain ⟨r, q1, q2, q3⟩ := w2 it.1 v m _ hv hm hraw
    rw [w5 it hit] at q1; cases q1
    exact q2 hn
  · intro it hit hn
    obtain ⟨v, hv⟩ := (w6 it.1).1 (List.mem_map.2 ⟨it, hit, rfl⟩)
    obtain ⟨m, hm, hraw⟩ := hpred it.1 v hv
    obtain ⟨r, q1, q2, q3⟩ := w2 it.1 v m _ hv hm hraw
    rw [w5 it hit] at q1; cases q1
    exact q3 hn

end

/-- **C67**: the reported errors of single models lie between the minimum and the maximum. -/
theorem C67_bounds {own whole : List (Point × ErrorVal K)} {centroid : Option Point} {e : ForecastErrors K}
    (h : Reports own whole centroid e) :
    (∀ v, e.minLocal = some v → e.minimum ≤ v ∧ WithBot.some v ≤ e.maximum) ∧
      (∀ v, e.centroid = some v → e.minimum ≤ v ∧ WithBot.some v ≤ e.maximum) := by
  have key : ∀ p v, (p, some v) ∈ whole → e.minimum ≤ v ∧ WithBot.some v ≤ e.maximum :=
    fun p v hm => ⟨h.min_le _ hm v rfl, h.le_max _ hm v rfl⟩
  constructor
  · intro v hv
    rcases strictBest_spec (V := WithTop K) (· < ·) (fun _ _ _ => lt_trans)
      (fun a b h1 h2 => le_antisymm (not_lt.1 h2) (not_lt.1 h1)) own (none, ⊤) with
      ⟨_, h2⟩ | ⟨pre, i, m, post, h1, _, h3, h4, h5⟩
    · rw [h.min_local_none fun it hit v hv => not_lt_top_iff.1 (h2 it hit v hv)] at hv
      cases hv
    · have := h.min_local pre i m post h1 h3 h4 fun it hit v hv => not_lt.1 (h5 it hit v hv)
      rw [hv] at this
      exact key _ _ this
  · intro v hv
    cases hc : centroid with
    | none => rw [h.centroid_none hc] at hv; cases hv
    | some p =>
      have := h.centroid_some p hc
      rw [hv] at this
      exact key _ _ this

/-! ### C68 -/

section

variable {M : Type} {s : Stack K} {train : Stack K → Except PyErr (Grid (Option M))}
  {forecast : M → Nat → Except PyErr (List (Option K))} {testLen : Nat} {models : Grid (Option M)}
  {errorType : String} {f : ErrorFun K}

/-- What a fresh analysis object answers after training is the same whether or not the forecast at each
point was requested before. -/
theorem reuse_fresh (h : AnalysisInput s train forecast testLen models errorType f)
    (a : Analysis K M) (junk junk' : Option K) (ha : a.each = none) :
    let a1 := (a.trainModels train s testLen).2
    let a2 := (a1.forecastAtEach forecast junk testLen errorType).2
    a1.check testLen = a2.check testLen ∧
      (a1.reuse forecast junk testLen errorType) = (a2.reuse forecast junk' testLen errorType) := by
  intro a1 a2
  obtain ⟨ct, co, g, ge, e1, e2, hst, _⟩ := h.state a junk
  have ha1 : a1 = ⟨some ⟨s, s.new ct, s.new co, testLen⟩, some models, none⟩ := by
    show (a.trainModels train s testLen).2 = _
    unfold Analysis.trainModels
    simp only [e1, e2, ha]
    rw [← e1]; simp only [h.train]
  have ha2 : a2 = ⟨some ⟨s, s.new ct, s.new co, testLen⟩, some models, some (s.new ⟨testLen, g⟩)⟩ := by
    show (Analysis.forecastAtEach _ _ _ _ _).2 = _
    rw [hst]
  refine ⟨by rw [ha1, ha2]; rfl, ?_⟩
  have hst' : a1.forecastAtEach forecast junk testLen errorType = (.ok (s.new ⟨testLen, g⟩, s.newSpatial ge), a2) := by
    rw [ha2]; exact hst
  unfold Analysis.reuse
  rw [hst']
  have h1 : a1.each = none := by rw [ha1]
  have h2 : a2.each = some (s.new ⟨testLen, g⟩) := by rw [ha2]
  rw [h1, h2]

/-- **C68**, for the first training of an analysis object (no forecast saved before): the errors of a single
model on the whole region are those of the model trained last, even if the forecast at each point was not
requested. -/
theorem C68_single_model_partial (h : AnalysisInput s train forecast testLen models errorType f)
    (a : Analysis K M) (ha : a.each = none) (junk : Option K) (p : Point) (v : List (Option K))
    (m : Option M) (raw : List (Option K)) (hv : s.seriesAt p = .ok v) (hmod : models.get p = .ok m)
    (hraw : RawForecast forecast testLen m raw) :
    ∃ errors items, ((a.trainModels train s testLen).2.withSingleModel forecast junk p testLen errorType).1 =
        .ok errors ∧ errors.items = .ok items ∧ ErrorsOf f s testLen (fun _ => raw) items := by
  obtain ⟨errors, items, k1, k2⟩ := C66_single_model h a junk junk p v m raw hv hmod hraw
  obtain ⟨c1, c2⟩ := reuse_fresh h a junk junk ha
  refine ⟨errors, items, ?_, k2⟩
  rw [← k1]
  unfold Analysis.withSingleModel
  rw [c1, c2]
  cases ((a.trainModels train s testLen).2.forecastAtEach forecast junk testLen errorType).2.check testLen <;> rfl

/-- **C68**, for the first training of an analysis object: the same for the errors of all models. -/
theorem C68_all_models_partial (h : AnalysisInput s train forecast testLen models errorType f)
    (a : Analysis K M) (ha : a.each = none) (junk : Option K) {root : K → K} (hroot : IsRoot root)
    (predicted : Point → List (Option K))
    (hpred : ∀ p v, s.seriesAt p = .ok v → ∃ m, models.get p = .ok m ∧
      RawForecast forecast testLen m (predicted p)) :
    ∃ overall whole, ((a.trainModels train s testLen).2.withAllModels root forecast junk testLen errorType).1 =
        .ok overall ∧ overall.items = .ok whole ∧ WholeErrors f s testLen predicted whole := by
  obtain ⟨overall, w1, w2, whole, w3, w4, w5, w6⟩ := C66_overall_with_each_forecast h a junk junk hroot
  obtain ⟨c1, c2⟩ := reuse_fresh h a junk junk ha
  refine ⟨overall, whole, ?_, w3, w4, w6, ?_, ?_⟩
  · rw [← w1]
    unfold Analysis.withAllModels
    rw [c1, c2]
    cases ((a.trainModels train s testLen).2.forecastAtEach forecast junk testLen errorType).2.check testLen <;> rfl
  · intro it hit hn
    obtain ⟨v, hv⟩ := (w6 it.1).1 (List.mem_map.2 ⟨it, hit, rfl⟩)
    obtain ⟨m, hm, hraw⟩ := hpred it.1 v hv
    obtain ⟨r, q1, q2, q3⟩ := w2 it.1 v m _ hv hm hraw
    rw [w5 it hit] at q1; cases q1
    exact q2 hn
  · intro it hit hn
    obtain ⟨v, hv⟩ := (w6 it.1).1 (List.mem_map.2 ⟨it, hit, rfl⟩)
    obtain ⟨m, hm, hraw⟩ := hpred it.1 v hv
    obtain ⟨r, q1, q2, q3⟩ := w2 it.1 v m _ hv hm hraw
    rw [w5 it hit] at q1; cases q1
    exact q3 hn

/-- **C68**: before any training there is no forecast, and a forecast length other than the test length
is rejected; in both cases the object is unchanged. -/
theorem C68_rejected (a : Analysis K M) (junk : Option K) (p : Point) (n : Nat) (root : K → K)
    (h : a.trained = none ∨ ∃ t, a.trained = some t ∧ t.testLen ≠ n) :
    ∃ e, (a.forecastAtEach forecast junk n errorType) = (.error e, a) ∧
      (a.withSingleModel forecast junk p n errorType) = (.error e, a) ∧
      (a.withAllModels root forecast junk n errorType) = (.error e, a) := by
  have : ∃ e, a.check n = .error e := by
    unfold Analysis.check
    rcases h with h | ⟨t, h, ht⟩
    · rw [h]; exact ⟨_, rfl⟩
    · rw [h]; simp only [if_neg (Ne.symm ht)]; exact ⟨_, rfl⟩
  obtain ⟨e, he⟩ := this
  refine ⟨e, ?_, ?_, ?_⟩
  · unfold Analysis.forecastAtEach; rw [he]
  · unfold Analysis.withSingleModel; rw [he]
  · unfold Analysis.withAllModels; rw [he]

/-- **C68** (failed training): if the first training of an analysis object fails, all requests are rejected, with
ValueError for the length of the test series and AssertionError for other lengths. -/
theorem C68_failed_training (a : Analysis K M) (ha : a.models = none) (e : PyErr)
    (ht : train (splitLast s testLen).1 = .error e) (junk : Option K) (p : Point) (n : Nat) (root : K → K) :
    let a1 := (a.trainModels train s testLen).2
    let e1 := if n = testLen then PyErr.valueError else PyErr.assertionError
    (a.trainModels train s testLen).1 = .error e ∧ a1.forecastAtEach forecast junk n errorType = (.error e1, a1) ∧
      a1.withSingleModel forecast junk p n errorType = (.error e1, a1) ∧
      a1.withAllModels root forecast junk n errorType = (.error e1, a1) := by
  have h1 : a.trainModels train s testLen =
      (.error e, { a with trained := some ⟨s, (splitLast s testLen).1, (splitLast s testLen).2, testLen⟩ }) := by
    unfold Analysis.trainModels
    simp only [ht]
  simp only [h1]
  have h2 : ({ a with trained := some ⟨s, (splitLast s testLen).1, (splitLast s testLen).2, testLen⟩ } :
      Analysis K M).check n = .error (if n = testLen then PyErr.valueError else PyErr.assertionError) := by
    unfold Analysis.check
    simp only [ha]
    split <;> rfl
  refine ⟨trivial, ?_, ?_, ?_⟩
  · unfold Analysis.forecastAtEach; rw [h2]
  · unfold Analysis.withSingleModel; rw [h2]
  · unfold Analysis.withAllModels; rw [h2]

end

/-! ### Concrete instances -/

section Examples

/-- A scaled region with two points and three samples, the scaling of each point being different. -/
def fcRegion (K : Type) [Field K] : Stack K :=
  .scaled (.plain ⟨3, ⟨1, 2, [[some 0, some 1, some (1/2)], [some (1/2), some 0, some 1]]⟩⟩)
    (.plain ⟨1, 2, [some 10, some 0]⟩) (.plain ⟨1, 2, [some 20, some 4]⟩)

/-- Models are numbers, a model forecasts its number; here for the first point only. -/
def fcTrain (K : Type) [Field K] : Stack K → Except PyErr (Grid (Option K)) := fun _ => .ok ⟨1, 2, [some 1, none]⟩

def fcForecast {K : Type} : K → Nat → Except PyErr (List (Option K)) := fun m n => .ok (List.replicate n (some m))

/-- For another region of the same shape, not scaled. -/
def fcOther : Stack ℚ := .plain ⟨2, ⟨1, 2, [[some 3, some 5], [some 7, some 8]]⟩⟩

def fcOtherTrain : Stack ℚ → Except PyErr (Grid (Option ℚ)) := fun _ => .ok ⟨1, 2, [some 5, some 9]⟩

theorem fcRegion_input : AnalysisInput (fcRegion K) (fcTrain K) fcForecast 1 ⟨1, 2, [some 1, none]⟩ "MSE" mseFun where
  ok := by
    refine ⟨⟨rfl, by simp⟩, ⟨rfl, rfl⟩, ?_⟩
    intro p v hv
    have hr := (Grid.get_eq_ok_iff _ _ _).1 (Stack.seriesAt_data hv)
    exact ⟨Grid.exists_get ⟨1, 2, [some 10, some 0]⟩ rfl hr.1 hr.2.1,
      Grid.exists_get ⟨1, 2, [some 20, some 4]⟩ rfl hr.1 hr.2.1⟩
  one := rfl
  fits := (by decide : 1 ≤ 3)
  train := rfl
  modelsWF := rfl
  modelsX := rfl
  modelsY := rfl
  forecasts := fun p v m _ _ => ⟨_, rfl, by simp⟩
  func := rfl
  mase := fun h => absurd h (by decide)

theorem fcOther_input : AnalysisInput fcOther fcOtherTrain fcForecast 1 ⟨1, 2, [some 5, some 9]⟩ "MSE" mseFun where
  ok := ⟨rfl, by decide⟩
  one := trivial
  fits := by decide
  train := rfl
  modelsWF := rfl
  modelsX := rfl
  modelsY := rfl
  forecasts := fun p v m _ _ => ⟨_, rfl, by simp⟩
  func := rfl
  mase := by decide

/-- C64: the model of the first point forecasts 1, in the original units 20 instead of 15. -/
example : ((((Analysis.new ℚ ℚ).trainModels (fcTrain ℚ) (fcRegion ℚ) 1).2.forecastAtEach fcForecast (some 7) 1
    "MSE").1.toOption.map fun r => r.2.items.toOption) =
    some (some [(⟨0, 0⟩, numVal 25), (⟨0, 1⟩, none)]) := by decide +kernel

/-- C66: the forecast of the first point used everywhere. -/
example : ((((Analysis.new ℚ ℚ).trainModels (fcTrain ℚ) (fcRegion ℚ) 1).2.withSingleModel fcForecast (some 7) ⟨0, 0⟩ 1
    "MSE").1.toOption.map fun r => r.items.toOption) =
    some (some [(⟨0, 0⟩, numVal 25), (⟨0, 1⟩, numVal 0)]) := by decide +kernel

/-- C66: MASE without training data raises for the first point (the forecast of the second one is NaN), in both
computations. -/
example : (overallEach id maseFun fcOther none (.plain ⟨2, ⟨1, 2, [[some 3, some 5], [none, none]]⟩⟩)).isOk = false ∧
    (overallEachParallel id maseFun fcOther none (.plain ⟨2, ⟨1, 2, [[some 3, some 5], [none, none]]⟩⟩)
      [⟨0, 1⟩, ⟨0, 0⟩]).isOk = false := by decide +kernel

/-- C65: NaN is ignored. -/
example : RmsOf (K := ℚ) [numVal 1, none, numVal 7] (numVal 5) where
  nan := by simp [numVal]
  infinite := by simp [numVal]
  finite := by
    intro xs _ h
    have h' : [numVal 1, numVal 7] = xs.map numVal := h
    match xs, h' with
    | [x, y], h' =>
      simp only [List.map_cons, List.map_nil, List.cons.injEq, numVal, Option.some.injEq, WithTop.coe_inj,
        and_true] at h'
      obtain ⟨rfl, rfl⟩ := h'
      exact ⟨5, rfl, by norm_num, by norm_num⟩

theorem isRoot_sqrt : IsRoot Real.sqrt := fun x hx => ⟨Real.sqrt_nonneg x, Real.mul_self_sqrt hx⟩

/-- C67: the hypotheses are met by the scaled region, with or without a centroid. -/
example (c : Option Point) (hc : c = none ∨ c = some ⟨0, 1⟩) :
    ∃ e own whole, ((Analysis.new ℝ ℝ).analyze Real.sqrt (fcTrain ℝ) fcForecast none (fcRegion ℝ) c "MSE" 1).1 = .ok e ∧
      ErrorsOf mseFun (fcRegion ℝ) 1 (fun p => if p = ⟨0, 0⟩ then [some 1] else [none]) own ∧
      WholeErrors mseFun (fcRegion ℝ) 1 (fun p => if p = ⟨0, 0⟩ then [some 1] else [none]) whole ∧
      Reports own whole c e := by
  refine C67_analyze_errors fcRegion_input _ none isRoot_sqrt c ?_ _ ?_
  · rintro p rfl
    rcases hc with h | h
    · cases h
    · cases h; exact ⟨_, rfl⟩
  · intro p v hv
    obtain ⟨hx, hy, _⟩ := (Grid.get_eq_ok_iff _ _ _).1 (Stack.seriesAt_data hv)
    obtain ⟨x, y⟩ := p
    have hx' : x < 1 := hx
    have hy' : y < 2 := hy
    interval_cases x
    interval_cases y
    · exact ⟨some 1, rfl, .model rfl⟩
    · exact ⟨none, rfl, .missing⟩

/-- **C68** is false after a failed training: the second training fails, and the forecasts of the models of the first
one, for another region, are compared with the series of the second region. -/
theorem C68_failed_training_refuted :
    let a1 := ((Analysis.new ℚ ℚ).trainModels (fcTrain ℚ) (fcRegion ℚ) 1).2
    let a2 := (a1.trainModels (fun _ => .error .valueError) fcOther 1)
    a2.1 = .error .valueError ∧
      ((a2.2.forecastAtEach fcForecast none 1 "MSE").1.toOption.map fun r => r.2.items.toOption) =
        some (some [(⟨0, 0⟩, numVal 16), (⟨0, 1⟩, none)]) := by
  refine ⟨by decide +kernel, by decide +kernel⟩

/-- C68 is false of the code: after training a second region with the same object, the errors of a
single model are those of the forecast for the first region. -/
theorem C68_retrained_refuted :
    ∃ (a : Analysis ℚ ℚ) (errors : SpStack (ErrorVal ℚ)) (items : List (Point × ErrorVal ℚ)),
      a = (((Analysis.new ℚ ℚ).trainModels (fcTrain ℚ) (fcRegion ℚ) 1).2.forecastAtEach fcForecast none 1 "MSE").2 ∧
      ((a.trainModels fcOtherTrain fcOther 1).2.withSingleModel fcForecast none ⟨0, 0⟩ 1 "MSE").1 = .ok errors ∧
      errors.items = .ok items ∧ items = [(⟨0, 0⟩, numVal 16), (⟨0, 1⟩, numVal 49)] ∧
      ¬ ErrorsOf mseFun fcOther 1 (fun _ => [some 5]) items := by
  have hc : (((((((Analysis.new ℚ ℚ).trainModels (fcTrain ℚ) (fcRegion ℚ) 1).2.forecastAtEach fcForecast none 1
      "MSE").2).trainModels fcOtherTrain fcOther 1).2.withSingleModel fcForecast none ⟨0, 0⟩ 1
      "MSE").1.toOption.map fun r => r.items.toOption) =
      some (some [(⟨0, 0⟩, numVal 16), (⟨0, 1⟩, numVal 49)]) := by decide +kernel
  revert hc
  generalize hX : ((((((Analysis.new ℚ ℚ).trainModels (fcTrain ℚ) (fcRegion ℚ) 1).2.forecastAtEach fcForecast none 1
      "MSE").2).trainModels fcOtherTrain fcOther 1).2.withSingleModel fcForecast none ⟨0, 0⟩ 1
      "MSE").1 = X
  intro hc
  cases X with
  | error e => cases hc
  | ok errors =>
    refine ⟨_, errors, _, rfl, hX, ?_, rfl, ?_⟩
    · simp only [Except.toOption, Option.map_some, Option.some.injEq] at hc
      cases hi : errors.items with
      | error e => rw [hi] at hc; cases hc
      | ok items => rw [hi] at hc; cases hc; rfl
    · intro h
      have := h.value (⟨0, 0⟩, numVal 16) (by simp) [some 3, some 5] [some 3] [some 5] [some 5] [some 5] [some 3]
        rfl rfl rfl (.plain _ _ _) (.plain _ _ _) (.plain _ _ _)
      revert this
      decide +kernel

end Examples

/-- **C64** (other lengths): if a model gives a single value instead of n samples, the value is repeated; any other
number of samples is a ValueError. -/
theorem C64_other_lengths {M : Type} (forecast : M → Nat → Except PyErr (List (Option K))) (n : Nat)
    (models : Grid (Option M)) (p : Point) {m : M} {w : List (Option K)} (hm : models.get p = .ok (some m))
    (hf : forecast m n = .ok w) (hw : w.length ≠ n) :
    (∀ v, w = [v] → forecastAt forecast n models p = .ok (List.replicate n v)) ∧
    (w.length ≠ 1 → forecastAt forecast n models p = .error .valueError) := by
  constructor
  · rintro v rfl
    simp only [forecastAt, hm, forecastOf, hf, assignSeries, if_neg hw]
  · intro h
    simp only [forecastAt, hm, forecastOf, hf, assignSeries, if_neg hw]
    match w, h with
    | [], _ => rfl
    | _ :: _ :: _, _ => rfl

example : forecastAt (K := ℚ) (fun (m : ℚ) _ => .ok [some m]) 3 ⟨1, 1, [some 5]⟩ ⟨0, 0⟩ =
      .ok [some 5, some 5, some 5] ∧
    forecastAt (K := ℚ) (fun (m : ℚ) _ => .ok [some m, none]) 3 ⟨1, 1, [some 5]⟩ ⟨0, 0⟩ = .error .valueError :=
  ⟨by decide +kernel, by decide +kernel⟩

end Spta
