import Verif.Model.ForecastHistory
import Verif.Props.Forecast

/-!
# C68 for all sequences of calls
-/

set_option linter.unusedSectionVars false

namespace Spta

variable {K : Type} [Field K] [LinearOrder K] [IsStrictOrderedRing K]

/-- The call is none of the two that train. -/
def AnalysisCall.Asks {M : Type} : AnalysisCall K M → Prop
  | .train .. => False
  | .analyze .. => False
  | _ => True

section

variable {M : Type} {s : Stack K} {train : Stack K → Except PyErr (Grid (Option M))}
  {forecast : M → Nat → Except PyErr (List (Option K))} {testLen : Nat} {models : Grid (Option M)}
  {errorType : String} {f : ErrorFun K}

theorem forecastAtEach_after {a : Analysis K M} {t : Trained K M} (ht : a.trained = some t) (hm : a.models = some models)
    (junk : Option K) (n : Nat) (type : String) :
    (a.forecastAtEach forecast junk n type).2 = a ∨
      ∃ R, n = t.testLen ∧ forecastEach forecast junk t models n = .ok R ∧
        (a.forecastAtEach forecast junk n type).2 = { a with each := some R } := by
  unfold Analysis.forecastAtEach Analysis.check
  simp only [ht, hm]
  by_cases hn : n = t.testLen
  · simp only [if_pos hn]
    cases hf : forecastEach forecast junk t models n with
    | error e => exact .inl rfl
    | ok R =>
      refine .inr ⟨R, hn, rfl, ?_⟩
      simp only
      cases getErrorFunc (K := K) type with
      | error e => rfl
      | ok f =>
        simp only
        cases measureError f t.test (some t.training) R <;> rfl
  · simp only [if_neg hn]
    exact .inl trivial

theorem reuse_after (a : Analysis K M) (junk : Option K) (n : Nat) (type : String) :
    (a.reuse forecast junk n type).2 = if a.each = none then (a.forecastAtEach forecast junk n type).2 else a := by
  unfold Analysis.reuse
  cases h : a.each with
  | some R => rfl
  | none =>
    simp only [if_true]
    rcases a.forecastAtEach forecast junk n type with ⟨_ | ⟨_, _⟩, _⟩ <;> rfl

theorem withSingleModel_after (a : Analysis K M) (junk : Option K) (p : Point) (n : Nat) (type : String) :
    (a.withSingleModel forecast junk p n type).2 = a ∨
      (a.withSingleModel forecast junk p n type).2 = (a.reuse forecast junk n type).2 := by
  unfold Analysis.withSingleModel
  cases a.check n with
  | error e => exact .inl rfl
  | ok r =>
    right
    simp only
    rcases a.reuse forecast junk n type with ⟨_ | R, _⟩
    · rfl
    · simp only
      cases R.seriesAt p with
      | error e => rfl
      | ok v => cases getErrorFunc (K := K) type <;> rfl

theorem withAllModels_after (root : K → K) (a : Analysis K M) (junk : Option K) (n : Nat) (type : String) :
    (a.withAllModels root forecast junk n type).2 = a ∨
      (a.withAllModels root forecast junk n type).2 = (a.reuse forecast junk n type).2 := by
  unfold Analysis.withAllModels
  cases a.check n with
  | error e => exact .inl rfl
  | ok r =>
    right
    simp only
    rcases a.reuse forecast junk n type with ⟨_ | R, _⟩
    · rfl
    · simp only
      cases getOverallErrorFunc (K := K) type <;> rfl

/-- A call that does not train: the object is as before, or a forecast of the current models was saved; the latter by a
whole-region forecast only if there was none. -/
theorem after_asks (root : K → K) {a : Analysis K M} {t : Trained K M} (ht : a.trained = some t)
    (hm : a.models = some models) {c : AnalysisCall K M} (hc : c.Asks) :
    c.after root forecast a = a ∨
      ∃ junk R, forecastEach forecast junk t models t.testLen = .ok R ∧ c.after root forecast a = { a with each := some R } ∧
        (a.each = none ∨ ∃ type, c = .each junk t.testLen type) := by
  have key : ∀ junk n type, (a.reuse forecast junk n type).2 = a ∨ ∃ R,
      forecastEach forecast junk t models t.testLen = .ok R ∧
        (a.reuse forecast junk n type).2 = { a with each := some R } ∧ a.each = none := by
    intro junk n type
    rw [reuse_after]
    by_cases he : a.each = none
    · rw [if_pos he]
      rcases forecastAtEach_after (forecast := forecast) ht hm junk n type with h | ⟨R, h1, h2, h3⟩
      · exact .inl h
      · subst h1
        exact .inr ⟨R, h2, h3, he⟩
    · rw [if_neg he]
      exact .inl rfl
  match c, hc with
  | .each junk n type, _ =>
    rcases forecastAtEach_after (forecast := forecast) ht hm junk n type with h | ⟨R, h1, h2, h3⟩
    · exact .inl h
    · subst h1
      exact .inr ⟨junk, R, h2, h3, .inr ⟨type, rfl⟩⟩
  | .single junk p n type, _ =>
    rcases withSingleModel_after (forecast := forecast) a junk p n type with h | h
    · exact .inl h
    · rcases key junk n type with k | ⟨R, k1, k2, k3⟩
      · exact .inl (h.trans k)
      · exact .inr ⟨junk, R, k1, h.trans k2, .inl k3⟩
  | .all junk n type, _ =>
    rcases withAllModels_after (forecast := forecast) root a junk n type with h | h
    · exact .inl h
    · rcases key junk n type with k | ⟨R, k1, k2, k3⟩
      · exact .inl (h.trans k)
      · exact .inr ⟨junk, R, k1, h.trans k2, .inl k3⟩

/-- The object after calls that do not train. -/
theorem run_asks (root : K → K) {t : Trained K M} :
    ∀ (calls : List (AnalysisCall K M)) (e : Option (Stack K)), (∀ c ∈ calls, c.Asks) →
      ∃ e', calls.foldl (AnalysisCall.after root forecast) ⟨some t, some models, e⟩ = ⟨some t, some models, e'⟩ ∧
        (e' = e ∨ ∃ junk R, forecastEach forecast junk t models t.testLen = .ok R ∧ e' = some R) ∧
        (e' = e ∨ e = none ∨ ∃ junk type, .each junk t.testLen type ∈ calls)
  | [], e, _ => ⟨e, rfl, .inl rfl, .inl rfl⟩
  | c :: cs, e, h => by
    have hcs : ∀ c ∈ cs, c.Asks := fun c hc => h c (List.mem_cons_of_mem _ hc)
    rcases after_asks root (a := ⟨some t, some models, e⟩) (forecast := forecast) rfl rfl (h c (List.mem_cons_self ..)) with
      h1 | ⟨junk, R, h1, h2, h3⟩
    · obtain ⟨e', k1, k2, k3⟩ := run_asks root cs e hcs
      refine ⟨e', ?_, k2, ?_⟩
      · rw [List.foldl_cons, h1, k1]
      · rcases k3 with k | k | ⟨j, ty, k⟩
        · exact .inl k
        · exact .inr (.inl k)
        · exact .inr (.inr ⟨j, ty, List.mem_cons_of_mem _ k⟩)
    · obtain ⟨e', k1, k2, k3⟩ := run_asks root cs (some R) hcs
      refine ⟨e', ?_, ?_, ?_⟩
      · rw [List.foldl_cons, h2, k1]
      · rcases k2 with k | k
        · exact .inr ⟨junk, R, h1, k⟩
        · exact .inr k
      · rcases h3 with k | ⟨ty, k⟩
        · exact .inr (.inl k)
        · exact .inr (.inr ⟨junk, ty, by rw [k]; exact List.mem_cons_self ..⟩)

/-- The object right after a training that succeeded. -/
theorem trained_state (h : AnalysisInput s train forecast testLen models errorType f) (a : Analysis K M) :
    (a.trainModels train s testLen).2 =
      ⟨some ⟨s, (splitLast s testLen).1, (splitLast s testLen).2, testLen⟩, some models, a.each⟩ := by
  unfold Analysis.trainModels
  simp only [h.train]

/-- The forecast of the models can be made. -/
theorem forecastEach_input (h : AnalysisInput s train forecast testLen models errorType f) (junk : Option K) :
    ∃ R, forecastEach forecast junk ⟨s, (splitLast s testLen).1, (splitLast s testLen).2, testLen⟩ models testLen =
      .ok R := by
  obtain ⟨ct, co, g, ge, e1, e2, hct, hco, htx, hty, hox, hoy, hlt, hlo, hsplit, g1, -⟩ := h.facts junk
  rw [e1, e2]
  exact ⟨_, g1⟩

/-- Trainings alone save no forecast. -/
theorem trainings_each (root : K → K) : ∀ (calls : List (AnalysisCall K M)) (a : Analysis K M),
    (∀ c ∈ calls, ∃ train s n, c = .train train s n) →
      (calls.foldl (AnalysisCall.after root forecast) a).each = a.each
  | [], _, _ => rfl
  | c :: cs, a, h => by
    obtain ⟨tr, s, n, rfl⟩ := h c (List.mem_cons_self ..)
    rw [List.foldl_cons, trainings_each root cs _ fun c hc => h c (List.mem_cons_of_mem _ hc)]
    simp only [AnalysisCall.after, Analysis.trainModels]
    cases tr (splitLast s n).1 <;> rfl

/-- After a call of forecast_at_each_point with the right length, the saved forecast is one of the current models. -/
theorem each_saves (h : AnalysisInput s train forecast testLen models errorType f) (root : K → K)
    (e : Option (Stack K)) {calls : List (AnalysisCall K M)} (hc : ∀ c ∈ calls, c.Asks) {junk : Option K} {type : String}
    (hj : .each junk testLen type ∈ calls) :
    ∃ junk R, forecastEach forecast junk ⟨s, (splitLast s testLen).1, (splitLast s testLen).2, testLen⟩ models testLen =
        .ok R ∧
      calls.foldl (AnalysisCall.after root forecast)
          ⟨some ⟨s, (splitLast s testLen).1, (splitLast s testLen).2, testLen⟩, some models, e⟩ =
        ⟨some ⟨s, (splitLast s testLen).1, (splitLast s testLen).2, testLen⟩, some models, some R⟩ := by
  obtain ⟨l1, l2, rfl⟩ := List.append_of_mem hj
  obtain ⟨e1, k1, -⟩ := run_asks (forecast := forecast) (models := models) root
    (t := ⟨s, (splitLast s testLen).1, (splitLast s testLen).2, testLen⟩) l1 e
    fun c h => hc c (List.mem_append_left _ h)
  obtain ⟨R, hR⟩ := forecastEach_input h junk
  have hone : (AnalysisCall.each junk testLen type : AnalysisCall K M).after root forecast
      ⟨some ⟨s, (splitLast s testLen).1, (splitLast s testLen).2, testLen⟩, some models, e1⟩ =
      ⟨some ⟨s, (splitLast s testLen).1, (splitLast s testLen).2, testLen⟩, some models, some R⟩ := by
    simp only [AnalysisCall.after, Analysis.forecastAtEach, Analysis.check, if_true, hR]
    cases getErrorFunc (K := K) type with
    | error e => rfl
    | ok f =>
      simp only
      cases measureError f (splitLast s testLen).2 (some (splitLast s testLen).1) R <;> rfl
  obtain ⟨e2, k2, k3, -⟩ := run_asks (forecast := forecast) (models := models) root
    (t := ⟨s, (splitLast s testLen).1, (splitLast s testLen).2, testLen⟩) l2 (some R)
    fun c h => hc c (List.mem_append_right _ (List.mem_cons_of_mem _ h))
  rw [List.foldl_append, k1, List.foldl_cons, hone, k2]
  rcases k3 with rfl | ⟨j, R', k3, rfl⟩
  · exact ⟨junk, R, hR, rfl⟩
  · exact ⟨j, R', k3, rfl⟩

/-- **C68**, for all sequences of calls with a last training that succeeds, if only trainings preceded it (failed ones
too), or if forecast_at_each_point was called for the test length after it: whatever else was asked in between, the
errors of a single model, and those of all models, are those of the models trained last.

Not covered: a forecast saved before the last training and not replaced since (`C68_stale`), and a last training that
fails (`C68_failed_training_refuted`); there the claim is false. -/
theorem C68_history_partial (h : AnalysisInput s train forecast testLen models errorType f) {root : K → K}
    (hroot : IsRoot root) {before since : List (AnalysisCall K M)} (hsince : ∀ c ∈ since, c.Asks)
    (hsaved : (∀ c ∈ before, ∃ train s n, c = .train train s n) ∨
      ∃ junk type, AnalysisCall.each junk testLen type ∈ since) (junk : Option K) :
    let a := afterCalls root forecast (before ++ .train train s testLen :: since)
    (∀ p v m raw, s.seriesAt p = .ok v → models.get p = .ok m → RawForecast forecast testLen m raw →
      ∃ errors items, (a.withSingleModel forecast junk p testLen errorType).1 = .ok errors ∧
        errors.items = .ok items ∧ ErrorsOf f s testLen (fun _ => raw) items) ∧
    ∀ predicted, (∀ p v, s.seriesAt p = .ok v → ∃ m, models.get p = .ok m ∧
        RawForecast forecast testLen m (predicted p)) →
      ∃ overall whole, (a.withAllModels root forecast junk testLen errorType).1 = .ok overall ∧
        overall.items = .ok whole ∧ WholeErrors f s testLen predicted whole := by
  intro a
  have ha : a = since.foldl (AnalysisCall.after root forecast)
      ((afterCalls root forecast before).trainModels train s testLen).2 := by
    show afterCalls _ _ _ = _
    unfold afterCalls
    rw [List.foldl_append, List.foldl_cons]
    rfl
  rw [trained_state h] at ha
  have hnew := trained_state h (Analysis.new K M)
  -- the object is one without a saved forecast, or with a forecast of the models
  have cases_a : a = ((Analysis.new K M).trainModels train s testLen).2 ∨
      ∃ j, a = (((Analysis.new K M).trainModels train s testLen).2.forecastAtEach forecast j testLen errorType).2 := by
    have saved : ∀ j R, forecastEach forecast j ⟨s, (splitLast s testLen).1, (splitLast s testLen).2, testLen⟩ models
        testLen = .ok R →
        (((Analysis.new K M).trainModels train s testLen).2.forecastAtEach forecast j testLen errorType).2 =
          ⟨some ⟨s, (splitLast s testLen).1, (splitLast s testLen).2, testLen⟩, some models, some R⟩ := by
      intro j R hR
      rw [hnew]
      simp only [Analysis.forecastAtEach, Analysis.check, if_true, hR, h.func]
      cases measureError f (splitLast s testLen).2 (some (splitLast s testLen).1) R <;> rfl
    rcases hsaved with hb | ⟨j, type, hj⟩
    · have he : (afterCalls root forecast before).each = none := trainings_each root before _ hb
      rw [he] at ha
      obtain ⟨e', k1, k2, -⟩ := run_asks (forecast := forecast) (models := models) root
        (t := ⟨s, (splitLast s testLen).1, (splitLast s testLen).2, testLen⟩) since none hsince
      rw [k1] at ha
      rcases k2 with rfl | ⟨j, R, k2, rfl⟩
      · exact .inl (ha.trans hnew.symm)
      · exact .inr ⟨j, ha.trans (saved j R k2).symm⟩
    · obtain ⟨j, R, k1, k2⟩ := each_saves h root (afterCalls root forecast before).each hsince hj
      exact .inr ⟨j, ha.trans (k2.trans (saved j R k1).symm)⟩
  rcases cases_a with e | ⟨j, e⟩
  · rw [e]
    exact ⟨fun p v m raw hv hm hr => C68_single_model_partial h _ rfl junk p v m raw hv hm hr,
      fun predicted hp => C68_all_models_partial h _ rfl junk hroot predicted hp⟩
  · rw [e]
    refine ⟨fun p v m raw hv hm hr => C66_single_model h _ j junk p v m raw hv hm hr, fun predicted hp => ?_⟩
    have hx := C68_all_models_partial h (Analysis.new K M) rfl j hroot predicted hp
    obtain ⟨c1, c2⟩ := reuse_fresh h (Analysis.new K M) j junk rfl
    obtain ⟨overall, whole, w1, w2⟩ := hx
    refine ⟨overall, whole, ?_, w2⟩
    rw [← w1]
    unfold Analysis.withAllModels
    rw [c1, c2]
    cases (((Analysis.new K M).trainModels train s testLen).2.forecastAtEach forecast j testLen errorType).2.check
      testLen <;> rfl

/-- **C68** (otherwise): if a forecast `R` was saved before the last training, and forecast_at_each_point was not
called for the test length since, then the whole-region errors of a point are those of `R`, whatever the new models
are. -/
theorem C68_stale (h : AnalysisInput s train forecast testLen models errorType f) {root : K → K}
    {before since : List (AnalysisCall K M)} (hsince : ∀ c ∈ since, c.Asks)
    (hnot : ∀ junk type, AnalysisCall.each junk testLen type ∉ since) {R : Stack K}
    (hR : (afterCalls root forecast before).each = some R) (junk : Option K) {p : Point} {raw : List (Option K)}
    (hp : R.seriesAt p = .ok raw) (hraw : raw.length = testLen) :
    ∃ errors items, ((afterCalls root forecast (before ++ .train train s testLen :: since)).withSingleModel forecast junk p
        testLen errorType).1 = .ok errors ∧
      errors.items = .ok items ∧ ErrorsOf f s testLen (fun _ => raw) items := by
  have ha : afterCalls root forecast (before ++ .train train s testLen :: since) =
      since.foldl (AnalysisCall.after root forecast)
        ((afterCalls root forecast before).trainModels train s testLen).2 := by
    unfold afterCalls
    rw [List.foldl_append, List.foldl_cons]
    rfl
  rw [trained_state h, hR] at ha
  obtain ⟨e', k1, -, k3⟩ := run_asks (forecast := forecast) (models := models) root
    (t := ⟨s, (splitLast s testLen).1, (splitLast s testLen).2, testLen⟩) since (some R) hsince
  have he : e' = some R := by
    rcases k3 with k | k | ⟨j, ty, k⟩
    · exact k
    · cases k
    · exact absurd k (hnot j ty)
  rw [ha, k1, he]
  obtain ⟨ct, co, g, ge, e1, e2, hst, hct, hco, htx, hty, hox, hoy, hlt, hlo, hsplit, -⟩ :=
    h.state (Analysis.new K M) junk
  have hm : errorType = "MASE" → ct.tLen ≠ 1 := by intro e; have := h.mase e; omega
  obtain ⟨ge', items, q1, q2, q3⟩ := repeated_ok h.ok h.one ct co hct hco htx hty hox hoy hsplit hlo h.func hm raw hraw
  refine ⟨s.newSpatial ge', items, ?_, q2, q3⟩
  rw [e1, e2]
  unfold Analysis.withSingleModel Analysis.check Analysis.reuse
  simp only [if_true, hp, h.func]
  exact q1

end

/-! ### Examples -/

/-- The hypotheses of C68_history_partial are met: two trainings before, then a rejected request, one for all models
with an unknown error, and a forecast. -/
example (p : Point) (v : List (Option ℚ)) (m : Option ℚ) (raw : List (Option ℚ)) (hv : fcOther.seriesAt p = .ok v)
    (hm : (⟨1, 2, [some 5, some 9]⟩ : Grid (Option ℚ)).get p = .ok m) (hr : RawForecast fcForecast 1 m raw)
    {root : ℚ → ℚ} (hroot : IsRoot root) :
    ∃ errors items, ((afterCalls root fcForecast ([.train (fcTrain ℚ) (fcRegion ℚ) 1, .train (fun _ => .error .valueError)
        fcOther 2] ++ .train fcOtherTrain fcOther 1 :: [.single none ⟨0, 1⟩ 7 "MSE", .all (some 3) 1 "?",
          .each none 1 "MSE"])).withSingleModel fcForecast none p 1 "MSE").1 = .ok errors ∧
      errors.items = .ok items ∧ ErrorsOf mseFun fcOther 1 (fun _ => raw) items :=
  (C68_history_partial fcOther_input hroot (by simp [AnalysisCall.Asks])
    (.inl (by
      intro c hc
      rcases List.mem_cons.1 hc with rfl | hc
      · exact ⟨_, _, _, rfl⟩
      · cases List.mem_singleton.1 hc
        exact ⟨_, _, _, rfl⟩)) none).1 p v m raw hv hm hr

/-- The hypotheses of C68_stale are met: the forecast of the first training is used for the second region; the model of
the first point forecasts 1 there, while the new model forecasts 5. -/
example : ∃ errors items, ((afterCalls id fcForecast ([.train (fcTrain ℚ) (fcRegion ℚ) 1, .each none 1 "MSE"] ++
        .train fcOtherTrain fcOther 1 :: [.all none 1 "MSE"])).withSingleModel fcForecast none ⟨0, 0⟩ 1 "MSE").1 =
      .ok errors ∧ errors.items = .ok items ∧ ErrorsOf mseFun fcOther 1 (fun _ => [some 1]) items := by
  obtain ⟨R, hR⟩ : ∃ R, (afterCalls id fcForecast [.train (fcTrain ℚ) (fcRegion ℚ) 1, .each none 1 "MSE"]).each =
      some R := ⟨_, rfl⟩
  exact C68_stale fcOther_input (by simp [AnalysisCall.Asks]) (by simp) hR none
    (by cases hR; rfl) rfl

end Spta
