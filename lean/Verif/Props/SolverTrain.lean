import Verif.Model.SolverTrain
import Verif.Spec.SolverTrain
import Verif.Props.Query

/-!
# C90, C91: from the data to the answers of a solver
-/

set_option linter.unusedSectionVars false

namespace Spta

variable {K : Type} [Field K] [LinearOrder K] [IsStrictOrderedRing K]

/-- Forecasts over a domain that has a series at every point. -/
theorem applyModelsOver_ok {M : Type} {s : Stack K} (hs : s.OK)
    (hall : ∀ p : Point, p.x < s.data.grid.xLen → p.y < s.data.grid.yLen → ∃ v, s.seriesAt p = .ok v)
    (forecast : M → Nat → Except PyErr (List (Option K))) (models : Grid (Option M)) (n : Nat)
    (hm : models.WF) (hmx : models.xLen = s.data.grid.xLen) (hmy : models.yLen = s.data.grid.yLen)
    (hf : ∀ p m, models.get p = .ok (some m) → ∃ w, forecast m n = .ok w ∧ w.length = n) :
    ∃ g : Grid (List (Option K)), applyModelsOver forecast models n s = .ok (s.new ⟨n, g⟩) ∧
      (⟨n, g⟩ : Cube (Option K)).WF ∧ g.xLen = s.data.grid.xLen ∧ g.yLen = s.data.grid.yLen ∧
      ∀ p m raw, models.get p = .ok m → RawForecast forecast n m raw → g.get p = .ok raw := by
  obtain ⟨items, i1, i2, i3, i4⟩ := Stack.items_ok hs
  have hat : ∀ p : Point, p.x < s.data.grid.xLen → p.y < s.data.grid.yLen →
      ∃ m raw, models.get p = .ok m ∧ RawForecast forecast n m raw := by
    intro p hx hy
    obtain ⟨m, hmod⟩ := models.exists_get hm (p := p) (by omega) (by omega)
    cases m with
    | none => exact ⟨_, _, hmod, .missing⟩
    | some m =>
      obtain ⟨w, hw, _⟩ := hf p _ hmod
      exact ⟨_, _, hmod, .model hw⟩
  have hfa : ∀ p m raw, models.get p = .ok m → RawForecast forecast n m raw →
      forecastAt forecast n models p = .ok raw ∧ raw.length = n := by
    intro p m raw hmod hraw
    cases hraw with
    | missing => simp [forecastAt, hmod, forecastOf, assignSeries]
    | model h =>
      obtain ⟨w, hw, hl⟩ := hf p _ hmod
      rw [h] at hw; cases hw
      simp [forecastAt, hmod, forecastOf, h, assignSeries, hl]
  obtain ⟨g, g1, g2, g3, g4, g5, g6⟩ := applyWith_ok
    (fun p (_ : List (Option K)) => forecastAt forecast n models p) items
    (Grid.const s.data.grid.xLen s.data.grid.yLen (List.replicate n (some 0))) (Grid.const_wf _ _ _) i2
    (fun it hit => Stack.seriesAt_range (i3 it hit))
    (fun it hit => by
      obtain ⟨hx, hy⟩ := Stack.seriesAt_range (i3 it hit)
      obtain ⟨m, raw, h1, h2⟩ := hat _ hx hy
      exact ⟨raw, (hfa _ _ _ h1 h2).1⟩)
  have hgx : g.xLen = s.data.grid.xLen := g2
  have hgy : g.yLen = s.data.grid.yLen := g3
  have hget : ∀ p m raw, models.get p = .ok m → RawForecast forecast n m raw → g.get p = .ok raw := by
    intro p m raw h1 h2
    have hr := (Grid.get_eq_ok_iff _ _ _).1 h1
    obtain ⟨v, hv⟩ := hall p (by omega) (by omega)
    rw [g5 (p, v) (i4 p v hv)]
    exact (hfa p m raw h1 h2).1
  refine ⟨g, ?_, Cube.wf_of_get g4 ?_, hgx, hgy, hget⟩
  · unfold applyModelsOver
    rw [if_pos ⟨hmx.symm, hmy.symm⟩]
    simp only [i1, g1]
  · intro p w hw
    have hr := (Grid.get_eq_ok_iff _ _ _).1 (show g.get p = .ok w from hw)
    obtain ⟨m, raw, h1, h2⟩ := hat p (by rw [← hgx]; exact hr.1) (by rw [← hgy]; exact hr.2.1)
    have := hget p m raw h1 h2
    rw [show g.get p = .ok w from hw] at this
    rw [Except.ok.inj this]
    exact (hfa p m raw h1 h2).2

/-- The generalization errors of a region of models. -/
theorem calculateErrors_ok {M : Type} {s : Stack K} {b : Bool} (hs : CreatedRegion b s)
    (forecast : M → Nat → Except PyErr (List (Option K))) (models : Grid (Option M)) (testLen : Nat)
    (htl : testLen ≤ s.data.tLen) (hm : models.WF) (hmx : models.xLen = s.data.grid.xLen)
    (hmy : models.yLen = s.data.grid.yLen)
    (hf : ∀ p m, models.get p = .ok (some m) → ∃ w, forecast m testLen = .ok w ∧ w.length = testLen)
    {errorType : String} {f : ErrorFun K} (hfunc : getErrorFunc errorType = .ok f)
    (hmase : errorType = "MASE" → s.data.tLen ≠ testLen + 1) :
    ∃ ge : Grid (ErrorVal K), calculateErrors forecast errorType models (splitLast s testLen).1
        (splitLast s testLen).2 = .ok (.plain ge) ∧ ge.WF ∧ ge.xLen = s.data.grid.xLen ∧
      ge.yLen = s.data.grid.yLen ∧
      ∀ p past future m raw wf wo wt, s.seriesAt p = .ok (past ++ future) → future.length = testLen →
        models.get p = .ok m → RawForecast forecast testLen m raw → InUnits s p raw wf →
        InUnits s p future wo → InUnits s p past wt → ge.get p = f wf wo (some wt) := by
  obtain ⟨hok, hone, -⟩ := hs.ok
  obtain ⟨ct, co, e1, e2, hct, hco, htx, hty, hox, hoy, hlt, hlo, hsplit⟩ := splitLast_new hok testLen htl
  have hall : ∀ p : Point, p.x < (s.new co).data.grid.xLen → p.y < (s.new co).data.grid.yLen →
      ∃ v, (s.new co).seriesAt p = .ok v := by
    intro p hx hy
    rw [Stack.data_new] at hx hy
    obtain ⟨v, hv⟩ := co.grid.exists_get hco.1 hx hy
    obtain ⟨u, hu⟩ := s.data.grid.exists_get hok.data_wf.1 (p := p) (by omega) (by omega)
    exact ⟨v, (Stack.seriesAt_new_iff hok hox hoy).2 ⟨hv, u, by rw [hs.seriesAt, hu]⟩⟩
  obtain ⟨g, g1, g2, g3, g4, g5⟩ := applyModelsOver_ok (hok.new hco hox hoy) hall forecast models testLen hm
    (by rw [Stack.data_new, hmx, hox]) (by rw [Stack.data_new, hmy, hoy]) hf
  rw [Stack.data_new] at g3 g4
  rw [Stack.new_new] at g1
  obtain ⟨ge, m1, m2, m3, m4, m5⟩ := measureError_ok hok hone f co ct ⟨testLen, g⟩ hco hct g2 hox hoy
    htx hty (by rw [← hox]; exact g3) (by rw [← hoy]; exact g4) (by
      intro wf wo wt l1 l2 l3
      refine errorFun_ok hfunc (by rw [l1, l2, hlo]) ?_
      intro e; rw [l3]; have := hmase e; omega)
  have hplain : s.newSpatial ge = .plain ge := by
    cases hs <;> rfl
  refine ⟨ge, ?_, m2, m3, m4, ?_⟩
  · rw [e1, e2]
    unfold calculateErrors
    rw [Stack.data_new, hlo]
    simp only [g1, hfunc, m1, hplain]
  · intro p past future m raw wf wo wt hv hl hmod hraw uf uo ut
    obtain ⟨k1, k2⟩ := hsplit p _ past future hv rfl hl
    exact m5 p _ future past raw wo wt wf hv k2 k1 (g5 p m raw hmod hraw) uo ut uf

/-- If the error of all series raises the same exception, so does the error of the region. -/
theorem measureError_raises {s : Stack K} (hs : s.OK) (h1 : s.OneScaling) (f : ErrorFun K)
    (co ct cf : Cube (Option K)) (ho : co.WF) (ht : ct.WF) (hf : cf.WF)
    (hox : co.grid.xLen = s.data.grid.xLen) (hoy : co.grid.yLen = s.data.grid.yLen)
    (htx : ct.grid.xLen = s.data.grid.xLen) (hty : ct.grid.yLen = s.data.grid.yLen)
    (hfx : cf.grid.xLen = s.data.grid.xLen) (hfy : cf.grid.yLen = s.data.grid.yLen) {e : PyErr}
    (herr : ∀ wf wo wt, wf.length = cf.tLen → wo.length = co.tLen → wt.length = ct.tLen →
      f wf wo (some wt) = .error e) {p : Point} {v : List (Option K)} (hp : s.seriesAt p = .ok v) :
    measureError f (s.new co) (some (s.new ct)) (s.new cf) = .error e := by
  obtain ⟨dO, a1, a2, a3, a4, a5, a6, a7, a8⟩ := toUnits_ok (hs.new ho hox hoy) ((s.oneScaling_new co).2 h1)
  obtain ⟨dT, b1, b2, b3, b4, b5, b6, b7, b8⟩ := toUnits_ok (hs.new ht htx hty) ((s.oneScaling_new ct).2 h1)
  obtain ⟨dF, c1, c2, c3, c4, c5, c6, c7, c8⟩ := toUnits_ok (hs.new hf hfx hfy) ((s.oneScaling_new cf).2 h1)
  have hprep : prepareRegions (s.new co) (some (s.new ct)) = .ok (dO, some dT) := by
    unfold prepareRegions
    by_cases h : s.hasScaling = true
    · rw [Stack.hasScaling_new, if_pos h] at a1 b1
      simp only [Stack.hasScaling_new, h, a1, b1, if_true]
    · rw [Stack.hasScaling_new, if_neg h] at a1 b1
      rw [Stack.hasScaling_new, if_neg h]
      cases a1; cases b1; rfl
  rw [Stack.data_new] at c4 c5
  have hall : ∀ p w, dF.seriesAt p = .ok w → errorAt f dO (some dT) p w = .error e := by
    intro p w hw
    obtain ⟨vf, hvf, hu⟩ := c8 p w hw
    obtain ⟨hcf, v, hv⟩ := (Stack.seriesAt_new_iff hs hfx hfy).1 hvf
    have hr := Stack.seriesAt_range hv
    obtain ⟨vo, hvo⟩ := co.grid.exists_get ho.1 (p := p) (by rw [hox]; exact hr.1) (by rw [hoy]; exact hr.2)
    obtain ⟨vt, hvt⟩ := ct.grid.exists_get ht.1 (p := p) (by rw [htx]; exact hr.1) (by rw [hty]; exact hr.2)
    obtain ⟨wo, ko, ko'⟩ := a7 p vo ((Stack.seriesAt_new_iff hs hox hoy).2 ⟨hvo, v, hv⟩)
    obtain ⟨wt, kt, kt'⟩ := b7 p vt ((Stack.seriesAt_new_iff hs htx hty).2 ⟨hvt, v, hv⟩)
    simp only [errorAt, optSeriesAt, ko, kt]
    exact herr w wo wt (by rw [hu.length]; exact Cube.get_length hf hcf)
      (by rw [ko'.length]; exact Cube.get_length ho hvo) (by rw [kt'.length]; exact Cube.get_length ht hvt)
  obtain ⟨items, i1, i2, i3, i4⟩ := Stack.items_ok c2
  have hr := Stack.seriesAt_range hp
  obtain ⟨vf, hvf⟩ := cf.grid.exists_get hf.1 (p := p) (by rw [hfx]; exact hr.1) (by rw [hfy]; exact hr.2)
  obtain ⟨w, hw, -⟩ := c7 p vf ((Stack.seriesAt_new_iff hs hfx hfy).2 ⟨hvf, v, hp⟩)
  obtain ⟨it, hit, e', k1, k2⟩ := applyWith_raises (errorAt f dO (some dT)) items
    (Grid.const dF.data.grid.xLen dF.data.grid.yLen (some 0))
    (fun it hit => Stack.seriesAt_range (i3 it hit)) ⟨(p, w), i4 p w hw, e, hall p w hw⟩
  rw [hall _ _ (i3 it hit)] at k1
  cases k1
  unfold measureError
  simp only [hprep, c1, Stack.data_new]
  unfold Stack.applyObjects
  rw [if_pos ⟨by rw [c4, hfx, hox], by rw [c5, hfy, hoy]⟩]
  simp only [i1, k2]

/-- MASE with one training sample divides by zero. -/
theorem calculateErrors_mase {M : Type} {s : Stack K} {b : Bool} (hs : CreatedRegion b s)
    (forecast : M → Nat → Except PyErr (List (Option K))) (models : Grid (Option M)) (testLen : Nat)
    (htl : s.data.tLen = testLen + 1) (hm : models.WF) (hmx : models.xLen = s.data.grid.xLen)
    (hmy : models.yLen = s.data.grid.yLen) (hx : 0 < s.data.grid.xLen) (hy : 0 < s.data.grid.yLen)
    (hf : ∀ p m, models.get p = .ok (some m) → ∃ w, forecast m testLen = .ok w ∧ w.length = testLen) :
    calculateErrors forecast "MASE" models (splitLast s testLen).1 (splitLast s testLen).2 =
      .error .zeroDivisionError := by
  obtain ⟨hok, hone, -⟩ := hs.ok
  obtain ⟨ct, co, e1, e2, hct, hco, htx, hty, hox, hoy, hlt, hlo, hsplit⟩ := splitLast_new hok testLen (by omega)
  have hall : ∀ p : Point, p.x < (s.new co).data.grid.xLen → p.y < (s.new co).data.grid.yLen →
      ∃ v, (s.new co).seriesAt p = .ok v := by
    intro p hx hy
    rw [Stack.data_new] at hx hy
    obtain ⟨v, hv⟩ := co.grid.exists_get hco.1 hx hy
    obtain ⟨u, hu⟩ := s.data.grid.exists_get hok.data_wf.1 (p := p) (by omega) (by omega)
    exact ⟨v, (Stack.seriesAt_new_iff hok hox hoy).2 ⟨hv, u, by rw [hs.seriesAt, hu]⟩⟩
  obtain ⟨g, g1, g2, g3, g4, g5⟩ := applyModelsOver_ok (hok.new hco hox hoy) hall forecast models testLen hm
    (by rw [Stack.data_new, hmx, hox]) (by rw [Stack.data_new, hmy, hoy]) hf
  rw [Stack.data_new] at g3 g4
  rw [Stack.new_new] at g1
  obtain ⟨u, hu⟩ := s.data.grid.exists_get hok.data_wf.1 (p := ⟨0, 0⟩) hx hy
  have hraise := measureError_raises hok hone maseFun co ct ⟨testLen, g⟩ hco hct g2 hox hoy
    htx hty (by rw [← hox]; exact g3) (by rw [← hoy]; exact g4) (e := .zeroDivisionError) (by
      intro wf wo wt l1 l2 l3
      have hl : wf.length = wo.length := by rw [l1, l2, hlo]
      simp only [maseFun, broadcastOp_eq _ hl]
      rw [if_pos (by omega)]) (p := ⟨0, 0⟩) (v := u) (by rw [hs.seriesAt, hu])
  rw [e1, e2]
  unfold calculateErrors
  rw [Stack.data_new, hlo]
  simp only [g1, getErrorFunc, if_true, hraise]

theorem trainCompleteSolver_eq {P Q M : Type} {t : Trainer K P M} {refitter : Grid (Option M) → Trainer K Q M}
    {forecast : M → Nat → Except PyErr (List (Option K))} {errorType : String} {scaled : Bool}
    {s : Stack K} {testLen : Nat} {pt : Partition} {medoids : List Point} {zero junk : Option M}
    {training whole : Grid (Option M)} {errors : SpStack (ErrorVal K)}
    (h1 : trainSolver t refitter s testLen pt medoids zero junk = .ok (training, whole))
    (h2 : calculateErrors forecast errorType training (splitLast s testLen).1 (splitLast s testLen).2 =
      .ok errors) :
    trainCompleteSolver t refitter forecast errorType scaled s testLen pt medoids zero junk =
      .ok ⟨training, whole, errors, testLen, scaled, s⟩ := by
  unfold trainSolver at h1
  unfold trainCompleteSolver
  cases a1 : t.applyAtRepresentatives medoids zero (splitLast s testLen).1 with
  | error e => simp [a1] at h1
  | ok atMedoids =>
    simp only [a1] at h1 ⊢
    cases a2 : replicateModels atMedoids.1 pt medoids junk with
    | error e => simp [a2] at h1
    | ok tr =>
      simp only [a2] at h1 ⊢
      cases a3 : (refitter atMedoids.1).applyTo zero s with
      | error e => simp [a3] at h1
      | ok refitted =>
        simp only [a3] at h1 ⊢
        cases a4 : replicateModels refitted.1 pt medoids junk with
        | error e => simp [a4] at h1
        | ok wh =>
          simp only [a4, Except.ok.injEq, Prod.mk.injEq] at h1
          obtain ⟨rfl, rfl⟩ := h1
          simp only [h2]

/-- The rows of a query of a solver for a region as `create_instance()` gives it, with the series in the
original units. -/
theorem rows_created {M : Type} (sv : Solver K M) (ge : Grid (ErrorVal K)) (h : sv.OK sv.spt.data ge)
    (hc : CreatedRegion sv.scaled sv.spt)
    (forecast : M → Nat → Except PyErr (List (Option K))) (r : Region) (fl : Int)
    (hf : ∀ p m, (sv.queryModels fl).get p = .ok (some m) →
      ∃ w, forecast m (sv.queryLen fl) = .ok w ∧ w.length = sv.queryLen fl)
    (hx : r.x2 ≤ sv.spt.data.grid.xLen) (hy : r.y2 ≤ sv.spt.data.grid.yLen) (mdRegion : Region)
    (pt : Partition) (hw : pt.labels.WF) (hpx : pt.labels.xLen = sv.spt.data.grid.xLen)
    (hpy : pt.labels.yLen = sv.spt.data.grid.yLen) (ms : Option (List Point)) (cl : ClusterMeta) :
    ∃ res rows, sv.queryResult forecast mdRegion pt ms cl r fl = .ok res ∧ res.rows = .ok rows ∧
      res.header = ["Point", "cluster_index", "error", "forecast_series"] ++
        (if 0 < fl then [] else ["test_series"]) ∧
      rows.length = (r.x2 - r.x1) * (r.y2 - r.y1) ∧
      ∀ p : Point, r.Has p →
        ∃ l e model raw shown test, pt.labels.get p = .ok l ∧ ge.get p = .ok e ∧
          (sv.queryModels fl).get p = .ok model ∧ RawForecast forecast (sv.queryLen fl) model raw ∧
          InUnits sv.spt p raw shown ∧
          (¬ 0 < fl → ∃ past future, sv.spt.seriesAt p = .ok (past ++ future) ∧
            future.length = sv.testLen ∧ InUnits sv.spt p future test) ∧
          rows[(p.x - r.x1) * (r.y2 - r.y1) + (p.y - r.y1)]? =
            some ([.coords ⟨p.x + mdRegion.x1, p.y + mdRegion.y1⟩, .index l, .errorValue e, .series shown] ++
              if 0 < fl then [] else [.series test]) := by
  obtain ⟨training, whole, errors, testLen, scaled, spt⟩ := sv
  have hraw : ∀ (n : Nat) (model : Option M) f, (model = none → f = List.replicate n none) →
      (∀ m, model = some m → forecast m n = .ok f) → RawForecast forecast n model f := by
    intro n model f h1 h2
    cases model with
    | none => rw [h1 rfl]; exact .missing
    | some m => exact .model (h2 m rfl)
  change CreatedRegion scaled spt at hc
  cases hc with
  | @plain c hcw =>
    obtain ⟨res, rows, a1, a2, a3, a4, a5⟩ := C88_rows_plain ⟨training, whole, errors, testLen, false, .plain c⟩ c ge
      { h with scaled := rfl, spt := rfl } forecast r fl hf hx hy mdRegion pt hw hpx hpy ms cl
    refine ⟨res, rows, a1, a2, a3, a4, fun p hp => ?_⟩
    obtain ⟨l, e, model, f, test, b1, b2, b3, b4, b5, b6, b7⟩ := a5 p hp.1 hp.2.1 hp.2.2.1 hp.2.2.2
    refine ⟨l, e, model, f, f, test, b1, b2, b3, hraw _ _ _ b4 b5, .plain _ _ _, fun h0 => ?_, b7⟩
    obtain ⟨v, v1, v2, past, rfl⟩ := b6 h0
    exact ⟨past, test, v1, v2, .plain _ _ _⟩
  | @scaled c gmin gmax hcw h1 h2 e1 e2 e3 e4 =>
    obtain ⟨res, rows, a1, a2, a3, a4, a5⟩ := C88_rows_scaled
      ⟨training, whole, errors, testLen, true, .scaled (.plain c) (.plain gmin) (.plain gmax)⟩ c ge gmin gmax
      { h with scaled := rfl, spt := rfl, minWF := ⟨h1, e1, e2⟩, maxWF := ⟨h2, e3, e4⟩ } forecast r fl hf hx hy
      mdRegion pt hw hpx hpy ms cl
    refine ⟨res, rows, a1, a2, a3, a4, fun p hp => ?_⟩
    obtain ⟨l, e, model, f, lo, hi, out, test, b1, b2, b3, b4, b5, b6, b7, b8, b9, b10⟩ :=
      a5 p hp.1 hp.2.1 hp.2.2.1 hp.2.2.2
    refine ⟨l, e, model, f, out, test, b1, b2, b3, hraw _ _ _ b4 b5, .scaled _ b6 b7 b8, fun h0 => ?_, b10⟩
    obtain ⟨v, b, v1, v2, ⟨past, rfl⟩, v4⟩ := b9 h0
    exact ⟨past, b, v1, v2, .scaled _ b6 b7 v4⟩

section
variable {P Q M : Type} {t : Trainer K P M} {refitter : Grid (Option M) → Trainer K Q M} {scaled : Bool}
  {s : Stack K} {testLen : Nat} {pt : Partition} {medoids : List Point}

/-- `C90_train`, where only the models of the medoids have to forecast. -/
theorem C90_train_medoids (hs : TrainingSetup t refitter scaled s testLen pt medoids)
    (forecast : M → Nat → Except PyErr (List (Option K)))
    (hf : ∀ md ∈ medoids, ∀ past future q m, s.seriesAt md = .ok (past ++ future) → future.length = testLen →
      t.params.get md = .ok q → t.train q past = .ok (some m) →
      ∃ w, forecast m testLen = .ok w ∧ w.length = testLen)
    {errorType : String} {f : ErrorFun K} (hfunc : getErrorFunc errorType = .ok f)
    (hmase : errorType = "MASE" → s.data.tLen ≠ testLen + 1) (zero junk : Option M) :
    ∃ sv ge atMedoids, trainCompleteSolver t refitter forecast errorType scaled s testLen pt medoids zero junk =
        .ok sv ∧
      sv.spt = s ∧ sv.scaled = scaled ∧ sv.testLen = testLen ∧ sv.OK s.data ge ∧
      ∀ p : Point, p.x < s.data.grid.xLen → p.y < s.data.grid.yLen →
        ∃ l training whole, ModelsAt t refitter s testLen pt medoids atMedoids p l training whole ∧
          sv.training.get p = .ok training ∧ sv.whole.get p = .ok whole ∧
          ∀ raw shown, RawForecast forecast testLen training raw → InUnits s p raw shown →
            ∃ test e, ErrorOf f s testLen p shown test e ∧ ge.get p = .ok e := by
  obtain ⟨hok, -, -⟩ := hs.created.ok
  have hall : ∀ p : Point, p.x < s.data.grid.xLen → p.y < s.data.grid.yLen → ∃ v, s.seriesAt p = .ok v := by
    intro p hx hy
    obtain ⟨v, hv⟩ := s.data.grid.exists_get hok.data_wf.1 hx hy
    exact ⟨v, by rw [hs.created.seriesAt, hv]⟩
  obtain ⟨g, gT, gW, c1, c2, c3, c4, c5, c6, c7, c8⟩ := C47_models_of_medoids t refitter s hok hall testLen
    hs.enough pt hs.valid hs.pointIndex hs.shape.1 hs.shape.2 medoids hs.count hs.member hs.params.1
    hs.params.2.1 hs.params.2.2 hs.trains hs.refits zero junk
  obtain ⟨ge, d1, d2, d3, d4, d5⟩ := calculateErrors_ok hs.created forecast gT testLen hs.enough c2.1 c2.2.1
    c2.2.2 (by
      intro p m hm
      have hr := (Grid.get_eq_ok_iff _ _ _).1 hm
      obtain ⟨l, m', v, q, q', e1, e2, e3, e4, e5, -⟩ := c8 p (by rw [← c2.2.1]; exact hr.1)
        (by rw [← c2.2.2]; exact hr.2.1)
      have hvl : v.length = s.data.tLen := Cube.get_length hok.data_wf (by rw [← hs.created.seriesAt]; exact e3)
      exact hf m' (List.mem_iff_getElem?.2 ⟨l, e2⟩) (v.take (v.length - testLen)) (v.drop (v.length - testLen)) q _
        (by rw [List.take_append_drop]; exact e3) (by rw [List.length_drop]; have := hs.enough; omega) e4
        (e5.symm.trans hm)) hfunc hmase
  refine ⟨_, ge, g, trainCompleteSolver_eq c1 d1, rfl, rfl, rfl,
    ⟨hok.data_wf, rfl, ⟨d2, d3, d4⟩, c2, c3, hs.enough⟩, ?_⟩
  intro p hx hy
  obtain ⟨l, m, v, q, q', e1, e2, e3, e4, e5, e6, e7, e8⟩ := c8 p hx hy
  obtain ⟨training, hT⟩ := gT.exists_get c2.1 (p := p) (by rw [c2.2.1]; exact hx) (by rw [c2.2.2]; exact hy)
  obtain ⟨whole, hW⟩ := gW.exists_get c3.1 (p := p) (by rw [c3.2.1]; exact hx) (by rw [c3.2.2]; exact hy)
  have hvl : v.length = s.data.tLen := Cube.get_length hok.data_wf (by rw [← hs.created.seriesAt]; exact e3)
  have hlt := hs.enough
  refine ⟨l, training, whole, ⟨e1, m, v.take (v.length - testLen), v.drop (v.length - testLen), q, q', e2, ?_, ?_, e4,
    ?_, ?_, e7, ?_⟩, hT, hW, ?_⟩
  · rw [List.take_append_drop]; exact e3
  · rw [List.length_drop]; omega
  · rw [← e5, hT]
  · rw [e6, ← e5, hT]
  · rw [List.take_append_drop, ← e8, hW]
  · intro raw shown hraw hshown
    obtain ⟨u, hu⟩ := hall p hx hy
    have hul : u.length = s.data.tLen := Cube.get_length hok.data_wf (by rw [← hs.created.seriesAt]; exact hu)
    obtain ⟨test, htest⟩ := InUnits.exists hok hu (u.drop (u.length - testLen))
    obtain ⟨tr, htr⟩ := InUnits.exists hok hu (u.take (u.length - testLen))
    have hu' : s.seriesAt p = .ok (u.take (u.length - testLen) ++ u.drop (u.length - testLen)) := by
      rw [List.take_append_drop]; exact hu
    have hl : (u.drop (u.length - testLen)).length = testLen := by rw [List.length_drop]; omega
    obtain ⟨e, he⟩ := ge.exists_get d2 (p := p) (by rw [d3]; exact hx) (by rw [d4]; exact hy)
    exact ⟨test, e, ⟨_, _, tr, hu', hl, htest, htr,
      (d5 p _ _ training raw shown test tr hu' hl hT hraw hshown htest htr).symm.trans he⟩, he⟩

/-- **C90**: the training of a solver succeeds and gives it, at every point of the domain, the models of the
medoid of its cluster, and as error of the point the chosen error of the forecast of its training model against
its own last `test_len` samples, all in the original units of the data. -/
theorem C90_train (hs : TrainingSetup t refitter scaled s testLen pt medoids)
    (forecast : M → Nat → Except PyErr (List (Option K)))
    (hf : ∀ q v m, t.train q v = .ok (some m) → ∃ w, forecast m testLen = .ok w ∧ w.length = testLen)
    {errorType : String} {f : ErrorFun K} (hfunc : getErrorFunc errorType = .ok f)
    (hmase : errorType = "MASE" → s.data.tLen ≠ testLen + 1) (zero junk : Option M) :
    ∃ sv ge atMedoids, trainCompleteSolver t refitter forecast errorType scaled s testLen pt medoids zero junk =
        .ok sv ∧
      sv.spt = s ∧ sv.scaled = scaled ∧ sv.testLen = testLen ∧ sv.OK s.data ge ∧
      ∀ p : Point, p.x < s.data.grid.xLen → p.y < s.data.grid.yLen →
        ∃ l training whole, ModelsAt t refitter s testLen pt medoids atMedoids p l training whole ∧
          sv.training.get p = .ok training ∧ sv.whole.get p = .ok whole ∧
          ∀ raw shown, RawForecast forecast testLen training raw → InUnits s p raw shown →
            ∃ test e, ErrorOf f s testLen p shown test e ∧ ge.get p = .ok e :=
  C90_train_medoids hs forecast (fun _ _ _ _ _ _ _ _ _ h => hf _ _ _ h) hfunc hmase zero junk

/-- **C90** (MASE): if a single sample is left for training, the error MASE divides by zero and no solver is trained. -/
theorem C90_mase (hs : TrainingSetup t refitter scaled s testLen pt medoids)
    (forecast : M → Nat → Except PyErr (List (Option K)))
    (hf : ∀ q v m, t.train q v = .ok (some m) → ∃ w, forecast m testLen = .ok w ∧ w.length = testLen)
    (hx : 0 < s.data.grid.xLen) (hy : 0 < s.data.grid.yLen) (hone : s.data.tLen = testLen + 1) (zero junk : Option M) :
    trainCompleteSolver t refitter forecast "MASE" scaled s testLen pt medoids zero junk =
      .error .zeroDivisionError := by
  obtain ⟨hok, -, -⟩ := hs.created.ok
  have hall : ∀ p : Point, p.x < s.data.grid.xLen → p.y < s.data.grid.yLen → ∃ v, s.seriesAt p = .ok v := by
    intro p hx hy
    obtain ⟨v, hv⟩ := s.data.grid.exists_get hok.data_wf.1 hx hy
    exact ⟨v, by rw [hs.created.seriesAt, hv]⟩
  obtain ⟨g, gT, gW, c1, c2, c3, c4, c5, c6, c7, c8⟩ := C47_models_of_medoids t refitter s hok hall testLen
    hs.enough pt hs.valid hs.pointIndex hs.shape.1 hs.shape.2 medoids hs.count hs.member hs.params.1
    hs.params.2.1 hs.params.2.2 hs.trains hs.refits zero junk
  have hcalc := calculateErrors_mase hs.created forecast gT testLen hone c2.1 c2.2.1 c2.2.2 hx hy (by
    intro p m hm
    have hr := (Grid.get_eq_ok_iff _ _ _).1 hm
    obtain ⟨l, m', v, q, q', e1, e2, e3, e4, e5, -⟩ := c8 p (by rw [← c2.2.1]; exact hr.1)
      (by rw [← c2.2.2]; exact hr.2.1)
    exact hf _ _ _ (e5.symm.trans hm))
  unfold trainSolver at c1
  unfold trainCompleteSolver
  cases a1 : t.applyAtRepresentatives medoids zero (splitLast s testLen).1 with
  | error e => simp [a1] at c1
  | ok atMedoids =>
    simp only [a1] at c1 ⊢
    cases a2 : replicateModels atMedoids.1 pt medoids junk with
    | error e => simp [a2] at c1
    | ok tr =>
      simp only [a2] at c1 ⊢
      have : tr = gT := by
        cases a3 : (refitter atMedoids.1).applyTo zero s with
        | error e => simp [a3] at c1
        | ok refitted =>
          simp only [a3] at c1
          cases a4 : replicateModels refitted.1 pt medoids junk with
          | error e => simp [a4] at c1
          | ok wh =>
            simp only [a4, Except.ok.injEq, Prod.mk.injEq] at c1
            exact c1.1
      rw [this, hcalc]

/-- The two parts of a series are determined by the length of the second one. -/
theorem ErrorOf.unique {f : ErrorFun K} {p : Point} {shown test : List (Option K)} {e : ErrorVal K}
    (h : ErrorOf f s testLen p shown test e) {past future test' : List (Option K)}
    (h1 : s.seriesAt p = .ok (past ++ future)) (h2 : future.length = testLen) (h3 : InUnits s p future test') :
    test = test' := by
  obtain ⟨a, b, tr, k1, k2, k3, -⟩ := h
  rw [h1] at k1
  have := List.append_inj' (Except.ok.inj k1) (by rw [h2, k2])
  rw [← this.2] at k3
  exact k3.unique h3

/-- `C91_rows_in_sample`, where only the models of the medoids have to forecast. -/
theorem C91_rows_in_sample_medoids (hs : TrainingSetup t refitter scaled s testLen pt medoids)
    (forecast : M → Nat → Except PyErr (List (Option K)))
    (hf : ∀ md ∈ medoids, ∀ past future q m, s.seriesAt md = .ok (past ++ future) → future.length = testLen →
      t.params.get md = .ok q → t.train q past = .ok (some m) →
      ∃ w, forecast m testLen = .ok w ∧ w.length = testLen)
    {errorType : String} {f : ErrorFun K} (hfunc : getErrorFunc errorType = .ok f)
    (hmase : errorType = "MASE" → s.data.tLen ≠ testLen + 1) (zero junk : Option M)
    {r : Region} (hr : r.Inside s) {fl : Int} (hfl : fl ≤ 0) (mdRegion : Region) (cl : ClusterMeta) :
    ∃ atMedoids sv res rows,
      trainCompleteSolver t refitter forecast errorType scaled s testLen pt medoids zero junk = .ok sv ∧
      sv.queryResult forecast mdRegion pt (some medoids) cl r fl = .ok res ∧ res.rows = .ok rows ∧
      res.header = ["Point", "cluster_index", "error", "forecast_series", "test_series"] ∧
      rows.length = (r.x2 - r.x1) * (r.y2 - r.y1) ∧
      ∀ p : Point, r.Has p →
        ∃ l training whole raw shown test e,
          ModelsAt t refitter s testLen pt medoids atMedoids p l training whole ∧
          RawForecast forecast testLen training raw ∧ InUnits s p raw shown ∧
          ErrorOf f s testLen p shown test e ∧
          rows[(p.x - r.x1) * (r.y2 - r.y1) + (p.y - r.y1)]? =
            some [.coords ⟨p.x + mdRegion.x1, p.y + mdRegion.y1⟩, .index l, .errorValue e, .series shown,
              .series test] := by
  obtain ⟨sv, ge, g, a1, rfl, rfl, rfl, a5, a6⟩ := C90_train_medoids hs forecast hf hfunc hmase zero junk
  have h0 : ¬ 0 < fl := by omega
  have hq : sv.queryModels fl = sv.training := if_neg h0
  have hl : sv.queryLen fl = sv.testLen := if_neg h0
  obtain ⟨res, rows, b1, b2, b3, b4, b5⟩ := rows_created sv ge a5 hs.created forecast r fl (by
      rw [hq, hl]
      intro p m hm
      have hr := (Grid.get_eq_ok_iff _ _ _).1 hm
      obtain ⟨l, tr, wh, ⟨-, m', past, future, q, q', e1, e2, e3, e4, e5, -⟩, e6, -⟩ := a6 p
        (by rw [← a5.trainingWF.2.1]; exact hr.1) (by rw [← a5.trainingWF.2.2]; exact hr.2.1)
      rw [hm] at e6
      cases e6
      exact hf m' (List.mem_iff_getElem?.2 ⟨l, e1⟩) _ _ _ _ e2 e3 e4 e5) hr.xLen hr.yLen mdRegion pt hs.valid.1 hs.shape.1 hs.shape.2 (some medoids) cl
  rw [if_neg h0] at b3
  refine ⟨g, sv, res, rows, a1, b1, b2, b3, b4, fun p hp => ?_⟩
  obtain ⟨l, e, model, raw, shown, test, c1, c2, c3, c4, c5, c6, c7⟩ := b5 p hp
  obtain ⟨l', tr, wh, d1, d2, d3, d4⟩ := a6 p (lt_of_lt_of_le hp.2.1 hr.xLen) (lt_of_lt_of_le hp.2.2.2 hr.yLen)
  have := d1.label
  rw [c1] at this; cases this
  rw [hq, d2] at c3; cases c3
  rw [hl] at c4
  obtain ⟨test', e', he, hge⟩ := d4 raw shown c4 c5
  rw [c2] at hge; cases hge
  obtain ⟨past, future, k1, k2, k3⟩ := c6 h0
  obtain rfl := he.unique k1 k2 k3
  rw [if_neg h0] at c7
  exact ⟨l, model, wh, raw, shown, test', e, d1, c4, c5, he, c7⟩

/-- **C91**: the file of an in-sample query of a trained solver has a row for every point of the prediction
region, with the cluster of the point, the forecast of the model of the medoid of that cluster, the last
`test_len` samples of the point, and an error that is the chosen error of exactly this forecast and these
samples. -/
theorem C91_rows_in_sample (hs : TrainingSetup t refitter scaled s testLen pt medoids)
    (forecast : M → Nat → Except PyErr (List (Option K)))
    (hf : ∀ q v m, t.train q v = .ok (some m) → ∃ w, forecast m testLen = .ok w ∧ w.length = testLen)
    {errorType : String} {f : ErrorFun K} (hfunc : getErrorFunc errorType = .ok f)
    (hmase : errorType = "MASE" → s.data.tLen ≠ testLen + 1) (zero junk : Option M)
    {r : Region} (hr : r.Inside s) {fl : Int} (hfl : fl ≤ 0) (mdRegion : Region) (cl : ClusterMeta) :
    ∃ atMedoids sv res rows,
      trainCompleteSolver t refitter forecast errorType scaled s testLen pt medoids zero junk = .ok sv ∧
      sv.queryResult forecast mdRegion pt (some medoids) cl r fl = .ok res ∧ res.rows = .ok rows ∧
      res.header = ["Point", "cluster_index", "error", "forecast_series", "test_series"] ∧
      rows.length = (r.x2 - r.x1) * (r.y2 - r.y1) ∧
      ∀ p : Point, r.Has p →
        ∃ l training whole raw shown test e,
          ModelsAt t refitter s testLen pt medoids atMedoids p l training whole ∧
          RawForecast forecast testLen training raw ∧ InUnits s p raw shown ∧
          ErrorOf f s testLen p shown test e ∧
          rows[(p.x - r.x1) * (r.y2 - r.y1) + (p.y - r.y1)]? =
            some [.coords ⟨p.x + mdRegion.x1, p.y + mdRegion.y1⟩, .index l, .errorValue e, .series shown,
              .series test] :=
  C91_rows_in_sample_medoids hs forecast (fun _ _ _ _ _ _ _ _ _ h => hf _ _ _ h) hfunc hmase zero junk hr hfl mdRegion cl

/-- `C91_rows_out_of_sample`, where only the models of the medoids have to forecast. -/
theorem C91_rows_out_of_sample_medoids (hs : TrainingSetup t refitter scaled s testLen pt medoids)
    (forecast : M → Nat → Except PyErr (List (Option K)))
    (hf : ∀ md ∈ medoids, ∀ past future q m, s.seriesAt md = .ok (past ++ future) → future.length = testLen →
      t.params.get md = .ok q → t.train q past = .ok (some m) →
      ∃ w, forecast m testLen = .ok w ∧ w.length = testLen)
    {n : Nat} (hn : 0 < n)
    (hfw : ∀ g, ∀ md ∈ medoids, ∀ q v m, s.seriesAt md = .ok v → (refitter g).params.get md = .ok q →
      (refitter g).train q v = .ok (some m) → ∃ w, forecast m n = .ok w ∧ w.length = n)
    {errorType : String} {f : ErrorFun K} (hfunc : getErrorFunc errorType = .ok f)
    (hmase : errorType = "MASE" → s.data.tLen ≠ testLen + 1) (zero junk : Option M)
    {r : Region} (hr : r.Inside s) (mdRegion : Region) (cl : ClusterMeta) :
    ∃ atMedoids sv res rows,
      trainCompleteSolver t refitter forecast errorType scaled s testLen pt medoids zero junk = .ok sv ∧
      sv.queryResult forecast mdRegion pt (some medoids) cl r n = .ok res ∧ res.rows = .ok rows ∧
      res.header = ["Point", "cluster_index", "error", "forecast_series"] ∧
      rows.length = (r.x2 - r.x1) * (r.y2 - r.y1) ∧
      ∀ p : Point, r.Has p →
        ∃ l training whole raw shown e,
          ModelsAt t refitter s testLen pt medoids atMedoids p l training whole ∧
          RawForecast forecast n whole raw ∧ raw.length = n ∧ InUnits s p raw shown ∧
          (∃ rawT shownT test, RawForecast forecast testLen training rawT ∧ InUnits s p rawT shownT ∧
            ErrorOf f s testLen p shownT test e) ∧
          rows[(p.x - r.x1) * (r.y2 - r.y1) + (p.y - r.y1)]? =
            some [.coords ⟨p.x + mdRegion.x1, p.y + mdRegion.y1⟩, .index l, .errorValue e, .series shown] := by
  obtain ⟨sv, ge, g, a1, rfl, rfl, rfl, a5, a6⟩ := C90_train_medoids hs forecast hf hfunc hmase zero junk
  have h0 : 0 < (n : Int) := by omega
  have hq : sv.queryModels (n : Int) = sv.whole := if_pos h0
  have hl : sv.queryLen (n : Int) = n := by simp [Solver.queryLen, hn]
  have hfw' : ∀ p m, sv.whole.get p = .ok (some m) → ∃ w, forecast m n = .ok w ∧ w.length = n := by
    intro p m hm
    have hr := (Grid.get_eq_ok_iff _ _ _).1 hm
    obtain ⟨l, tr, wh, ⟨-, m', past, future, q, q', e1, e2, -, -, e5, -, e7, e8⟩, -, e6, -⟩ := a6 p
      (by rw [← a5.wholeWF.2.1]; exact hr.1) (by rw [← a5.wholeWF.2.2]; exact hr.2.1)
    rw [hm] at e6
    cases e6
    exact hfw _ m' (List.mem_iff_getElem?.2 ⟨l, e1⟩) _ _ _ e2 e7 e8
  obtain ⟨res, rows, b1, b2, b3, b4, b5⟩ := rows_created sv ge a5 hs.created forecast r (n : Int)
    (by rw [hq, hl]; exact hfw') hr.xLen hr.yLen mdRegion pt hs.valid.1 hs.shape.1 hs.shape.2 (some medoids) cl
  rw [if_pos h0] at b3
  refine ⟨g, sv, res, rows, a1, b1, b2, b3, b4, fun p hp => ?_⟩
  obtain ⟨l, e, model, raw, shown, test, c1, c2, c3, c4, c5, c6, c7⟩ := b5 p hp
  have hpx := lt_of_lt_of_le hp.2.1 hr.xLen
  have hpy := lt_of_lt_of_le hp.2.2.2 hr.yLen
  obtain ⟨l', tr, wh, d1, d2, d3, d4⟩ := a6 p hpx hpy
  have := d1.label
  rw [c1] at this; cases this
  rw [hq, d3] at c3; cases c3
  rw [hl] at c4
  obtain ⟨u, hu⟩ := sv.spt.data.grid.exists_get hs.created.ok.1.data_wf.1 hpx hpy
  have hrawT : ∃ rawT, RawForecast forecast sv.testLen tr rawT := by
    cases tr with
    | none => exact ⟨_, .missing⟩
    | some m =>
      obtain ⟨_, m', past, future, q, q', e1, e2, e3, e4, e5, -⟩ := d1
      obtain ⟨w, hw, -⟩ := hf m' (List.mem_iff_getElem?.2 ⟨l, e1⟩) _ _ _ _ e2 e3 e4 e5
      exact ⟨w, .model hw⟩
  obtain ⟨rawT, hrawT⟩ := hrawT
  obtain ⟨shownT, hshownT⟩ := InUnits.exists hs.created.ok.1
    (show sv.spt.seriesAt p = .ok u by rw [hs.created.seriesAt, hu]) rawT
  obtain ⟨test', e', he, hge⟩ := d4 rawT shownT hrawT hshownT
  rw [c2] at hge; cases hge
  rw [if_pos h0, List.append_nil] at c7
  refine ⟨l, tr, model, raw, shown, e, d1, c4, ?_, c5, ⟨rawT, shownT, test', hrawT, hshownT, he⟩, c7⟩
  cases c4 with
  | missing => simp
  | model h =>
    obtain ⟨w, hw, hwl⟩ := hfw' p _ d3
    rw [h] at hw; cases hw
    exact hwl

/-- **C91** out of sample: the forecast has `fl` samples and comes from the model of the whole series of the
medoid; the error is still the one measured on the test samples, with the training model. -/
theorem C91_rows_out_of_sample (hs : TrainingSetup t refitter scaled s testLen pt medoids)
    (forecast : M → Nat → Except PyErr (List (Option K)))
    (hf : ∀ q v m, t.train q v = .ok (some m) → ∃ w, forecast m testLen = .ok w ∧ w.length = testLen)
    {n : Nat} (hn : 0 < n)
    (hfw : ∀ g q v m, (refitter g).train q v = .ok (some m) → ∃ w, forecast m n = .ok w ∧ w.length = n)
    {errorType : String} {f : ErrorFun K} (hfunc : getErrorFunc errorType = .ok f)
    (hmase : errorType = "MASE" → s.data.tLen ≠ testLen + 1) (zero junk : Option M)
    {r : Region} (hr : r.Inside s) (mdRegion : Region) (cl : ClusterMeta) :
    ∃ atMedoids sv res rows,
      trainCompleteSolver t refitter forecast errorType scaled s testLen pt medoids zero junk = .ok sv ∧
      sv.queryResult forecast mdRegion pt (some medoids) cl r n = .ok res ∧ res.rows = .ok rows ∧
      res.header = ["Point", "cluster_index", "error", "forecast_series"] ∧
      rows.length = (r.x2 - r.x1) * (r.y2 - r.y1) ∧
      ∀ p : Point, r.Has p →
        ∃ l training whole raw shown e,
          ModelsAt t refitter s testLen pt medoids atMedoids p l training whole ∧
          RawForecast forecast n whole raw ∧ raw.length = n ∧ InUnits s p raw shown ∧
          (∃ rawT shownT test, RawForecast forecast testLen training rawT ∧ InUnits s p rawT shownT ∧
            ErrorOf f s testLen p shownT test e) ∧
          rows[(p.x - r.x1) * (r.y2 - r.y1) + (p.y - r.y1)]? =
            some [.coords ⟨p.x + mdRegion.x1, p.y + mdRegion.y1⟩, .index l, .errorValue e, .series shown] :=
  C91_rows_out_of_sample_medoids hs forecast (fun _ _ _ _ _ _ _ _ _ h => hf _ _ _ h) hn (fun _ _ _ _ _ _ _ _ h => hfw _ _ _ _ h) hfunc hmase zero
    junk hr mdRegion cl

end

/-- A 1 by 3 scaled region with 3 samples and one test sample. -/
def trainedRegion : Stack ℚ :=
  .scaled (.plain ⟨3, ⟨1, 3, [[some 0, some 1, some (1/2)], [some 1, some (1/2), some 0],
      [some 0, some 0, some 1]]⟩⟩)
    (.plain ⟨1, 3, [some 10, some 20, some 30]⟩) (.plain ⟨1, 3, [some 12, some 24, some 36]⟩)

/-- Its partition in two clusters. -/
def trainedPartition : Partition := ⟨⟨1, 3, [0, 0, 1]⟩, 2, 0⟩

/-- Models that repeat the mean of the samples. -/
def meanTrainer : Trainer ℚ Nat (Option ℚ) := Trainer.constant 2 1 3 meanOfPast

/-- The hypotheses of C90 and C91 hold of it. -/
theorem trainedSetup : TrainingSetup meanTrainer meanTrainer.sameRefitter true trainedRegion 1 trainedPartition
    [⟨0, 1⟩, ⟨0, 2⟩] where
  created := .scaled (by decide +kernel) (by decide +kernel) (by decide +kernel) rfl rfl rfl rfl
  enough := by decide +kernel
  valid := ⟨by decide, by decide, by decide⟩
  pointIndex := rfl
  shape := ⟨rfl, rfl⟩
  count := rfl
  member := by
    intro i m h
    match i, h with
    | 0, h => cases h; decide +kernel
    | 1, h => cases h; decide +kernel
  params := ⟨by decide, rfl, rfl⟩
  trains := fun _ _ _ _ _ _ => ⟨_, rfl⟩
  refits := fun _ _ _ _ => ⟨show Grid.WF (Grid.const 1 3 2) by decide, rfl, rfl, fun _ _ _ _ _ => ⟨_, rfl⟩⟩

/-- The rows of the first two points, in sample and out of sample. The model of both is the one of the
medoid (0, 1): 3/4 from its training part, 1/4 from its last two samples; each point brings it back to its
own units. -/
example :
    let ask := fun fl => (trainCompleteSolver meanTrainer meanTrainer.sameRefitter repeatMean "MSE" true
      trainedRegion 1 trainedPartition [⟨0, 1⟩, ⟨0, 2⟩] none none).bind fun sv =>
        (sv.queryResult repeatMean ⟨5, 6, 7, 10⟩ trainedPartition (some [⟨0, 1⟩, ⟨0, 2⟩]) (.kmedoids { k := 2 })
          ⟨0, 1, 0, 2⟩ fl).bind Result.rows
    ask 0 = .ok [[.coords ⟨5, 7⟩, .index 0, .errorValue (some (1/4 : ℚ)), .series [some (23/2)], .series [some 11]],
      [.coords ⟨5, 8⟩, .index 0, .errorValue (some (9 : ℚ)), .series [some 23], .series [some 20]]] ∧
    ask 2 = .ok [[.coords ⟨5, 7⟩, .index 0, .errorValue (some (1/4 : ℚ)), .series [some (21/2), some (21/2)]],
      [.coords ⟨5, 8⟩, .index 0, .errorValue (some (9 : ℚ)), .series [some 21, some 21]]] := by
  refine ⟨?_, ?_⟩ <;> decide +kernel

/-- The same region with all but one of the samples as test samples: MASE has one training sample and raises. -/
example : (trainCompleteSolver meanTrainer meanTrainer.sameRefitter repeatMean "MASE" true
      trainedRegion 1 trainedPartition [⟨0, 1⟩, ⟨0, 2⟩] none none).isOk = true ∧
    (trainCompleteSolver meanTrainer meanTrainer.sameRefitter repeatMean "MASE" true
      trainedRegion (trainedRegion.data.tLen - 1) trainedPartition [⟨0, 1⟩, ⟨0, 2⟩] none none).isOk = false := by
  refine ⟨?_, ?_⟩ <;> decide +kernel

end Spta
