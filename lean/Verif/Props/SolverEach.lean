import Verif.Model.SolverEach
import Verif.Spec.SolverEach
import Verif.Props.SolverTrain
import Verif.Props.Classifier

/-!
# C112: the solvers with a model at each point
-/

set_option linter.unusedSectionVars false

namespace Spta

variable {K : Type} [Field K] [LinearOrder K] [IsStrictOrderedRing K]

section

variable {P M : Type} {trainer : Nat → Nat → Trainer K P M} {scaled : Bool} {s : Stack K} {n : Nat}
  {train : P → List (Option K) → Except PyErr (Option M)} {q : P}
  {forecast : M → Nat → Except PyErr (List (Option K))} {errorType : String} {f : ErrorFun K}

/-- The parts of the result. -/
theorem solverEach_ok (hc : CreatedRegion scaled s) (hn : n ≤ s.data.tLen)
    (ht : ∀ x y, trainer x y = Trainer.constant q x y train)
    {r : Region} (hr : r.Inside s)
    (htrain : ∀ p v, r.Has p → s.seriesAt p = .ok v → ∃ x, train q (v.take (v.length - n)) = .ok x)
    (hf : ∀ p past future m, r.Has p → s.seriesAt p = .ok (past ++ future) → future.length = n →
      train q past = .ok (some m) → ∃ w, forecast m n = .ok w ∧ w.length = n)
    (hfunc : getErrorFunc errorType = .ok f) (hmase : errorType = "MASE" → s.data.tLen ≠ n + 1)
    (mdRegion : Region) (zero : Option M) (junk : Option K) :
    ∃ region errors test, solverEach trainer forecast errorType mdRegion scaled s n r zero junk =
        .ok (.inSample ⟨mdRegion, n, region, errors, r, s⟩ test) ∧
      region.data.grid.xLen = r.x2 - r.x1 ∧ region.data.grid.yLen = r.y2 - r.y1 ∧
      ∀ p : Point, p.x < r.x2 - r.x1 → p.y < r.y2 - r.y1 →
        ∃ past future model raw shown wo e, s.seriesAt (r.shift p) = .ok (past ++ future) ∧ future.length = n ∧
          train q past = .ok model ∧ RawForecast forecast n model raw ∧ InUnits s (r.shift p) raw shown ∧
          ErrorOf f s n (r.shift p) shown wo e ∧ region.seriesAt p = .ok shown ∧ test.seriesAt p = .ok wo ∧
          errors.valueAt p = .ok e := by
  obtain ⟨sub, b1, b2, b3, b4, b5, b6⟩ := hc.subset hr
  obtain ⟨o1, o2, o3⟩ := b2.ok
  have hhas : ∀ p : Point, p.x < r.x2 - r.x1 → p.y < r.y2 - r.y1 → r.Has (r.shift p) := by
    intro p h1 h2
    refine ⟨?_, ?_, ?_, ?_⟩ <;> simp only [Region.shift] <;> omega
  have hrange : ∀ p v, sub.seriesAt p = .ok v → p.x < r.x2 - r.x1 ∧ p.y < r.y2 - r.y1 := by
    intro p v hv
    have := Stack.seriesAt_range hv
    rw [b4, b5] at this
    exact this
  -- training
  have hsp := splitLast_new o1 n (by rw [b3]; exact hn)
  have hmodels : ∃ models, ((trainer sub.data.grid.xLen sub.data.grid.yLen).applyTo zero
      (splitLast sub n).1).map Prod.fst = .ok models ∧ models.WF ∧ models.xLen = sub.data.grid.xLen ∧
      models.yLen = sub.data.grid.yLen ∧ ∀ p past future, sub.seriesAt p = .ok (past ++ future) →
        future.length = n → models.get p = train q past := by
    obtain ⟨ct, co, e1, e2, hct, hco, htx, hty, hox, hoy, hlt, hlo, hsplit⟩ := hsp
    have hok : (sub.new ct).OK := o1.new hct htx hty
    have hfun : ∀ p v, (sub.new ct).seriesAt p = .ok v →
        (trainer sub.data.grid.xLen sub.data.grid.yLen).functionAt p v = train q v := by
      intro p v hv
      have := Stack.seriesAt_range hv
      rw [Stack.data_new, htx, hty] at this
      rw [ht]
      simp only [Trainer.functionAt, Trainer.constant, Grid.get_const this.1 this.2]
    obtain ⟨g, items, t1, t2, t3, t4, t5, -⟩ := trainApply_ok hok sub.data.grid.xLen sub.data.grid.yLen
      (by rw [Stack.data_new]; exact htx) (by rw [Stack.data_new]; exact hty)
      (trainer sub.data.grid.xLen sub.data.grid.yLen).functionAt zero (by
        intro p v hv
        rw [hfun p v hv]
        obtain ⟨hg, u, hu⟩ := (Stack.seriesAt_new_iff o1 htx hty).1 hv
        obtain ⟨r1, r2⟩ := hrange p u hu
        have hul := Stack.seriesAt_length o1 hu
        obtain ⟨c1, -⟩ := hsplit p u (u.take (u.length - n)) (u.drop (u.length - n)) hu
          (List.take_append_drop _ _).symm (by rw [List.length_drop, hul, b3]; omega)
        rw [c1] at hg
        cases hg
        exact htrain _ u (hhas p r1 r2) (by rw [← (b6 p r1 r2).1]; exact hu))
    refine ⟨g, ?_, t2, t3, t4, ?_⟩
    · rw [e1, Trainer.applyTo, ht] at *
      simp only [Trainer.constant, Grid.const] at t1 ⊢
      rw [t1]
      rfl
    · intro p past future hp hl
      have hpn : (sub.new ct).seriesAt p = .ok past := by
        rw [Stack.seriesAt_new_eq _ hp]
        exact (hsplit p _ past future hp rfl hl).1
      rw [t5 p past hpn, hfun p past hpn]
  obtain ⟨models, t1, t2, t3, t4, t5⟩ := hmodels
  have hin : AnalysisInput sub (fun tr => ((trainer sub.data.grid.xLen sub.data.grid.yLen).applyTo zero
      tr).map Prod.fst) forecast n models errorType f := {
    ok := o1
    one := o2
    fits := by rw [b3]; exact hn
    train := t1
    modelsWF := t2
    modelsX := t3
    modelsY := t4
    forecasts := by
      intro p v m hv hm
      obtain ⟨r1, r2⟩ := hrange p v hv
      have hul := Stack.seriesAt_length o1 hv
      rw [← List.take_append_drop (v.length - n) v] at hv
      have hl : (v.drop (v.length - n)).length = n := by rw [List.length_drop, hul, b3]; omega
      rw [t5 p _ _ hv hl] at hm
      rw [(b6 p r1 r2).1] at hv
      exact hf _ _ _ m (hhas p r1 r2) hv hl hm
    func := hfunc
    mase := by rw [b3]; exact hmase }
  obtain ⟨ct, co, g, ge, e1, e2, hct, hco, htx, hty, hox, hoy, hlt, hlo, hsplit, g1, g2, g3, g4, g5, m1, m2,
    m3, m4, m5⟩ := hin.facts junk
  have htm : (Analysis.new K M).trainModels (fun tr => ((trainer sub.data.grid.xLen sub.data.grid.yLen).applyTo
      zero tr).map Prod.fst) sub n = (.ok models, ⟨some ⟨sub, sub.new ct, sub.new co, n⟩, some models, none⟩) := by
    unfold Analysis.trainModels
    simp only [t1]
    rw [e1, e2]
    rfl
  have hfe : ((⟨some ⟨sub, sub.new ct, sub.new co, n⟩, some models, none⟩ : Analysis K M).forecastAtEach
      forecast junk n errorType).1 = .ok (sub.new ⟨n, g⟩, sub.newSpatial ge) := by
    unfold Analysis.forecastAtEach Analysis.check
    simp only [hfunc, if_true, g1, m1]
  have hde : ∀ c : Cube (Option K), c.WF → c.grid.xLen = sub.data.grid.xLen → c.grid.yLen = sub.data.grid.yLen →
      ∃ d, descaleIf scaled (sub.new c) sub = .ok d ∧ d.data.grid.xLen = c.grid.xLen ∧
        d.data.grid.yLen = c.grid.yLen ∧
        ∀ p v w, c.grid.get p = .ok v → InUnits sub p v w → d.seriesAt p = .ok w := by
    intro c w1 w2 w3
    cases scaled with
    | false =>
      refine ⟨sub.new c, rfl, by rw [Stack.data_new], by rw [Stack.data_new], ?_⟩
      intro p v w hv hu
      cases b2
      cases hu
      exact hv
    | true =>
      obtain ⟨d, d1, d2, d3, -, d4⟩ := descaleSubregion_ok b2 w1 w2 w3
      exact ⟨d, d1, d2, d3, d4⟩
  obtain ⟨df, f1, f2, f3, f4⟩ := hde ⟨n, g⟩ g2 g3 g4
  obtain ⟨dt, d1, d2, d3, d4⟩ := hde co hco hox hoy
  refine ⟨df, sub.newSpatial ge, dt, ?_, by rw [f2]; exact g3.trans b4, by rw [f3]; exact g4.trans b5, ?_⟩
  · unfold solverEach
    simp only [b1, htm, hfe, f1, e2, d1]
    rfl
  · intro p h1 h2
    obtain ⟨c1, c2⟩ := b6 p h1 h2
    obtain ⟨u, hu⟩ := sub.data.grid.exists_get o1.data_wf.1 (p := p) (by rw [b4]; exact h1) (by rw [b5]; exact h2)
    rw [← b2.seriesAt] at hu
    have hul := Stack.seriesAt_length o1 hu
    have hl : (u.drop (u.length - n)).length = n := by rw [List.length_drop, hul, b3]; omega
    rw [← List.take_append_drop (u.length - n) u] at hu
    generalize u.take (u.length - n) = past at hu
    generalize u.drop (u.length - n) = future at hu hl
    have hm := t5 p past future hu hl
    obtain ⟨model, hmodel⟩ := models.exists_get t2 (p := p) (by rw [t3, b4]; exact h1) (by rw [t4, b5]; exact h2)
    have hraw : ∃ raw, RawForecast forecast n model raw := by
      cases model with
      | none => exact ⟨_, .missing⟩
      | some m =>
        obtain ⟨w, hw, -⟩ := hin.forecasts p _ m hu hmodel
        exact ⟨w, .model hw⟩
    obtain ⟨raw, hraw⟩ := hraw
    obtain ⟨shown, hs⟩ := InUnits.exists o1 hu raw
    obtain ⟨wo, ho⟩ := InUnits.exists o1 hu future
    obtain ⟨wt, hwt⟩ := InUnits.exists o1 hu past
    have hg := g5 p _ model raw hu hmodel hraw
    obtain ⟨s1, s2⟩ := hsplit p _ past future hu rfl hl
    have he := m5 p _ future past raw wo wt shown hu s2 s1 hg ho hwt hs
    obtain ⟨e, hge⟩ := ge.exists_get m2 (p := p) (by rw [m3, b4]; exact h1) (by rw [m4, b5]; exact h2)
    refine ⟨past, future, model, raw, shown, wo, e, by rw [← c1]; exact hu, hl, by rw [← hm]; exact hmodel, hraw,
      (c2 _ _).1 hs, ⟨past, future, wt, by rw [← c1]; exact hu, hl, (c2 _ _).1 ho, (c2 _ _).1 hwt, ?_⟩,
      f4 p raw shown hg hs, d4 p future wo s2 ho, ?_⟩
    · rw [← he, hge]
    · rw [Stack.valueAt_newSpatial _ hu, hge]

/-- **C112**: the file has one row for each point of the prediction region, with the forecast of the model of
this point, its error and the test samples. -/
theorem C112_rows (hc : CreatedRegion scaled s) (hn : n ≤ s.data.tLen)
    (ht : ∀ x y, trainer x y = Trainer.constant q x y train)
    {r : Region} (hr : r.Inside s)
    (htrain : ∀ p v, r.Has p → s.seriesAt p = .ok v → ∃ x, train q (v.take (v.length - n)) = .ok x)
    (hf : ∀ p past future m, r.Has p → s.seriesAt p = .ok (past ++ future) → future.length = n →
      train q past = .ok (some m) → ∃ w, forecast m n = .ok w ∧ w.length = n)
    (hfunc : getErrorFunc errorType = .ok f) (hmase : errorType = "MASE" → s.data.tLen ≠ n + 1)
    (mdRegion : Region) (zero : Option M) (junk : Option K) :
    ∃ res rows, solverEach trainer forecast errorType mdRegion scaled s n r zero junk = .ok res ∧
      res.rows = .ok rows ∧ res.header = ["Point", "error", "forecast_series", "test_series"] ∧
      rows.length = (r.x2 - r.x1) * (r.y2 - r.y1) ∧
      ∀ p : Point, r.Has p → ∃ row, rows[(p.x - r.x1) * (r.y2 - r.y1) + (p.y - r.y1)]? = some row ∧
        EachRow train forecast f s n mdRegion q p row := by
  obtain ⟨region, errors, test, h1, h2, h3, h4⟩ := solverEach_ok hc hn ht hr htrain hf hfunc hmase mdRegion zero
    junk
  have hrow : ∀ p : Point, ∃ row, p.x < r.x2 - r.x1 → p.y < r.y2 - r.y1 →
      (Result.inSample ⟨mdRegion, n, region, errors, r, s⟩ test).tuple p = .ok row ∧
      EachRow train forecast f s n mdRegion q (r.shift p) row := by
    intro p
    by_cases hp : p.x < r.x2 - r.x1 ∧ p.y < r.y2 - r.y1
    · obtain ⟨past, future, model, raw, shown, wo, e, a1, a2, a3, a4, a5, a6, a7, a8, a9⟩ := h4 p hp.1 hp.2
      refine ⟨_, fun _ _ => ⟨?_, past, future, model, raw, shown, wo, e, a1, a2, a3, a4, a5, a6, rfl⟩⟩
      simp only [Result.tuple, Result.baseTuple, Result.base, a7, a8, a9, Result.absolute, Result.toDomain,
        absolutePosition, Region.shift, List.cons_append, List.nil_append, Nat.add_comm]
    · exact ⟨[], fun h1 h2 => absurd ⟨h1, h2⟩ hp⟩
  choose row hrow using hrow
  have hpts : (Result.inSample ⟨mdRegion, n, region, errors, r, s⟩ test).points =
      rowMajor (r.x2 - r.x1) (r.y2 - r.y1) := by
    simp only [Result.points, Result.base, allPoints_eq, h2, h3]
  refine ⟨_, _, h1, mapM_ok _ row _ ?_, rfl, by rw [List.length_map, hpts, rowMajor_length], ?_⟩
  · intro p hp
    rw [hpts, mem_rowMajor] at hp
    exact (hrow p hp.1 hp.2).1
  · intro p hp
    obtain ⟨p1, p2, p3, p4⟩ := hp
    have hsh : r.shift ⟨p.x - r.x1, p.y - r.y1⟩ = p := by
      cases p; simp only [Region.shift, Point.mk.injEq]; simp only at p1 p3; omega
    refine ⟨row ⟨p.x - r.x1, p.y - r.y1⟩, ?_, ?_⟩
    · have hx : p.x - r.x1 < r.x2 - r.x1 := by omega
      have hy : p.y - r.y1 < r.y2 - r.y1 := by omega
      rw [List.getElem?_map, hpts, rowMajor_eq_map, List.getElem?_map, List.getElem?_range (idx_lt hx hy),
        Option.map_some, idx_div hy, idx_mod hy]
      rfl
    · have := (hrow ⟨p.x - r.x1, p.y - r.y1⟩ (by simp only; omega) (by simp only; omega)).2
      rw [hsh] at this
      exact this

/-- What a row must contain determines it. -/
theorem EachRow.unique {mdRegion : Region} {p : Point} {row row' : List (Cell K)}
    (h : EachRow train forecast f s n mdRegion q p row) (h' : EachRow train forecast f s n mdRegion q p row') :
    row = row' := by
  obtain ⟨past, future, model, raw, shown, test, e, h1, h2, h3, h4, h5, ⟨a, b, tr, k1, k2, k3, k4, k5⟩, rfl⟩ := h
  obtain ⟨past', future', model', raw', shown', test', e', h1', h2', h3', h4', h5',
    ⟨a', b', tr', k1', k2', k3', k4', k5'⟩, rfl⟩ := h'
  rw [h1] at h1' k1 k1'
  obtain ⟨rfl, rfl⟩ := List.append_inj' (Except.ok.inj h1') (by rw [h2, h2'])
  obtain ⟨rfl, rfl⟩ := List.append_inj' (Except.ok.inj k1) (by rw [h2, k2])
  obtain ⟨rfl, rfl⟩ := List.append_inj' (Except.ok.inj k1') (by rw [h2, k2'])
  rw [h3] at h3'
  cases h3'
  have : raw = raw' := by
    cases h4 with
    | missing => cases h4'; rfl
    | model h => cases h4' with
      | model h'' => rw [h] at h''; exact Except.ok.inj h''
  subst this
  obtain rfl := h5.unique h5'
  obtain rfl := k3.unique k3'
  obtain rfl := k4.unique k4'
  rw [k5] at k5'
  cases k5'
  rfl

/-- **C112**: at a medoid, the solver with a model at each point and the solver with the models of the medoids
write the same error, forecast and test samples. -/
theorem C112_medoid {Q : Type} {refitter : Grid (Option M) → Trainer K Q M} {pt : Partition}
    {medoids : List Point}
    (ht : ∀ x y, trainer x y = Trainer.constant q x y train)
    (hs : TrainingSetup (trainer s.data.grid.xLen s.data.grid.yLen) refitter scaled s n pt medoids)
    {r : Region} (hr : r.Inside s)
    (htrain : ∀ p v, r.Has p → s.seriesAt p = .ok v → ∃ x, train q (v.take (v.length - n)) = .ok x)
    (hf : ∀ q v m, train q v = .ok (some m) → ∃ w, forecast m n = .ok w ∧ w.length = n)
    (hfunc : getErrorFunc errorType = .ok f) (hmase : errorType = "MASE" → s.data.tLen ≠ n + 1)
    (mdRegion : Region) (cl : ClusterMeta) (zero junk : Option M) (junk' : Option K) {fl : Int} (hfl : fl ≤ 0) :
    ∃ each rowsEach sv res rows,
      solverEach trainer forecast errorType mdRegion scaled s n r zero junk' = .ok each ∧
      each.rows = .ok rowsEach ∧
      trainCompleteSolver (trainer s.data.grid.xLen s.data.grid.yLen) refitter forecast errorType scaled s n pt
        medoids zero junk = .ok sv ∧
      sv.queryResult forecast mdRegion pt (some medoids) cl r fl = .ok res ∧ res.rows = .ok rows ∧
      ∀ (l : Nat) (m : Point), medoids[l]? = some m → r.Has m →
        ∃ coords e shown test, rowsEach[(m.x - r.x1) * (r.y2 - r.y1) + (m.y - r.y1)]? =
            some [coords, e, shown, test] ∧
          rows[(m.x - r.x1) * (r.y2 - r.y1) + (m.y - r.y1)]? = some [coords, .index l, e, shown, test] := by
  obtain ⟨each, rowsEach, a1, a2, -, -, a5⟩ := C112_rows (errorType := errorType) hs.created hs.enough ht hr htrain
    (fun _ _ _ m _ _ _ h => hf _ _ m h) hfunc hmase mdRegion zero junk'
  have htt : (trainer s.data.grid.xLen s.data.grid.yLen).train = train := by rw [ht]; rfl
  obtain ⟨g, sv, res, rows, b1, b2, b3, -, -, b6⟩ := C91_rows_in_sample hs forecast
    (by rw [htt]; exact hf) hfunc hmase zero junk hr hfl mdRegion cl
  refine ⟨each, rowsEach, sv, res, rows, a1, a2, b1, b2, b3, fun l m hm hmr => ?_⟩
  obtain ⟨row, c1, c2⟩ := a5 m hmr
  obtain ⟨l', training, whole, raw, shown, test, e, d1, d2, d3, d4, d5⟩ := b6 m hmr
  have hl := d1.label
  rw [hs.member l m hm] at hl
  cases hl
  obtain ⟨m', past, future, q', q'', e1, e2, e3, e4, e5, -⟩ := d1.models
  rw [hm] at e1
  cases e1
  have hq : q' = q := by
    rw [ht] at e4
    have := (Grid.get_eq_ok_iff _ _ _).1 e4
    exact Except.ok.inj (e4.symm.trans (Grid.get_const this.1 this.2.1))
  subst hq
  rw [htt] at e5
  have := c2.unique
    ⟨past, future, training, raw, shown, test, e, e2, e3, e5, d2, d3, d4, rfl⟩
  subst this
  exact ⟨_, _, _, _, c1, d5⟩

end

section

variable {scaled : Bool} {s : Stack K} {n k : Nat} {errorType : String} {f : ErrorFun K}
  {V : Type} [LinearOrder V]

/-- **C112** for the k-nearest-neighbour models, on data without missing values: if there are enough samples, the
forecast of each point is the mean of the `k` windows nearest to the last `n` training samples of the same point. -/
theorem C112_knn (measure : List (Option K) → List (Option K) → V) (argpartition : List V → Nat → List Nat)
    (hpart : ∀ values k, k < values.length → IsArgPartition values k (argpartition values k))
    (hc : CreatedRegion scaled s) (hk : 0 < k) (hn : n + k + n ≤ s.data.tLen)
    (hnum : ∀ p v, s.seriesAt p = .ok v → ∃ w : List K, v = w.map some)
    {r : Region} (hr : r.Inside s)
    (hfunc : getErrorFunc errorType = .ok f) (hmase : errorType = "MASE" → 0 < n) (mdRegion : Region)
    (zero : Option (Nat × List (Option K)))
    (junk : Option K) :
    ∃ res rows, solverEach (knnTrainer k) (knnForecast measure argpartition) errorType mdRegion scaled s n r zero
        junk = .ok res ∧
      res.rows = .ok rows ∧ rows.length = (r.x2 - r.x1) * (r.y2 - r.y1) ∧
      ∀ p : Point, r.Has p → ∃ (past future : List K) (raw shown test : List (Option K)) (e : ErrorVal K)
          (starts : List Nat),
        s.seriesAt p = .ok ((past ++ future).map some) ∧ future.length = n ∧
        AreNearest (fun i => measure ((past.drop (past.length - n)).map some)
          (((past.drop i).take n).map some)) (past.length - n) k starts ∧
        raw.length = n ∧
        (∀ j < n, ∃ y, raw[j]? = some (some y) ∧
          (∃ values, List.Forall₂ (fun i a => past[i + j]? = some a) starts values ∧
            y * (k : K) = values.sum) ∧
          (∃ i ∈ starts, ∃ a, past[i + j]? = some a ∧ a ≤ y) ∧
          (∃ i ∈ starts, ∃ b, past[i + j]? = some b ∧ y ≤ b)) ∧
        InUnits s p raw shown ∧ ErrorOf f s n p shown test e ∧
        rows[(p.x - r.x1) * (r.y2 - r.y1) + (p.y - r.y1)]? =
          some [.coords ⟨p.x + mdRegion.x1, p.y + mdRegion.y1⟩, .errorValue e, .series shown, .series test] := by
  have hsplit : ∀ p past future, s.seriesAt p = .ok (past ++ future) → future.length = n →
      ∃ a b : List K, past = a.map some ∧ future = b.map some ∧ n + k ≤ a.length := by
    intro p past future h hl
    have hlen := Stack.seriesAt_length hc.ok.1 h
    rw [List.length_append, hl] at hlen
    obtain ⟨w, hw⟩ := hnum p _ h
    obtain ⟨a, b, rfl, rfl, rfl⟩ := List.append_eq_map_iff.1 hw
    rw [List.length_map] at hlen
    exact ⟨a, b, rfl, rfl, by omega⟩
  obtain ⟨res, rows, h1, h2, -, h4, h5⟩ := C112_rows (n := n) (trainer := knnTrainer k)
    (forecast := knnForecast measure argpartition) (errorType := errorType) hc (by omega) (q := k) (fun _ _ => rfl)
    hr (fun _ _ _ _ => ⟨_, rfl⟩) (by
      intro p past future m _ hp hl hm
      cases hm
      obtain ⟨a, b, rfl, rfl, ha⟩ := hsplit p past future hp hl
      obtain ⟨starts, w, w1, -, w3, -⟩ := C46_forecast measure argpartition hpart a k n hk ha
      exact ⟨w, w1, w3⟩) hfunc (fun h h' => by have := hmase h; omega) mdRegion zero junk
  refine ⟨res, rows, h1, h2, h4, fun p hp => ?_⟩
  obtain ⟨row, r1, past, future, model, raw, shown, test, e, a1, a2, a3, a4, a5, a6, rfl⟩ := h5 p hp
  obtain ⟨a, b, rfl, rfl, ha⟩ := hsplit p past future a1 a2
  obtain ⟨starts, w, w1, w2, w3, w4⟩ := C46_forecast measure argpartition hpart a k n hk ha
  cases a3
  cases a4 with
  | model h =>
    have : raw = w := Except.ok.inj (h.symm.trans w1)
    subst this
    exact ⟨a, b, raw, shown, test, e, starts, by rw [a1, List.map_append], by simpa using a2, w2, w3, w4, a5, a6, r1⟩

end

/-- The hypotheses of C112 hold of the region of the examples of C90 (scaled, with three samples), a model that
repeats the mean of the samples, one test sample and the first two points. -/
example : CreatedRegion true trainedRegion ∧ 1 ≤ trainedRegion.data.tLen ∧
    Region.Inside ⟨0, 1, 0, 2⟩ trainedRegion ∧
    (∀ x y, (fun x y => Trainer.constant (K := ℚ) 2 x y meanOfPast) x y =
      Trainer.constant 2 x y meanOfPast) ∧
    ∀ q v (m : Option ℚ), meanOfPast q v = .ok (some m) → ∃ w, repeatMean m 1 = .ok w ∧ w.length = 1 :=
  ⟨.scaled (by decide +kernel) (by decide +kernel) (by decide +kernel) rfl rfl rfl rfl, by decide +kernel,
    ⟨by decide, by decide, by decide +kernel, by decide +kernel⟩, fun _ _ => rfl, fun _ _ _ _ => ⟨_, rfl, rfl⟩⟩

/-- The rows for the first two points: forecasts 11 and 23 in the original units, errors 0 and 9. -/
example : ((solverEach (fun x y => Trainer.constant (K := ℚ) 2 x y meanOfPast) repeatMean "MSE" ⟨10, 11, 20, 23⟩ true
    trainedRegion 1 ⟨0, 1, 0, 2⟩ none none).toOption.bind fun r => r.rows.toOption) =
    some [[.coords ⟨10, 20⟩, .errorValue (some 0), .series [some 11], .series [some 11]],
      [.coords ⟨10, 21⟩, .errorValue (some 9), .series [some 23], .series [some 20]]] := by
  decide +kernel

/-- The condition on the number of samples in `C112_knn`. -/
example : 0 < 1 ∧ 1 + 1 + 1 ≤ trainedRegion.data.tLen := by decide +kernel

end Spta
