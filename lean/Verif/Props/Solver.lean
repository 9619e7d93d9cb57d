import Mathlib.Tactic.Ring
import Verif.Spec.Solver
import Verif.Props.Train
import Verif.Props.Scaling

/-!
# C48: predictions
-/

set_option linter.unusedSectionVars false

namespace Spta

variable {K : Type} [Field K] [LinearOrder K] [IsStrictOrderedRing K]

theorem descaledWith_descaleSeries (lo hi : Option K) (f : List (Option K)) :
    DescaledWith lo hi f (descaleSeries lo hi f) := by
  refine ⟨descaleSeries_length _ _ _, ?_, ?_⟩
  · rintro t a b x rfl rfl hx
    simp only [descaleSeries, List.getElem?_map, hx, Option.map_some]
    congr 2; ring
  · intro t ht h
    rw [descaleSeries, List.getElem?_map, List.getElem?_eq_getElem ht, Option.map_some]
    rcases h with rfl | rfl | h
    · rfl
    · cases lo <;> rfl
    · rw [List.getElem?_eq_getElem ht] at h
      have h' : f[t] = none := by simpa using h
      rw [h']
      cases lo <;> cases hi <;> rfl

/-- **C20** (combined subsets, partial: what is obtained for any rectangle). The point at position `p` of the
combined subset has the samples of the point `(x1, y1) + p` of the scaled region, but they are descaled with
the minimum and the maximum of the point `p`, not with those of `(x1, y1) + p`. -/
theorem C20_descale_subset_anywhere_partial (c : Cube (Option K)) (gmin gmax : Grid (Option K))
    (hc : c.WF) (hmin : gmin.WF) (hmax : gmax.WF)
    (hx1 : gmin.xLen = c.grid.xLen) (hy1 : gmin.yLen = c.grid.yLen)
    (hx2 : gmax.xLen = c.grid.xLen) (hy2 : gmax.yLen = c.grid.yLen)
    (r : Region) (ti : TimeInterval) :
    ∃ d, ((Stack.scaled (.plain c) (.plain gmin) (.plain gmax)).subset r ti).descale = .ok d ∧
      d.data.grid.xLen = min r.x2 c.grid.xLen - r.x1 ∧ d.data.grid.yLen = min r.y2 c.grid.yLen - r.y1 ∧
      ∀ p : Point, p.x < d.data.grid.xLen → p.y < d.data.grid.yLen →
        ∃ v lo hi out, c.grid.get ⟨r.x1 + p.x, r.y1 + p.y⟩ = .ok v ∧ gmin.get p = .ok lo ∧
          gmax.get p = .ok hi ∧ d.data.grid.get p = .ok out ∧
          DescaledWith lo hi ((v.take ti.t2).drop ti.t1) out := by
  obtain ⟨d, b1, b2, b3, b4, b5, b6⟩ :=
    descale_subset_ok c gmin gmax hc hmin hmax hx1 hy1 hx2 hy2 r ti
  refine ⟨_, b1, b4, b5, ?_⟩
  intro p hx hy
  have hx' : p.x < d.grid.xLen := hx
  have hy' : p.y < d.grid.yLen := hy
  obtain ⟨v, hv⟩ := c.grid.exists_get hc.1 (p := ⟨r.x1 + p.x, r.y1 + p.y⟩) (by simp only; omega)
    (by simp only; omega)
  obtain ⟨lo, hlo⟩ := gmin.exists_get hmin (p := p) (by omega) (by omega)
  obtain ⟨hi, hhi⟩ := gmax.exists_get hmax (p := p) (by omega) (by omega)
  exact ⟨v, lo, hi, _, hv, hlo, hhi, b6 p v lo hi hx' hy' hv hlo hhi, descaledWith_descaleSeries _ _ _⟩

/-- The second point of `scalingExample` alone: its samples with the units of the first point. -/
example : ∃ d, ((Stack.scaled (.plain ⟨2, ⟨1, 2, [[some 0, some 1], [some 0, some 1]]⟩⟩)
      (.plain ⟨1, 2, [some 0, some 5]⟩) (.plain ⟨1, 2, [some (10 : ℚ), some 6]⟩)).subset ⟨0, 1, 1, 2⟩ ⟨0, 2⟩).descale =
    .ok d ∧ d.data.grid.get ⟨0, 0⟩ = .ok [some 0, some 10] :=
  ⟨.plain ⟨2, ⟨1, 1, [[some 0, some 10]]⟩⟩, by decide +kernel, rfl⟩

/-- The forecast region, point by point. -/
theorem applyModels_ok {M : Type} (forecast : M → Nat → Except PyErr (List (Option K)))
    (models : Grid (Option M)) (n : Nat) (ge : Grid (ErrorVal K)) (hg : ge.WF)
    (hx : ge.xLen = models.xLen) (hy : ge.yLen = models.yLen)
    (hf : ∀ p : Point, p.x < ge.xLen → p.y < ge.yLen →
      ∃ w, forecastAt forecast n models p = .ok w ∧ w.length = n) :
    ∃ g, applyModels forecast models n (.plain ge) = .ok (.plain ⟨n, g⟩) ∧
      (⟨n, g⟩ : Cube (Option K)).WF ∧ g.xLen = ge.xLen ∧ g.yLen = ge.yLen ∧
      ∀ p : Point, p.x < ge.xLen → p.y < ge.yLen → g.get p = forecastAt forecast n models p := by
  obtain ⟨items, h1, h2, h3⟩ := itemsAt_ok ge.get (rowMajor ge.xLen ge.yLen)
    (fun p hp => ge.exists_get hg (mem_rowMajor.1 hp).1 (mem_rowMajor.1 hp).2)
  have hin : ∀ it ∈ items, it.1.x < ge.xLen ∧ it.1.y < ge.yLen := by
    intro it hit
    have : it.1 ∈ items.map Prod.fst := List.mem_map.2 ⟨it, hit, rfl⟩
    rw [h2] at this
    exact mem_rowMajor.1 this
  obtain ⟨g, g1, g2, g3, g4, g5, g6⟩ := applyWith_ok (fun p (_ : ErrorVal K) => forecastAt forecast n models p)
    items (Grid.const ge.xLen ge.yLen (List.replicate n (some 0))) (Grid.const_wf _ _ _)
    (by rw [h2]; exact rowMajor_nodup _ _) hin
    (fun it hit => by
      obtain ⟨w, hw, _⟩ := hf it.1 (hin it hit).1 (hin it hit).2
      exact ⟨w, hw⟩)
  have hget : ∀ p : Point, p.x < ge.xLen → p.y < ge.yLen → g.get p = forecastAt forecast n models p := by
    intro p hpx hpy
    have : p ∈ items.map Prod.fst := by rw [h2]; exact mem_rowMajor.2 ⟨hpx, hpy⟩
    obtain ⟨it, hit, rfl⟩ := List.mem_map.1 this
    exact g5 it hit
  refine ⟨g, ?_, Cube.wf_of_get g4 ?_, g2, g3, hget⟩
  · unfold applyModels
    rw [if_pos ⟨hx, hy⟩]
    simp only [SpStack.items, allPoints_eq, h1, SpStack.data, g1]
  · intro p v hv
    have hr := (Grid.get_eq_ok_iff _ _ _).1 hv
    have hpx : p.x < ge.xLen := by have := hr.1; rw [g2] at this; exact this
    have hpy : p.y < ge.yLen := by have := hr.2.1; rw [g3] at this; exact this
    obtain ⟨w, hw, hl⟩ := hf p hpx hpy
    have e := hget p hpx hpy
    change g.get p = _ at hv
    rw [hv, hw] at e
    cases e; exact hl

/-- A point of the domain inside the prediction region, in the coordinates of the result. -/
theorem slice_get_inside {A : Type} (g : Grid A) (h : g.WF) (r : Region) (p : Point) (hx : p.x < g.xLen)
    (hy : p.y < g.yLen) (h1 : r.x1 ≤ p.x) (h2 : p.x < r.x2) (h3 : r.y1 ≤ p.y) (h4 : p.y < r.y2) :
    (g.slice r).get ⟨p.x - r.x1, p.y - r.y1⟩ = g.get p := by
  rw [Grid.get_slice g h r (by simp only; omega) (by simp only; omega)]
  congr 1
  simp only [Point.mk.injEq]
  obtain ⟨x, y⟩ := p
  simp only at *
  congr 1 <;> omega

theorem forecastAt_ok {M : Type} (forecast : M → Nat → Except PyErr (List (Option K))) (n : Nat)
    (models : Grid (Option M)) (p : Point) (model : Option M) (f : List (Option K))
    (hm : models.get p = .ok model) (hf : forecastOf forecast n model = .ok f) (hl : f.length = n) :
    forecastAt forecast n models p = .ok f := by
  simp only [forecastAt, hm, hf, assignSeries, if_pos hl]

theorem Solver.OK.models {M : Type} {sv : Solver K M} {cube : Cube (Option K)} {ge : Grid (ErrorVal K)}
    (h : sv.OK cube ge) (fl : Int) : (sv.queryModels fl).WF ∧
      (sv.queryModels fl).xLen = cube.grid.xLen ∧ (sv.queryModels fl).yLen = cube.grid.yLen := by
  unfold Solver.queryModels
  split
  · exact h.wholeWF
  · exact h.trainingWF

/-- The forecast of the subregion before descaling. -/
theorem Solver.OK.forecastSub {M : Type} {sv : Solver K M} {cube : Cube (Option K)} {ge : Grid (ErrorVal K)}
    (h : sv.OK cube ge) (forecast : M → Nat → Except PyErr (List (Option K))) (r : Region) (fl : Int)
    (hf : ∀ p m, (sv.queryModels fl).get p = .ok (some m) →
      ∃ w, forecast m (sv.queryLen fl) = .ok w ∧ w.length = sv.queryLen fl) :
    ∃ g, applyModels forecast ((sv.queryModels fl).slice r) (sv.queryLen fl) (.plain (ge.slice r)) =
        .ok (.plain ⟨sv.queryLen fl, g⟩) ∧ (⟨sv.queryLen fl, g⟩ : Cube (Option K)).WF ∧
      g.xLen = min r.x2 cube.grid.xLen - r.x1 ∧ g.yLen = min r.y2 cube.grid.yLen - r.y1 ∧
      ∀ p : Point, p.x < cube.grid.xLen → p.y < cube.grid.yLen → r.x1 ≤ p.x → p.x < r.x2 →
        r.y1 ≤ p.y → p.y < r.y2 → ∃ model f, (sv.queryModels fl).get p = .ok model ∧
          forecastOf forecast (sv.queryLen fl) model = .ok f ∧ f.length = sv.queryLen fl ∧
          g.get ⟨p.x - r.x1, p.y - r.y1⟩ = .ok f := by
  obtain ⟨m1, m2, m3⟩ := h.models fl
  obtain ⟨e1, e2, e3⟩ := h.errorsWF
  have hof : ∀ (p : Point) model, (sv.queryModels fl).get p = .ok model →
      ∃ w, forecastOf forecast (sv.queryLen fl) model = .ok w ∧ w.length = sv.queryLen fl := by
    intro p model hm
    cases model with
    | none => exact ⟨_, rfl, by simp⟩
    | some m => exact hf p m hm
  obtain ⟨g, a1, a2, a3, a4, a5⟩ := applyModels_ok forecast ((sv.queryModels fl).slice r) (sv.queryLen fl)
    (ge.slice r) (Grid.slice_wf e1 r) (by simp [m2, e2]) (by simp [m3, e3]) (by
      intro q hx hy
      simp only [Grid.slice_xLen, Grid.slice_yLen, e2, e3] at hx hy
      have hq := Grid.get_slice _ m1 r (p := q) (by rw [m2]; exact hx) (by rw [m3]; exact hy)
      obtain ⟨model, hm⟩ := (sv.queryModels fl).exists_get m1 (p := ⟨r.x1 + q.x, r.y1 + q.y⟩)
        (by rw [m2]; simp only; omega) (by rw [m3]; simp only; omega)
      obtain ⟨w, hw, hl⟩ := hof _ _ hm
      exact ⟨w, forecastAt_ok _ _ _ _ _ _ (by rw [hq]; exact hm) hw hl, hl⟩)
  refine ⟨g, a1, a2, by rw [a3]; simp [e2], by rw [a4]; simp [e3], ?_⟩
  intro p hx hy h1 h2 h3 h4
  obtain ⟨model, hm⟩ := (sv.queryModels fl).exists_get m1 (p := p) (by rw [m2]; exact hx) (by rw [m3]; exact hy)
  obtain ⟨w, hw, hl⟩ := hof _ _ hm
  refine ⟨model, w, hm, hw, hl, ?_⟩
  rw [a5 _ (by simp [e2]; omega) (by simp [e3]; omega)]
  exact forecastAt_ok _ _ _ _ _ _ (by
    rw [slice_get_inside _ m1 r p (by rw [m2]; exact hx) (by rw [m3]; exact hy) h1 h2 h3 h4]
    exact hm) hw hl

/-- **C48** for data that is not scaled: a query succeeds, and whatever prediction region was asked
for, the answer has its shape and each of its points has the forecast of its own model (NaN without a model), its own error, and for
an in-sample query its own last `test_len` samples. -/
theorem C48_predict_plain {M : Type} (sv : Solver K M) (cube : Cube (Option K)) (ge : Grid (ErrorVal K))
    (h : sv.PlainOK cube ge) (forecast : M → Nat → Except PyErr (List (Option K))) (r : Region) (fl : Int)
    (hf : ∀ p m, (sv.queryModels fl).get p = .ok (some m) →
      ∃ w, forecast m (sv.queryLen fl) = .ok w ∧ w.length = sv.queryLen fl) :
    ∃ pr, sv.predict forecast r fl = .ok pr ∧
      pr.forecast.data.grid.xLen = min r.x2 cube.grid.xLen - r.x1 ∧
      pr.forecast.data.grid.yLen = min r.y2 cube.grid.yLen - r.y1 ∧
      ∀ p : Point, p.x < cube.grid.xLen → p.y < cube.grid.yLen → r.x1 ≤ p.x → p.x < r.x2 →
        r.y1 ≤ p.y → p.y < r.y2 →
        ∃ model f, (sv.queryModels fl).get p = .ok model ∧
          (model = none → f = List.replicate (sv.queryLen fl) none) ∧
          (∀ m, model = some m → forecast m (sv.queryLen fl) = .ok f) ∧
          pr.forecast.seriesAt ⟨p.x - r.x1, p.y - r.y1⟩ = .ok f ∧
          pr.errors.valueAt ⟨p.x - r.x1, p.y - r.y1⟩ = ge.get p ∧
          (¬ 0 < fl → ∃ test v b, pr.test = some test ∧ cube.grid.get p = .ok v ∧
            test.seriesAt ⟨p.x - r.x1, p.y - r.y1⟩ = .ok b ∧ b.length = sv.testLen ∧ b <:+ v) := by
  obtain ⟨g, a1, a2, a3, a4, a5⟩ := h.toOK.forecastSub forecast r fl hf
  have hc : (Stack.plain cube).OK := h.cubeWF
  obtain ⟨-, -, k3, -, -, -, -⟩ := C45_split (.plain cube) hc sv.testLen h.test
  have htest : sv.testRegion = .ok (splitLast (.plain cube) sv.testLen).2 := by
    simp only [Solver.testRegion, h.spt, splitLast, Stack.intervalSubset, Stack.hasScaling]
    rfl
  have hsub : (splitLast (.plain cube) sv.testLen).2.regionSubset r =
      .ok (.plain ((splitLast (.plain cube) sv.testLen).2.data.regionSlice r)) := rfl
  have htwf : (splitLast (.plain cube) sv.testLen).2.data.grid.WF :=
    (hc.intervalSubset _).data_wf.1
  have hpr : sv.predict forecast r fl = .ok ⟨.plain ⟨sv.queryLen fl, g⟩,
      if 0 < fl then none else some (.plain ((splitLast (.plain cube) sv.testLen).2.data.regionSlice r)),
      .plain (ge.slice r)⟩ := by
    simp only [Solver.predict, htest, h.errors, SpStack.regionSubset, hsub, Solver.descaleForecast,
      h.scaled]
    by_cases h0 : 0 < fl
    · simp only [if_pos h0]
      simp only [Solver.queryLen, Solver.queryModels, if_pos h0] at a1
      simp only [Solver.queryLen, if_pos h0, a1]
      rfl
    · simp only [if_neg h0]
      simp only [Solver.queryLen, Solver.queryModels, if_neg h0] at a1
      simp only [Solver.queryLen, if_neg h0, a1]
      rfl
  refine ⟨_, hpr, a3, a4, ?_⟩
  intro p hx hy h1 h2 h3 h4
  obtain ⟨model, f, b1, b2, b3, b4⟩ := a5 p hx hy h1 h2 h3 h4
  refine ⟨model, f, b1, ?_, ?_, b4, ?_, ?_⟩
  · rintro rfl; simpa [forecastOf] using b2.symm
  · rintro m rfl; exact b2
  · exact slice_get_inside ge h.errorsWF.1 r p (by rw [h.errorsWF.2.1]; exact hx)
      (by rw [h.errorsWF.2.2]; exact hy) h1 h2 h3 h4
  · intro h0
    simp only [if_neg h0]
    obtain ⟨v, hv⟩ := cube.grid.exists_get h.cubeWF.1 hx hy
    obtain ⟨a, b, _, c2, c3, c4⟩ := k3 p v hv
    refine ⟨_, v, b, rfl, hv, ?_, c4, ⟨a, c3⟩⟩
    rw [← c2]
    exact slice_get_inside _ htwf r p hx hy h1 h2 h3 h4

/-- **C48** for scaled data: as before, but the forecast of the model is descaled with the scaling data
of the point itself, and so are the test samples. -/
theorem C48_predict_scaled {M : Type} (sv : Solver K M) (cube : Cube (Option K))
    (ge : Grid (ErrorVal K)) (gmin gmax : Grid (Option K)) (h : sv.ScaledOK cube ge gmin gmax)
    (forecast : M → Nat → Except PyErr (List (Option K))) (r : Region) (fl : Int)
    (hf : ∀ p m, (sv.queryModels fl).get p = .ok (some m) →
      ∃ w, forecast m (sv.queryLen fl) = .ok w ∧ w.length = sv.queryLen fl) :
    ∃ pr, sv.predict forecast r fl = .ok pr ∧
      pr.forecast.data.grid.xLen = min r.x2 cube.grid.xLen - r.x1 ∧
      pr.forecast.data.grid.yLen = min r.y2 cube.grid.yLen - r.y1 ∧
      ∀ p : Point, p.x < cube.grid.xLen → p.y < cube.grid.yLen → r.x1 ≤ p.x → p.x < r.x2 →
        r.y1 ≤ p.y → p.y < r.y2 →
        ∃ model f lo hi out, (sv.queryModels fl).get p = .ok model ∧
          (model = none → f = List.replicate (sv.queryLen fl) none) ∧
          (∀ m, model = some m → forecast m (sv.queryLen fl) = .ok f) ∧
          gmin.get p = .ok lo ∧ gmax.get p = .ok hi ∧ DescaledWith lo hi f out ∧
          pr.forecast.seriesAt ⟨p.x - r.x1, p.y - r.y1⟩ = .ok out ∧
          pr.errors.valueAt ⟨p.x - r.x1, p.y - r.y1⟩ = ge.get p ∧
          (¬ 0 < fl → ∃ test v b d, pr.test = some test ∧ cube.grid.get p = .ok v ∧
            test.seriesAt ⟨p.x - r.x1, p.y - r.y1⟩ = .ok d ∧ b.length = sv.testLen ∧ b <:+ v ∧
            DescaledWith lo hi b d) := by
  obtain ⟨g, a1, a2, a3, a4, a5⟩ := h.toOK.forecastSub forecast r fl hf
  obtain ⟨mn1, mn2, mn3⟩ := h.minWF
  obtain ⟨mx1, mx2, mx3⟩ := h.maxWF
  have hc : (Stack.scaled (.plain cube) (.plain gmin) (.plain gmax)).OK := by
    refine ⟨h.cubeWF, ⟨mn1, mx1⟩, ?_⟩
    intro p v hv
    obtain ⟨hx, hy⟩ := Stack.seriesAt_range hv
    exact ⟨gmin.exists_get mn1 (by rw [mn2]; exact hx) (by rw [mn3]; exact hy),
      gmax.exists_get mx1 (by rw [mx2]; exact hx) (by rw [mx3]; exact hy)⟩
  obtain ⟨-, -, k3, -, -, -, -⟩ := C45_split _ hc sv.testLen h.test
  -- descaled test region
  have htOK := hc.intervalSubset (sliceInterval cube.tLen ((cube.tLen : Int) - sv.testLen) cube.tLen)
  obtain ⟨gt, t1, t2, t3, t4, t5, -⟩ := descale_scaled_ok
    (inner := .plain (cube.intervalSlice (sliceInterval cube.tLen ((cube.tLen : Int) - sv.testLen) cube.tLen)))
    (smin := .plain gmin) (smax := .plain gmax) htOK
  have hsplit2 : (splitLast (.scaled (.plain cube) (.plain gmin) (.plain gmax)) sv.testLen).2 =
      Stack.scaled (.plain (cube.intervalSlice (sliceInterval cube.tLen ((cube.tLen : Int) - sv.testLen) cube.tLen)))
        (.plain gmin) (.plain gmax) := rfl
  have htest : sv.testRegion = .ok (.plain ⟨(cube.intervalSlice
      (sliceInterval cube.tLen ((cube.tLen : Int) - sv.testLen) cube.tLen)).tLen, gt⟩) := by
    simp only [Solver.testRegion, h.spt, hsplit2, Stack.hasScaling, if_true]
    exact t1
  -- descaled forecast
  have hgx : ∀ p : Point, p.x < g.xLen → p.x < min r.x2 cube.grid.xLen - r.x1 := by
    intro p hp; rw [a3] at hp; exact hp
  have hgy : ∀ p : Point, p.y < g.yLen → p.y < min r.y2 cube.grid.yLen - r.y1 := by
    intro p hp; rw [a4] at hp; exact hp
  have hfOK : (Stack.scaled (.plain ⟨sv.queryLen fl, g⟩) (.plain (gmin.slice r)) (.plain (gmax.slice r))).OK := by
    refine ⟨a2, ⟨Grid.slice_wf mn1 r, Grid.slice_wf mx1 r⟩, ?_⟩
    intro p v hv
    obtain ⟨hx, hy⟩ := Stack.seriesAt_range hv
    have hx := hgx p hx
    have hy := hgy p hy
    exact ⟨(gmin.slice r).exists_get (Grid.slice_wf mn1 r) (by simp [mn2]; omega) (by simp [mn3]; omega),
      (gmax.slice r).exists_get (Grid.slice_wf mx1 r) (by simp [mx2]; omega) (by simp [mx3]; omega)⟩
  obtain ⟨gf, f1, f2, f3, f4, f5, -⟩ := descale_scaled_ok hfOK
  have hdf : sv.descaleForecast r (.plain ⟨sv.queryLen fl, g⟩) = .ok (.plain ⟨sv.queryLen fl, gf⟩) := by
    simp only [Solver.descaleForecast, h.scaled, if_true, h.spt, Stack.regionSubset, SpStack.regionSubset,
      Stack.scaleData]
    exact f1
  have hpr : sv.predict forecast r fl = .ok ⟨.plain ⟨sv.queryLen fl, gf⟩,
      if 0 < fl then none else some (.plain ⟨(cube.intervalSlice
        (sliceInterval cube.tLen ((cube.tLen : Int) - sv.testLen) cube.tLen)).tLen, gt.slice r⟩),
      .plain (ge.slice r)⟩ := by
    simp only [Solver.predict, htest, h.errors, SpStack.regionSubset, Stack.regionSubset,
      Cube.regionSlice]
    by_cases h0 : 0 < fl
    · simp only [if_pos h0]
      simp only [Solver.queryLen, Solver.queryModels, if_pos h0] at a1 hdf
      simp only [Solver.queryLen, if_pos h0, a1, hdf]
    · simp only [if_neg h0]
      simp only [Solver.queryLen, Solver.queryModels, if_neg h0] at a1 hdf
      simp only [Solver.queryLen, if_neg h0, a1, hdf]
  refine ⟨_, hpr, f2.trans a3, f3.trans a4, ?_⟩
  intro p hx hy h1 h2 h3 h4
  obtain ⟨model, f, b1, b2, b3, b4⟩ := a5 p hx hy h1 h2 h3 h4
  obtain ⟨lo, hlo⟩ := gmin.exists_get mn1 (p := p) (by rw [mn2]; exact hx) (by rw [mn3]; exact hy)
  obtain ⟨hi, hhi⟩ := gmax.exists_get mx1 (p := p) (by rw [mx2]; exact hx) (by rw [mx3]; exact hy)
  have hlo' := slice_get_inside gmin mn1 r p (by rw [mn2]; exact hx) (by rw [mn3]; exact hy) h1 h2 h3 h4
  have hhi' := slice_get_inside gmax mx1 r p (by rw [mx2]; exact hx) (by rw [mx3]; exact hy) h1 h2 h3 h4
  refine ⟨model, f, lo, hi, descaleSeries lo hi f, b1, ?_, ?_, hlo, hhi,
    descaledWith_descaleSeries _ _ _, ?_, ?_, ?_⟩
  · rintro rfl; simpa [forecastOf] using b2.symm
  · rintro m rfl; exact b2
  · exact f5 _ f lo hi b4 (hlo'.trans hlo) (hhi'.trans hhi)
  · exact slice_get_inside ge h.errorsWF.1 r p (by rw [h.errorsWF.2.1]; exact hx)
      (by rw [h.errorsWF.2.2]; exact hy) h1 h2 h3 h4
  · intro h0
    simp only [if_neg h0]
    obtain ⟨v, hv⟩ := cube.grid.exists_get h.cubeWF.1 hx hy
    obtain ⟨a, b, _, c2, c3, c4⟩ := k3 p v hv
    refine ⟨_, v, b, descaleSeries lo hi b, rfl, hv, ?_, c4, ⟨a, c3⟩, descaledWith_descaleSeries _ _ _⟩
    have e := slice_get_inside gt t4.1 r p (by rw [t2]; exact hx) (by rw [t3]; exact hy) h1 h2 h3 h4
    change (gt.slice r).get _ = _
    rw [e]
    exact t5 p b lo hi c2 hlo hhi

/-- **C48**: the forecast of a point does not depend on the prediction region. -/
theorem C48_region_independent {M : Type} (sv : Solver K M) (cube : Cube (Option K))
    (ge : Grid (ErrorVal K)) (gmin gmax : Grid (Option K)) (h : sv.PlainOK cube ge ∨ sv.ScaledOK cube ge gmin gmax)
    (forecast : M → Nat → Except PyErr (List (Option K))) (r r' : Region) (fl : Int)
    (hf : ∀ p m, (sv.queryModels fl).get p = .ok (some m) →
      ∃ w, forecast m (sv.queryLen fl) = .ok w ∧ w.length = sv.queryLen fl) :
    ∃ pr pr', sv.predict forecast r fl = .ok pr ∧ sv.predict forecast r' fl = .ok pr' ∧
      ∀ p : Point, p.x < cube.grid.xLen → p.y < cube.grid.yLen →
        r.x1 ≤ p.x → p.x < r.x2 → r.y1 ≤ p.y → p.y < r.y2 →
        r'.x1 ≤ p.x → p.x < r'.x2 → r'.y1 ≤ p.y → p.y < r'.y2 →
        ∃ out, pr.forecast.seriesAt ⟨p.x - r.x1, p.y - r.y1⟩ = .ok out ∧
          pr'.forecast.seriesAt ⟨p.x - r'.x1, p.y - r'.y1⟩ = .ok out := by
  have hsame : ∀ (model : Option M) (f f' : List (Option K)),
      (model = none → f = List.replicate (sv.queryLen fl) none) →
      (∀ m, model = some m → forecast m (sv.queryLen fl) = .ok f) →
      (model = none → f' = List.replicate (sv.queryLen fl) none) →
      (∀ m, model = some m → forecast m (sv.queryLen fl) = .ok f') → f = f' := by
    intro model f f' e1 e2 e3 e4
    cases model with
    | none => rw [e1 rfl, e3 rfl]
    | some m =>
      have := (e2 m rfl).symm.trans (e4 m rfl)
      cases this; rfl
  rcases h with h | h
  · obtain ⟨pr, a1, -, -, a2⟩ := C48_predict_plain sv cube ge h forecast r fl hf
    obtain ⟨pr', b1, -, -, b2⟩ := C48_predict_plain sv cube ge h forecast r' fl hf
    refine ⟨pr, pr', a1, b1, ?_⟩
    intro p hx hy h1 h2 h3 h4 h5 h6 h7 h8
    obtain ⟨model, f, c1, c2, c3, c4, -, -⟩ := a2 p hx hy h1 h2 h3 h4
    obtain ⟨model', f', d1, d2, d3, d4, -, -⟩ := b2 p hx hy h5 h6 h7 h8
    rw [c1] at d1; cases d1
    have := hsame model f f' c2 c3 d2 d3
    subst this
    exact ⟨f, c4, d4⟩
  · obtain ⟨pr, a1, -, -, a2⟩ := C48_predict_scaled sv cube ge gmin gmax h forecast r fl hf
    obtain ⟨pr', b1, -, -, b2⟩ := C48_predict_scaled sv cube ge gmin gmax h forecast r' fl hf
    refine ⟨pr, pr', a1, b1, ?_⟩
    intro p hx hy h1 h2 h3 h4 h5 h6 h7 h8
    obtain ⟨model, f, lo, hi, out, c1, c2, c3, c4, c5, c6, c7, -, -⟩ := a2 p hx hy h1 h2 h3 h4
    obtain ⟨model', f', lo', hi', out', d1, d2, d3, d4, d5, d6, d7, -, -⟩ := b2 p hx hy h5 h6 h7 h8
    rw [c1] at d1; cases d1
    rw [c4] at d4; cases d4
    rw [c5] at d5; cases d5
    have := hsame model f f' c2 c3 d2 d3
    subst this
    have : out = out' := by
      apply List.ext_getElem?
      intro t
      by_cases ht : t < f.length
      · by_cases hn : lo = none ∨ hi = none ∨ f[t]? = some none
        · rw [c6.nan t ht hn, d6.nan t ht hn]
        · push Not at hn
          obtain ⟨a, ha⟩ := Option.ne_none_iff_exists'.1 hn.1
          obtain ⟨b, hb⟩ := Option.ne_none_iff_exists'.1 hn.2.1
          have hx : ∃ x, f[t]? = some (some x) := by
            rw [List.getElem?_eq_getElem ht] at hn ⊢
            cases hft : f[t] with
            | none => rw [hft] at hn; exact absurd rfl hn.2.2
            | some x => exact ⟨x, rfl⟩
          obtain ⟨x, hx⟩ := hx
          rw [c6.value t a b x ha hb hx, d6.value t a b x ha hb hx]
      · rw [List.getElem?_eq_none (by rw [c6.length]; omega),
          List.getElem?_eq_none (by rw [d6.length]; omega)]
    subst this
    exact ⟨out, c7, d7⟩

/-- A scaled 2 by 2 region, prediction for its second row: the constant forecast 1/2 of the models is
descaled with the minimum and maximum of each point. -/
example : ((⟨⟨2, 2, [some (1/2), some 1, none, some (1/2)]⟩, ⟨2, 2, [none, none, some 1, some (1/2)]⟩,
      .plain ⟨2, 2, [some 1, some 2, some 3, some 4]⟩, 1, true,
      .scaled (.plain ⟨2, ⟨2, 2, [[some 0, some 1], [some 0, some 1], [some 1, some 0], [some 0, some 1]]⟩⟩)
        (.plain ⟨2, 2, [some 10, some 20, some 30, some 40]⟩)
        (.plain ⟨2, 2, [some 12, some 24, some 36, some 48]⟩)⟩ : Solver ℚ ℚ).predict
    (fun m n => .ok (List.replicate n (some m))) ⟨1, 2, 0, 2⟩ 3).map (fun pr => pr.forecast) =
    .ok (.plain ⟨3, ⟨1, 2, [[some 36, some 36, some 36], [some 44, some 44, some 44]]⟩⟩) := by
  decide +kernel

end Spta
