import Verif.Lemmas.Classifier

/-!
# The solver that uses a classifier (C80, C81, C82) and its classifier (C83)
-/

set_option linter.unusedSectionVars false

namespace Spta

variable {K M P : Type} [Field K] [LinearOrder K] [IsStrictOrderedRing K]

/-! ### C80 -/

theorem ClassifierEnv.Fits.errorType {env : ClassifierEnv K M P} {spt : Stack K} {f : ErrorFun K}
    (h : env.Fits spt f) : '/' ∉ env.errorType := by
  have e : env.errorType = (String.ofList env.errorType).toList := by simp
  rcases getErrorFunc_cases h.func with ⟨a, -⟩ | ⟨a, -⟩ | ⟨a, -⟩ <;> rw [e, a] <;> decide

theorem classifier_result {env : ClassifierEnv K M P} {spt : Stack K} {f : ErrorFun K}
    (h : env.Fits spt f) {r : Region} (hr : r.Inside spt) {models : Grid (Option M)} (hm : models.WF)
    (hmx : models.xLen = r.x2 - r.x1) (hmy : models.yLen = r.y2 - r.y1)
    (hf : ∀ p m, models.get p = .ok (some m) →
      ∃ w, env.forecast m env.testLen = .ok w ∧ w.length = env.testLen) (labels : List (Point × Str)) :
    ∃ pr, env.result spt r models labels = .ok pr ∧ pr.labels = labels ∧
      pr.forecast.data.grid.xLen = r.x2 - r.x1 ∧ pr.forecast.data.grid.yLen = r.y2 - r.y1 ∧
      ∀ p : Point, p.x < r.x2 - r.x1 → p.y < r.y2 - r.y1 →
        ∀ m raw u train future wf wo wt, models.get p = .ok m →
          RawForecast env.forecast env.testLen m raw → spt.seriesAt (r.shift p) = .ok u →
          u = train ++ future → future.length = env.testLen → InUnits spt (r.shift p) raw wf →
          InUnits spt (r.shift p) future wo → InUnits spt (r.shift p) train wt →
          pr.forecast.seriesAt p = .ok wf ∧ pr.test.seriesAt p = .ok wo ∧
            pr.errors.valueAt p = f wf wo (some wt) := by
  obtain ⟨sub, b1, b2, b3, b4, b5, b6⟩ := h.created.subset hr
  obtain ⟨o1, o2, o3⟩ := b2.ok
  have hin : AnalysisInput sub (fun _ => .ok models) env.forecast env.testLen models
      (String.ofList env.errorType) f :=
    ⟨o1, o2, by rw [b3]; exact h.testLen, rfl, hm, by rw [hmx, b4], by rw [hmy, b5],
      fun p v m _ hp => hf p m hp, h.func, by rw [b3]; exact h.mase⟩
  obtain ⟨ct, co, g, ge, e1, e2, hct, hco, htx, hty, hox, hoy, hlt, hlo, hsplit, g1, g2, g3, g4, g5, m1, m2,
    m3, m4, m5⟩ := hin.facts env.junk
  have hfe : (((Analysis.new K M).trainModels (fun _ => .ok models) sub env.testLen).2.forecastAtEach
      env.forecast env.junk env.testLen (String.ofList env.errorType)).1 =
      .ok (sub.new ⟨env.testLen, g⟩, sub.newSpatial ge) := by
    unfold Analysis.trainModels Analysis.forecastAtEach Analysis.check
    simp only [h.func, if_true]
    rw [e1, e2]
    simp only [g1, m1]
  have hpoint : ∀ p : Point, p.x < r.x2 - r.x1 → p.y < r.y2 - r.y1 →
        ∀ m raw u train future wf wo wt, models.get p = .ok m →
          RawForecast env.forecast env.testLen m raw → spt.seriesAt (r.shift p) = .ok u →
          u = train ++ future → future.length = env.testLen → InUnits spt (r.shift p) raw wf →
          InUnits spt (r.shift p) future wo → InUnits spt (r.shift p) train wt →
          g.get p = .ok raw ∧ InUnits sub p raw wf ∧ co.grid.get p = .ok future ∧
          InUnits sub p future wo ∧ (sub.newSpatial ge).valueAt p = f wf wo (some wt) := by
    intro p h1 h2 m raw u train future wf wo wt hmod hraw hu e hl uf uo ut
    obtain ⟨c1, c2⟩ := b6 p h1 h2
    rw [← c1] at hu
    rw [← c2] at uf uo ut
    have hg := g5 p u m raw hu hmod hraw
    obtain ⟨s1, s2⟩ := hsplit p u train future hu e hl
    refine ⟨hg, uf, s2, uo, ?_⟩
    rw [Stack.valueAt_newSpatial _ hu]
    exact m5 p u future train raw wo wt wf hu s2 s1 hg uo ut uf
  have hser : ∀ (c : Cube (Option K)) (p : Point) v, env.md.scaled = false → c.grid.get p = .ok v →
      (sub.new c).seriesAt p = .ok v := by
    intro c p v hs hv
    rw [hs] at b2
    cases b2; exact hv
  have hunits : ∀ (p : Point) v w, env.md.scaled = false → InUnits sub p v w → v = w := by
    intro p v w hs hu
    rw [hs] at b2
    cases b2; cases hu; rfl
  unfold ClassifierEnv.result
  simp only [b1, hfe]
  cases hsc : env.md.scaled with
  | false =>
    simp only [Bool.false_eq_true, if_false]
    refine ⟨_, rfl, rfl, ?_, ?_, ?_⟩
    · simp only [Stack.data_new, g3, b4]
    · simp only [Stack.data_new, g4, b5]
    intro p h1 h2 m raw u train future wf wo wt hmod hraw hu e hl uf uo ut
    obtain ⟨d1, d2, d3, d4, d5⟩ := hpoint p h1 h2 m raw u train future wf wo wt hmod hraw hu e hl uf uo ut
    have := hunits p raw wf hsc d2
    subst this
    have := hunits p future wo hsc d4
    subst this
    exact ⟨hser _ p raw hsc d1, by rw [e2]; exact hser _ p future hsc d3, d5⟩
  | true =>
    rw [hsc] at b2
    obtain ⟨df, f1, f2, f3, f4, f5⟩ := descaleSubregion_ok b2 g2 g3 g4
    obtain ⟨dt, t1, t2, t3, t4, t5⟩ := descaleSubregion_ok b2 hco hox hoy
    simp only [if_true, f1, e2, t1]
    refine ⟨_, rfl, rfl, ?_, ?_, ?_⟩
    · simp only [f2, g3, b4]
    · simp only [f3, g4, b5]
    intro p h1 h2 m raw u train future wf wo wt hmod hraw hu e hl uf uo ut
    obtain ⟨d1, d2, d3, d4, d5⟩ := hpoint p h1 h2 m raw u train future wf wo wt hmod hraw hu e hl uf uo ut
    exact ⟨f5 p raw wf d1 d2, t5 p future wo d3 d4, d5⟩

/-- The labels when every point of the prediction region has one. -/
theorem classifierLabels_ok {b : Bool} {target : Stack K} (h : CreatedRegion b target) {r : Region}
    (hr : r.Inside target) {tp : Nat} (htp : tp ≤ target.data.tLen)
    {classify : List (Option K) → Except PyErr Str} {label : Point → Str}
    (hl : ∀ p : Point, p.x < r.x2 - r.x1 → p.y < r.y2 - r.y1 → ∀ v past recent,
      target.seriesAt (r.shift p) = .ok v → v = past ++ recent → recent.length = tp →
      classify recent = .ok (label p)) :
    classifierLabels classify target r tp =
      .ok ((rowMajor (r.x2 - r.x1) (r.y2 - r.y1)).map fun p => (p, label p)) := by
  obtain ⟨items, i1, i2, i3⟩ := h.items hr ⟨target.data.tLen - tp, target.data.tLen⟩
  unfold classifierLabels
  simp only [classifier_interval _ _ htp, i1]
  have hm := mapM_ok (labelItem classify) (fun it => (it.1, label it.1)) items (by
    intro it hit
    have hp : it.1 ∈ items.map Prod.fst := List.mem_map.2 ⟨it, hit, rfl⟩
    rw [i2] at hp
    obtain ⟨v, v1, v2⟩ := i3 it hit
    have hlen := Stack.seriesAt_length h.ok.1 v1
    have hw : it.2 = v.drop (target.data.tLen - tp) := by
      rw [v2, sliceSeries, List.take_of_length_le (by simp only; omega)]
    have := hl it.1 (mem_rowMajor.1 hp).1 (mem_rowMajor.1 hp).2 v (v.take (target.data.tLen - tp)) it.2 v1
      (by rw [hw, List.take_append_drop]) (by rw [hw, List.length_drop]; omega)
    simp only [labelItem, this])
  rw [hm, ← i2, List.map_map]
  rfl

/-- **C80** in a ready state. -/
theorem C80_predict {env : ClassifierEnv K M P} {files : SolverStore K M P}
    {classify : List (Option K) → Except PyErr Str} {spt target : Stack K} {st : ClassifierState K M P}
    (hst : st.Ready env files classify spt target) {f : ErrorFun K} (hfit : env.Fits spt f)
    (hname : '/' ∉ env.md.name) {b : Bool} (htarget : CreatedRegion b target) {r : Region}
    (hr : r.Inside spt) (hr' : r.Inside target) {tp : Nat} (htp : tp ≤ target.data.tLen)
    (hlabels : ∀ p, r.Has p → ∀ v past recent, target.seriesAt p = .ok v → v = past ++ recent →
      recent.length = tp → ∃ label model, classify recent = .ok label ∧ LabelModel env files label model ∧
        ∀ m, model = some m → ∃ w, env.forecast m env.testLen = .ok w ∧ w.length = env.testLen)
    (oos : Option RegionMeta) :
    ∃ pr st', env.predict r tp oos st = (.ok pr, st') ∧ st'.Ready env files classify spt target ∧
      pr.forecast.data.grid.xLen = r.x2 - r.x1 ∧ pr.forecast.data.grid.yLen = r.y2 - r.y1 ∧
      ∀ p, r.Has p → ∃ label model forecast test,
        AnswerAt env files classify spt target f r tp pr p label model forecast test := by
  classical
  -- the last samples, the label and the model of each point
  have hpoint : ∀ q : Point, ∃ (label : Str) (model : Option M),
      q.x < r.x2 - r.x1 → q.y < r.y2 - r.y1 →
      (∀ v past recent, target.seriesAt (r.shift q) = .ok v → v = past ++ recent → recent.length = tp →
        classify recent = .ok label) ∧ LabelModel env files label model ∧
      ∀ m, model = some m → ∃ w, env.forecast m env.testLen = .ok w ∧ w.length = env.testLen := by
    intro q
    by_cases hq : q.x < r.x2 - r.x1 ∧ q.y < r.y2 - r.y1
    · have := hr'.xLen
      have := hr'.yLen
      obtain ⟨v, hv⟩ := target.data.grid.exists_get htarget.ok.1.data_wf.1 (p := r.shift q)
        (by simp only [Region.shift]; omega) (by simp only [Region.shift]; omega)
      have hv' : target.seriesAt (r.shift q) = .ok v := by rw [htarget.seriesAt, hv]
      have hlen := Stack.seriesAt_length htarget.ok.1 hv'
      obtain ⟨label, model, l1, l2, l3⟩ := hlabels (r.shift q) (by
        simp only [Region.Has, Region.shift]; omega) v (v.take (target.data.tLen - tp))
        (v.drop (target.data.tLen - tp)) hv' (List.take_append_drop _ _).symm
        (by rw [List.length_drop]; omega)
      refine ⟨label, model, fun _ _ => ⟨?_, l2, l3⟩⟩
      intro v' past recent hv2 e hl
      rw [hv'] at hv2
      cases hv2
      have : recent = v.drop (target.data.tLen - tp) := by
        have := congrArg List.length e
        rw [List.length_append] at this
        rw [e, show target.data.tLen - tp = past.length by omega, List.drop_left]
      rw [this]; exact l1
    · exact ⟨[], none, fun h1 h2 => absurd ⟨h1, h2⟩ hq⟩
  choose label model hpt using hpoint
  have hlab := classifierLabels_ok htarget hr' htp (classify := classify) (label := label)
    (fun p h1 h2 => (hpt p h1 h2).1)
  have hmem : ∀ it ∈ (rowMajor (r.x2 - r.x1) (r.y2 - r.y1)).map (fun p => (p, label p)),
      LabelModel env files it.2 (model it.1) := by
    intro it hit
    obtain ⟨p, hp, rfl⟩ := List.mem_map.1 hit
    exact (hpt p (mem_rowMajor.1 hp).1 (mem_rowMajor.1 hp).2).2.1
  obtain ⟨q1, q2⟩ := ClassifierState.Ready.modelsFor hname hfit.errorType _ hst model hmem
  -- the region of models
  obtain ⟨g, g1, g2, g3, g4, g5, g6⟩ := applyWith_ok (fun (_ : Point) (m : Option M) => .ok m)
    ((rowMajor (r.x2 - r.x1) (r.y2 - r.y1)).map fun p => (p, model p))
    (Grid.const (r.x2 - r.x1) (r.y2 - r.y1) none) (Grid.const_wf _ _ _)
    (by
      rw [List.map_map]
      exact (List.map_id _).symm ▸ rowMajor_nodup _ _)
    (by
      intro it hit
      obtain ⟨p, hp, rfl⟩ := List.mem_map.1 hit
      exact mem_rowMajor.1 hp)
    (fun it _ => ⟨it.2, rfl⟩)
  have hget : ∀ p : Point, p.x < r.x2 - r.x1 → p.y < r.y2 - r.y1 → g.get p = .ok (model p) := by
    intro p h1 h2
    exact g5 (p, model p) (List.mem_map.2 ⟨p, mem_rowMajor.2 ⟨h1, h2⟩, rfl⟩)
  obtain ⟨pr, p1, p2, px, py, p3⟩ := classifier_result hfit hr g4 g2 g3 (by
    intro p m hm
    have hin := (Grid.get_eq_ok_iff _ _ _).1 hm
    have hx : p.x < r.x2 - r.x1 := by have := hin.1; rw [g2] at this; exact this
    have hy : p.y < r.y2 - r.y1 := by have := hin.2.1; rw [g3] at this; exact this
    rw [hget p hx hy] at hm
    exact (hpt p hx hy).2.2 m (Except.ok.inj hm))
    ((rowMajor (r.x2 - r.x1) (r.y2 - r.y1)).map fun p => (p, label p))
  refine ⟨pr, (env.modelsFor ((rowMajor (r.x2 - r.x1) (r.y2 - r.y1)).map fun p => (p, label p)) st).2,
    ?_, q2, px, py, ?_⟩
  · unfold ClassifierEnv.predict
    rw [hst.classifier]
    simp only
    unfold ClassifierEnv.predictPrepared
    rw [hst.classifier, hst.regions]
    simp only [hlab]
    rw [List.map_map] at q1
    generalize env.modelsFor ((rowMajor (r.x2 - r.x1) (r.y2 - r.y1)).map fun p => (p, label p)) st = w
      at q1 ⊢
    obtain ⟨w1, w2⟩ := w
    simp only at q1
    subst q1
    have hb : buildModels r (((rowMajor (r.x2 - r.x1) (r.y2 - r.y1)).map
        ((fun it : Point × Str => (it.1, model it.1)) ∘ fun p => (p, label p)))) = .ok g := by
      unfold buildModels
      rw [if_pos ⟨hr.x, hr.y⟩]
      exact g1
    simp only [hb, p1]
  · intro p hp
    obtain ⟨h1, h2, h3, h4⟩ := hp
    have := hr.xLen
    have := hr.yLen
    have hx : (⟨p.x - r.x1, p.y - r.y1⟩ : Point).x < r.x2 - r.x1 := by simp only; omega
    have hy : (⟨p.x - r.x1, p.y - r.y1⟩ : Point).y < r.y2 - r.y1 := by simp only; omega
    have hsh : r.shift ⟨p.x - r.x1, p.y - r.y1⟩ = p := by
      obtain ⟨x, y⟩ := p
      simp only [Region.shift, Point.mk.injEq] at *
      omega
    obtain ⟨a1, a2, a3⟩ := hpt _ hx hy
    have a4 := p3 _ hx hy
    rw [hsh] at a1 a4
    obtain ⟨u, hu⟩ := spt.data.grid.exists_get hfit.created.ok.1.data_wf.1 (p := p) (by omega) (by omega)
    have hu' : spt.seriesAt p = .ok u := by rw [hfit.created.seriesAt, hu]
    have hul := Stack.seriesAt_length hfit.created.ok.1 hu'
    have htl := hfit.testLen
    have hraw : ∃ raw, RawForecast env.forecast env.testLen (model ⟨p.x - r.x1, p.y - r.y1⟩) raw := by
      cases hmo : model ⟨p.x - r.x1, p.y - r.y1⟩ with
      | none => exact ⟨_, .missing⟩
      | some m =>
        obtain ⟨w, w1, w2⟩ := a3 m hmo
        exact ⟨w, .model w1⟩
    obtain ⟨raw, hraw⟩ := hraw
    obtain ⟨wf, uf⟩ := InUnits.exists hfit.created.ok.1 hu' raw
    obtain ⟨wo, uo⟩ := InUnits.exists hfit.created.ok.1 hu' (u.drop (spt.data.tLen - env.testLen))
    obtain ⟨wt, ut⟩ := InUnits.exists hfit.created.ok.1 hu' (u.take (spt.data.tLen - env.testLen))
    have hall := fun train future wt => a4 (model ⟨p.x - r.x1, p.y - r.y1⟩) raw u train future wf wo wt
      (hget _ hx hy) hraw hu'
    have hfut : ∀ u' train future, spt.seriesAt p = .ok u' → u' = train ++ future →
        future.length = env.testLen → u' = u ∧ future = u.drop (spt.data.tLen - env.testLen) := by
      intro u' train future hv e hl
      rw [hu'] at hv
      cases hv
      refine ⟨rfl, ?_⟩
      have := congrArg List.length e
      rw [List.length_append] at this
      rw [e, show spt.data.tLen - env.testLen = train.length by omega, List.drop_left]
    obtain ⟨b1, b2, b3⟩ := hall _ _ wt (List.take_append_drop _ _).symm
      (by rw [List.length_drop]; omega) uf uo ut
    refine ⟨label ⟨p.x - r.x1, p.y - r.y1⟩, model ⟨p.x - r.x1, p.y - r.y1⟩, wf, wo, a1, ?_, a2,
      ⟨raw, hraw, uf⟩, b1, ?_, b2, ?_, ?_⟩
    · rw [p2]
      exact dictGet_map label (mem_rowMajor.2 ⟨hx, hy⟩)
    · intro u' train future hv e hl
      obtain ⟨-, rfl⟩ := hfut u' train future hv e hl
      exact uo
    · intro u' train future wt' hv e hl ut'
      obtain ⟨rfl, rfl⟩ := hfut u' train future hv e hl
      exact (hall train _ wt' e hl uf uo ut').2.2
    · rw [b3]
      have hrl : raw.length = env.testLen := by
        revert hraw a3
        generalize model ⟨p.x - r.x1, p.y - r.y1⟩ = mo
        intro a3 hraw
        cases hraw with
        | missing => exact List.length_replicate
        | model hw =>
          obtain ⟨w, w1, w2⟩ := a3 _ rfl
          rw [hw] at w1
          cases w1
          exact w2
      refine errorFun_ok hfit.func ?_ ?_
      · rw [uf.length, uo.length, hrl, List.length_drop]; omega
      · intro hmase
        have := hfit.mase hmase
        rw [ut.length, List.length_take]; omega

/-- The first call. -/
theorem predict_new {env : ClassifierEnv K M P} {oos : Option RegionMeta}
    {classify : List (Option K) → Except PyErr Str} {spt target : Stack K}
    (h : env.Opens oos classify spt target) (files : SolverStore K M P) :
    ∃ st, st.Ready env files classify spt target ∧ ∀ r tp oos',
      env.predict r tp oos (ClassifierState.new files) = env.predict r tp oos' st := by
  refine ⟨⟨some classify, some (spt, target), [], files⟩, ⟨rfl, rfl, fun _ _ => rfl, by simp⟩, ?_⟩
  intro r tp oos'
  have hp : env.prepare oos (ClassifierState.new files) =
      (.ok (), ⟨some classify, some (spt, target), [], files⟩) := by
    unfold ClassifierEnv.prepare
    rw [h.classifier, h.own]
    cases oos with
    | none => rw [h.same rfl]; rfl
    | some md => simp only [h.other md rfl]; rfl
  rw [ClassifierEnv.predict]
  simp only [ClassifierState.new] at hp ⊢
  rw [hp]
  rfl

/-- **C80** for the first call: the labels come from the region that the call names. -/
theorem C80_first {env : ClassifierEnv K M P} {files : SolverStore K M P} {oos : Option RegionMeta}
    {classify : List (Option K) → Except PyErr Str} {spt target : Stack K}
    (hopen : env.Opens oos classify spt target) {f : ErrorFun K} (hfit : env.Fits spt f)
    (hname : '/' ∉ env.md.name) {b : Bool} (htarget : CreatedRegion b target) {r : Region}
    (hr : r.Inside spt) (hr' : r.Inside target) {tp : Nat} (htp : tp ≤ target.data.tLen)
    (hlabels : ∀ p, r.Has p → ∀ v past recent, target.seriesAt p = .ok v → v = past ++ recent →
      recent.length = tp → ∃ label model, classify recent = .ok label ∧ LabelModel env files label model ∧
        ∀ m, model = some m → ∃ w, env.forecast m env.testLen = .ok w ∧ w.length = env.testLen) :
    ∃ pr st', env.predict r tp oos (ClassifierState.new files) = (.ok pr, st') ∧
      st'.Ready env files classify spt target ∧
      pr.forecast.data.grid.xLen = r.x2 - r.x1 ∧ pr.forecast.data.grid.yLen = r.y2 - r.y1 ∧
      ∀ p, r.Has p → ∃ label model forecast test,
        AnswerAt env files classify spt target f r tp pr p label model forecast test := by
  obtain ⟨st, h1, h2⟩ := predict_new hopen files
  obtain ⟨pr, st', h3, h4⟩ := C80_predict h1 hfit hname htarget hr hr' htp hlabels none
  exact ⟨pr, st', by rw [h2 r tp none, h3], h4⟩

/-- **C80**, the other direction: a label with a cluster index beyond the medoids of its solver is
rejected. -/
theorem C80_index_rejected {env : ClassifierEnv K M P} {files : SolverStore K M P}
    {classify : List (Option K) → Except PyErr Str} {spt target : Stack K} {st : ClassifierState K M P}
    (hst : st.Ready env files classify spt target) (h1 : '/' ∉ env.md.name) (h2 : '/' ∉ env.errorType)
    {k seed i : Nat} {s : SolverData K M P} {medoids : List Point}
    (hs : (loadSolver env.compute (env.km k seed) files).1 = .ok s)
    (hm : env.medoidsOf s.part = some medoids) (hi : medoids.length ≤ i) :
    (env.modelFor (labelStr k seed i) st).1 = .error .indexError := by
  rw [(hst.modelFor h1 h2 k seed i).1, hs]
  unfold ClassifierEnv.modelAt
  simp only [labelStr_split]
  simp [listAt, pyInt_natStr, hm, listAtInt, hi]

/-- A label without exactly three parts is rejected. -/
theorem C80_label_rejected (env : ClassifierEnv K M P) (st : ClassifierState K M P) {label : Str}
    (h : (pySplit '-' label).length ≠ 3) : env.modelFor label st = (.error .assertionError, st) := by
  have : fromClassifierLabel label sLite = .error .assertionError := by
    unfold fromClassifierLabel
    split
    · rename_i e; rw [e] at h; exact absurd rfl h
    · rfl
  rw [ClassifierEnv.modelFor, this]

/-! ### C81 -/

theorem classifierLabels_canonical {classify : List (Option K) → Except PyErr Str}
    (hcanon : ∀ v l, classify v = .ok l → ∃ k seed i, l = labelStr k seed i) {target : Stack K}
    {r : Region} {tp : Nat} {labels : List (Point × Str)}
    (h : classifierLabels classify target r tp = .ok labels) :
    ∀ it ∈ labels, ∃ k seed i, it.2 = labelStr k seed i := by
  unfold classifierLabels at h
  simp only at h
  split at h
  · cases h
  · rename_i items _
    intro it hit
    have hf := mapM_eq_ok.1 h
    obtain ⟨n, hn, e⟩ := List.getElem_of_mem hit
    have hn' : n < items.length := by rw [hf.length_eq]; exact hn
    have := List.Forall₂.get hf hn' hn
    simp only [List.get_eq_getElem, e] at this
    unfold labelItem at this
    split at this
    · cases this
    · rename_i l hl
      obtain ⟨k, seed, i, e'⟩ := hcanon _ _ hl
      exact ⟨k, seed, i, by rw [← Except.ok.inj this]; exact e'⟩

/-- In ready states the answer depends on the saved files only. -/
theorem predict_ready {env : ClassifierEnv K M P} {files : SolverStore K M P}
    {classify : List (Option K) → Except PyErr Str} {spt target : Stack K}
    {st st' : ClassifierState K M P} (h : st.Ready env files classify spt target)
    (h' : st'.Ready env files classify spt target)
    (hcanon : ∀ v l, classify v = .ok l → ∃ k seed i, l = labelStr k seed i)
    (h1 : '/' ∉ env.md.name) (h2 : '/' ∉ env.errorType) (r : Region) (tp : Nat)
    (oos oos' : Option RegionMeta) :
    (env.predict r tp oos st).1 = (env.predict r tp oos' st').1 ∧
      (env.predict r tp oos st).2.Ready env files classify spt target := by
  unfold ClassifierEnv.predict
  rw [h.classifier, h'.classifier]
  simp only
  unfold ClassifierEnv.predictPrepared
  rw [h.classifier, h'.classifier, h.regions, h'.regions]
  simp only
  cases hl : classifierLabels classify target r tp with
  | error e => exact ⟨rfl, h⟩
  | ok labels =>
    obtain ⟨a, b⟩ := ClassifierState.Ready.modelsFor_same h1 h2 labels h h'
      (classifierLabels_canonical hcanon hl)
    simp only
    generalize env.modelsFor labels st = w at a b ⊢
    generalize env.modelsFor labels st' = w' at a ⊢
    obtain ⟨w1, w2⟩ := w
    obtain ⟨w1', w2'⟩ := w'
    simp only at a b
    subst a
    cases w1 with
    | error e => exact ⟨rfl, b⟩
    | ok models =>
      simp only
      cases buildModels r models with
      | error e => exact ⟨rfl, b⟩
      | ok g => exact ⟨rfl, b⟩

/-- **C81** (partial: the claim is that each answer is the one for the out-of-sample region that its call
names). After any history of queries, an answer is the one that a new solver would give for the
out-of-sample region of the *first* call, whatever the later calls name. In particular queries that all
name the same region do not influence each other. -/
theorem C81_history_partial {env : ClassifierEnv K M P} {files : SolverStore K M P}
    {q₀ : ClassifierQuery} {classify : List (Option K) → Except PyErr Str} {spt target : Stack K}
    (hopen : env.Opens q₀.outOfSample classify spt target)
    (hcanon : ∀ v l, classify v = .ok l → ∃ k seed i, l = labelStr k seed i)
    (h1 : '/' ∉ env.md.name) (h2 : '/' ∉ env.errorType) (qs : List ClassifierQuery)
    (q : ClassifierQuery) :
    (env.ask q (env.after (q₀ :: qs) (ClassifierState.new files))).1 =
      (env.ask ⟨q.region, q.tp, q₀.outOfSample⟩ (ClassifierState.new files)).1 := by
  obtain ⟨st, a, b⟩ := predict_new hopen files
  have hrun : ∀ (qs : List ClassifierQuery) (st' : ClassifierState K M P),
      st'.Ready env files classify spt target → (env.after qs st').Ready env files classify spt target := by
    intro qs
    induction qs with
    | nil => exact fun _ h => h
    | cons q qs ih =>
      intro st' h
      exact ih _ (predict_ready h h hcanon h1 h2 q.region q.tp q.outOfSample none).2
  have hfirst : (env.ask q₀ (ClassifierState.new files)).2.Ready env files classify spt target := by
    unfold ClassifierEnv.ask
    rw [b q₀.region q₀.tp none]
    exact (predict_ready a a hcanon h1 h2 _ _ _ none).2
  have hall := hrun qs _ hfirst
  have e : env.after (q₀ :: qs) (ClassifierState.new files) =
      env.after qs (env.ask q₀ (ClassifierState.new files)).2 := rfl
  rw [e]
  show (env.predict q.region q.tp q.outOfSample _).1 = (env.predict q.region q.tp q₀.outOfSample _).1
  rw [b q.region q.tp none]
  exact (predict_ready hall a hcanon h1 h2 _ _ _ _).1

/-- After a failed preparation every later call fails, even if the regions could be created by then
(`env'` may differ from `env` in every respect). -/
theorem C81_failed_prepare {env : ClassifierEnv K M P} {files : SolverStore K M P}
    {classify : List (Option K) → Except PyErr Str} {e : PyErr} (hc : env.classifier = .ok classify)
    {q₀ : ClassifierQuery}
    (hfail : env.createInst env.md = .error e ∨ ∃ md spt, q₀.outOfSample = some md ∧
      env.createInst env.md = .ok spt ∧ env.createInst md = .error e) :
    (env.ask q₀ (ClassifierState.new files)).1 = .error e ∧
    ∀ (env' : ClassifierEnv K M P) (qs : List ClassifierQuery) (q : ClassifierQuery),
      (env'.ask q (env'.after qs (env.ask q₀ (ClassifierState.new files)).2)).1 = .error .attributeError := by
  have key : env.ask q₀ (ClassifierState.new files) = (.error e, ⟨some classify, none, [], files⟩) := by
    have hp : env.prepare q₀.outOfSample (ClassifierState.new files) =
        (.error e, ⟨some classify, none, [], files⟩) := by
      unfold ClassifierEnv.prepare
      rcases hfail with h | ⟨md, spt, h1, h2, h3⟩
      · rw [hc, h]; rfl
      · simp only [hc, h2, h1, h3]; rfl
    rw [ClassifierEnv.ask, ClassifierEnv.predict]
    simp only [ClassifierState.new] at hp ⊢
    rw [hp]
  rw [key]
  refine ⟨rfl, ?_⟩
  intro env' qs q
  have hstep : ∀ q : ClassifierQuery, env'.ask q ⟨some classify, none, [], files⟩ =
      (.error .attributeError, ⟨some classify, none, [], files⟩) := fun q => rfl
  have hrun : ∀ qs : List ClassifierQuery, env'.after qs ⟨some classify, none, [], files⟩ =
      ⟨some classify, none, [], files⟩ := by
    intro qs
    induction qs with
    | nil => rfl
    | cons q qs ih =>
      show env'.after qs (env'.ask q _).2 = _
      rw [hstep]; exact ih
  rw [hrun, hstep]

/-! ### C82 -/

/-- **C82** (partial: the claim is that the classifier gets the last `tp` samples of every point). The
classifier gets the last samples of every point, `tp` of them if the series is long enough; otherwise
the start of the interval is negative and it gets `tp - n` samples (at most all `n`). -/
theorem C82_given_partial {b : Bool} {target : Stack K} (h : CreatedRegion b target) {r : Region}
    (hr : r.Inside target) (tp : Nat) (classify : List (Option K) → Except PyErr Str) :
    ∃ items : List (Point × List (Option K)),
      classifierLabels classify target r tp = items.mapM (labelItem classify) ∧
      items.map Prod.fst = rowMajor (r.x2 - r.x1) (r.y2 - r.y1) ∧
      ∀ it ∈ items, ∃ v, target.seriesAt ⟨r.x1 + it.1.x, r.y1 + it.1.y⟩ = .ok v ∧ it.2 <:+ v ∧
        it.2.length = givenSamples target.data.tLen tp := by
  obtain ⟨items, i1, i2, i3⟩ := h.items hr (sliceInterval target.data.tLen
    ((target.data.tLen : Int) - tp) target.data.tLen)
  refine ⟨items, by unfold classifierLabels; simp only [i1], i2, ?_⟩
  intro it hit
  obtain ⟨v, v1, v2⟩ := i3 it hit
  have hlen := Stack.seriesAt_length h.ok.1 v1
  refine ⟨v, v1, ?_⟩
  by_cases htp : tp ≤ target.data.tLen
  · rw [classifier_interval _ _ htp] at v2
    rw [v2, sliceSeries, List.take_of_length_le (by simp only; omega)]
    refine ⟨List.drop_suffix _ _, ?_⟩
    rw [List.length_drop, givenSamples, if_pos htp]
    simp only; omega
  · rw [classifier_interval_long _ _ (by omega)] at v2
    rw [v2, sliceSeries, List.take_of_length_le (by simp only; omega)]
    refine ⟨List.drop_suffix _ _, ?_⟩
    rw [List.length_drop, givenSamples, if_neg htp]
    simp only; omega

/-- **C82**: with the network of the code, labels exist only if this number of samples is the window of
the network. -/
theorem C82_window {b : Bool} {target : Stack K} (h : CreatedRegion b target) {r : Region}
    (hr : r.Inside target) (hx : r.x1 < r.x2) (hy : r.y1 < r.y2) {tp window : Nat}
    {network : List K → List K} {labels : List Str} {out : List (Point × Str)}
    (hl : classifierLabels (dnnLabel window network labels) target r tp = .ok out) :
    givenSamples target.data.tLen tp = window ∧ 0 < window := by
  obtain ⟨items, i1, i2, i3⟩ := C82_given_partial h hr tp (dnnLabel window network labels)
  rw [i1] at hl
  have hne : items ≠ [] := by
    rintro rfl
    have : (rowMajor (r.x2 - r.x1) (r.y2 - r.y1)).length = 0 := by rw [← i2]; rfl
    rw [rowMajor_length] at this
    have := Nat.mul_pos (show 0 < r.x2 - r.x1 by omega) (show 0 < r.y2 - r.y1 by omega)
    omega
  obtain ⟨it, rest, rfl⟩ := List.exists_cons_of_ne_nil hne
  obtain ⟨v, -, -, v3⟩ := i3 it (List.mem_cons_self ..)
  by_contra hcon
  have : dnnLabel window network labels it.2 = .error .valueError := by
    unfold dnnLabel
    rw [v3, if_neg hcon]
  rw [List.mapM_cons, labelItem, this] at hl
  cases hl

/-! ### C83 -/

theorem abs_eq_ite (x : K) : (if x < 0 then -x else x) = |x| := by
  split
  · rename_i h; exact (abs_of_neg h).symm
  · rename_i h; exact (abs_of_nonneg (not_lt.1 h)).symm

theorem l1Normalize_eq (xs : List K) : l1Normalize xs =
    xs.map (· / (if (xs.map fun x => |x|).sum = 0 then 1 else (xs.map fun x => |x|).sum)) := by
  simp only [l1Normalize, abs_eq_ite]

theorem abs_sum_nonneg (xs : List K) : 0 ≤ (xs.map fun x => |x|).sum := by
  apply List.sum_nonneg
  intro a ha
  obtain ⟨x, -, rfl⟩ := List.mem_map.1 ha
  exact abs_nonneg x

theorem abs_sum_zero : ∀ {xs : List K}, (xs.map fun x => |x|).sum = 0 → ∀ x ∈ xs, x = 0
  | [], _, x, hx => by cases hx
  | y :: ys, h, x, hx => by
    rw [List.map_cons, List.sum_cons] at h
    have h1 := abs_nonneg y
    have h2 := abs_sum_nonneg ys
    rcases List.mem_cons.1 hx with rfl | hx
    · exact abs_eq_zero.1 (by linarith)
    · exact abs_sum_zero (by linarith) x hx

/-- The input of the network. -/
theorem l1Normalize_spec (xs : List K) : L1Normalized xs (l1Normalize xs) := by
  rw [l1Normalize_eq]
  have h0 := abs_sum_nonneg xs
  by_cases h : (xs.map fun x => |x|).sum = 0
  · rw [if_pos h]
    exact ⟨⟨1, one_pos, by simp⟩, .inr (abs_sum_zero h)⟩
  · rw [if_neg h]
    have hp : 0 < (xs.map fun x => |x|).sum := lt_of_le_of_ne h0 (Ne.symm h)
    refine ⟨⟨_, hp, ?_⟩, .inl ?_⟩
    · rw [List.map_map]
      conv_lhs => rw [← List.map_id xs]
      apply List.map_congr_left
      intro x _
      simp only [id, Function.comp]
      field_simp
    · rw [List.map_map]
      have : (xs.map ((fun y => |y|) ∘ fun x => x / (xs.map fun x => |x|).sum)) =
          (xs.map fun x => |x|).map (· / (xs.map fun x => |x|).sum) := by
        rw [List.map_map]
        apply List.map_congr_left
        intro x _
        simp only [Function.comp, abs_div, abs_of_pos hp]
      rw [this, sum_map_div_const, div_self h]

theorem l1Normalize_scale {c : K} (hc : 0 < c) (xs : List K) :
    l1Normalize (xs.map (c * ·)) = l1Normalize xs := by
  rw [l1Normalize_eq, l1Normalize_eq]
  have e : ((xs.map (c * ·)).map fun x => |x|).sum = c * (xs.map fun x => |x|).sum := by
    rw [List.map_map, ← List.sum_map_mul_left]
    congr 1
    apply List.map_congr_left
    intro x _
    simp only [Function.comp, abs_mul, abs_of_pos hc]
  rw [e, List.map_map]
  apply List.map_congr_left
  intro x hx
  simp only [Function.comp]
  by_cases h : (xs.map fun x => |x|).sum = 0
  · rw [abs_sum_zero h x hx, h]; simp
  · have : c * (xs.map fun x => |x|).sum ≠ 0 := mul_ne_zero hc.ne' h
    rw [if_neg this, if_neg h, mul_div_mul_left _ _ hc.ne']

theorem finiteSeries_ok {s : List (Option K)} {xs : List K} :
    finiteSeries s = .ok xs ↔ s = xs.map some := by
  induction s generalizing xs with
  | nil => cases xs <;> simp [finiteSeries]
  | cons a s ih =>
    cases a with
    | none => cases xs <;> simp [finiteSeries]
    | some x =>
      rw [finiteSeries]
      cases h : finiteSeries s with
      | error e =>
        cases xs with
        | nil => simp
        | cons y ys =>
          simp only [List.map_cons, List.cons.injEq, Option.some.injEq, false_iff, reduceCtorEq]
          rintro ⟨-, e2⟩
          have := ih.2 e2
          rw [h] at this; cases this
      | ok zs =>
        have hz := ih.1 h
        cases xs with
        | nil => simp
        | cons y ys =>
          simp only [Except.ok.injEq, List.cons.injEq, List.map_cons, Option.some.injEq]
          constructor
          · rintro ⟨rfl, rfl⟩; exact ⟨rfl, hz⟩
          · rintro ⟨rfl, e2⟩
            refine ⟨rfl, ?_⟩
            have := ih.2 e2
            rw [h] at this; exact Except.ok.inj this

theorem finiteSeries_error {s : List (Option K)} {e : PyErr} (h : finiteSeries s = .error e) :
    e = .valueError ∧ none ∈ s := by
  induction s with
  | nil => cases h
  | cons a s ih =>
    cases a with
    | none => cases h; exact ⟨rfl, List.mem_cons_self ..⟩
    | some x =>
      rw [finiteSeries] at h
      cases hs : finiteSeries s with
      | error e' =>
        rw [hs] at h
        cases h
        exact ⟨(ih hs).1, List.mem_cons_of_mem _ (ih hs).2⟩
      | ok zs => rw [hs] at h; cases h

theorem finiteSeries_scale (c : K) (s : List (Option K)) :
    finiteSeries (s.map (Option.map (c * ·))) = (finiteSeries s).map (List.map (c * ·)) := by
  induction s with
  | nil => rfl
  | cons a s ih =>
    cases a with
    | none => rfl
    | some x =>
      simp only [List.map_cons, Option.map_some, finiteSeries, ih]
      cases finiteSeries s <;> rfl

theorem argmax_fold (rest : List K) : ∀ (pre : List K) (i : Nat) (hi : i < pre.length),
    (∀ j (hj : j < pre.length), pre[j] ≤ pre[i]) → (∀ j (hj : j < i), pre[j] < pre[i]) →
    FirstLargest (pre ++ rest) ((rest.foldl (fun (acc : Nat × Nat × K) x =>
      if acc.2.2 < x then (acc.1 + 1, acc.1, x) else (acc.1 + 1, acc.2.1, acc.2.2))
        (pre.length, i, pre[i])).2.1) := by
  induction rest with
  | nil =>
    intro pre i hi h1 h2
    simp only [List.append_nil, List.foldl_nil]
    exact ⟨hi, h1, h2⟩
  | cons x rest ih =>
    intro pre i hi h1 h2
    rw [List.foldl_cons]
    have e : pre ++ x :: rest = (pre ++ [x]) ++ rest := by simp
    rw [e]
    by_cases hx : pre[i] < x
    · simp only [hx, if_true]
      have := ih (pre ++ [x]) pre.length (by simp) (by
        intro j hj
        rw [List.getElem_concat_length rfl]
        rcases Nat.lt_or_ge j pre.length with hj' | hj'
        · rw [List.getElem_append_left hj']
          exact (lt_of_le_of_lt (h1 j hj') hx).le
        · have : j = pre.length := by simp at hj; omega
          subst this
          rw [List.getElem_concat_length rfl]) (by
        intro j hj
        rw [List.getElem_concat_length rfl, List.getElem_append_left hj]
        exact lt_of_le_of_lt (h1 j hj) hx)
      rw [List.getElem_concat_length rfl, List.length_append] at this
      exact this
    · simp only [hx, if_false]
      have := ih (pre ++ [x]) i (by simp; omega) (by
        intro j hj
        rw [List.getElem_append_left hi]
        rcases Nat.lt_or_ge j pre.length with hj' | hj'
        · rw [List.getElem_append_left hj']
          exact h1 j hj'
        · have : j = pre.length := by simp at hj; omega
          subst this
          rw [List.getElem_concat_length rfl]
          exact not_lt.1 hx) (by
        intro j hj
        rw [List.getElem_append_left hi, List.getElem_append_left (by omega)]
        exact h2 j hj)
      rw [List.getElem_append_left hi, List.length_append] at this
      exact this

theorem argmaxList_spec {l : List K} {i : Nat} (h : argmaxList l = .ok i) : FirstLargest l i := by
  cases l with
  | nil => cases h
  | cons a l =>
    have := argmax_fold l [a] 0 (by simp) (by simp) (by simp)
    simp only [List.length_singleton, List.getElem_cons_zero] at this
    rw [argmaxList] at h
    rw [← Except.ok.inj h]
    exact this

/-- **C83**: whenever the classifier gives a label, the series has as many samples as the window of the
network, none of them NaN; the network got these samples normalised, and the label is the one in the row of
the first largest output. -/
theorem C83_label {window : Nat} {network : List K → List K} {labels : List Str}
    {series : List (Option K)} {label : Str} (h : dnnLabel window network labels series = .ok label) :
    ∃ (xs ys : List K) (i : Nat), series = xs.map some ∧ xs.length = window ∧ L1Normalized xs ys ∧
      FirstLargest (network ys) i ∧ labels[i]? = some label := by
  unfold dnnLabel at h
  split at h
  · rename_i hl
    split at h
    · cases h
    · rename_i xs hx
      split at h
      · cases h
      · rename_i i hi
        have hs := finiteSeries_ok.1 hx
        refine ⟨xs, l1Normalize xs, i, hs, ?_, l1Normalize_spec xs, argmaxList_spec hi, ?_⟩
        · rw [← hl.1, hs, List.length_map]
        · unfold listAt at h
          split at h
          · rename_i a ha; rw [ha, Except.ok.inj h]
          · cases h
  · cases h

/-- **C83**: a series of the right length without NaN gets a label, if the network has an output for each
row of the table of labels (and there is one). -/
theorem C83_total {window : Nat} {network : List K → List K} {labels : List Str}
    (hw : 0 < window) (hl : labels ≠ []) (hn : ∀ ys, ys.length = window → (network ys).length = labels.length)
    {xs : List K} (hx : xs.length = window) :
    ∃ label, dnnLabel window network labels (xs.map some) = .ok label := by
  unfold dnnLabel
  rw [if_pos ⟨by rw [List.length_map, hx], hw⟩, finiteSeries_ok.2 rfl]
  simp only
  have hlen := hn (l1Normalize xs) (by rw [l1Normalize, List.length_map, hx])
  cases ho : argmaxList (network (l1Normalize xs)) with
  | error e =>
    cases hc : network (l1Normalize xs) with
    | nil => rw [hc] at hlen; exact absurd (List.length_eq_zero_iff.1 hlen.symm) hl
    | cons a l => rw [hc, argmaxList] at ho; cases ho
  | ok i =>
    have := (argmaxList_spec ho).lt
    rw [hlen] at this
    exact ⟨labels[i], by simp [listAt, this]⟩

/-- **C83**: the label of a series of numbers does not change if all its samples are multiplied by the same
positive number (and neither does the exception, for other series). -/
theorem C83_scale_invariant (window : Nat) (network : List K → List K) (labels : List Str)
    (series : List (Option K)) {c : K} (hc : 0 < c) :
    dnnLabel window network labels (series.map (Option.map (c * ·))) =
      dnnLabel window network labels series := by
  unfold dnnLabel
  rw [List.length_map, finiteSeries_scale]
  cases finiteSeries series with
  | error e => rfl
  | ok xs => simp only [Except.map, l1Normalize_scale hc]

/-- **C83**: other series are rejected. -/
theorem C83_rejected (window : Nat) (network : List K → List K) (labels : List Str)
    (series : List (Option K)) (h : series.length ≠ window ∨ none ∈ series) :
    dnnLabel window network labels series = .error .valueError := by
  unfold dnnLabel
  by_cases hl : series.length = window ∧ 0 < window
  · rw [if_pos hl]
    have hn : none ∈ series := h.resolve_left (fun e => e hl.1)
    cases hf : finiteSeries series with
    | error e => rw [(finiteSeries_error hf).1]
    | ok xs =>
      rw [finiteSeries_ok.1 hf] at hn
      simp at hn
  · rw [if_neg hl]

/-! ### Examples -/

/-- Two points; the out-of-sample region (name `b`) has other values. Models are constants. -/
def exampleEnv : ClassifierEnv ℚ ℚ (List Point) where
  md := ⟨['a'], ⟨0, 1, 0, 2⟩, 2014, 2015, 1, false⟩
  dist := .dtw
  params := .mean 2
  testLen := 1
  errorType := ['M', 'S', 'E']
  createInst md := if md.name = ['a']
    then .ok (.plain ⟨3, ⟨1, 2, [[some 1, some 2, some 3], [some 5, some 5, some 6]]⟩⟩)
    else .ok (.plain ⟨3, ⟨1, 2, [[some 7, some 8, some 9], [some 1, some 1, some 0]]⟩⟩)
  classifier := .ok fun s => if s.map (fun v => v.getD 0) |>.foldl (· + ·) 0 |> (6 < ·)
    then .ok (labelStr 2 0 1) else .ok (labelStr 2 0 0)
  compute _ := .ok [⟨0, 0⟩, ⟨0, 1⟩]
  medoidsOf p := some p
  forecast m n := .ok (List.replicate n (some m))
  junk := none

/-- The files after saving the solver for `k = 2` and seed 0. -/
def exampleFiles : SolverStore ℚ ℚ (List Point) :=
  saveSolver (exampleEnv.km 2 0)
    ⟨⟨1, 2, [some 10, some 20]⟩, ⟨1, 2, [none, none]⟩, .plain ⟨1, 2, [none, none]⟩, [⟨0, 0⟩, ⟨0, 1⟩]⟩
    fun _ => none

def exampleOther : RegionMeta := ⟨['b'], ⟨0, 1, 0, 2⟩, 2014, 2015, 1, false⟩

def ClassifierPrediction.forecasts (pr : ClassifierPrediction ℚ) : List (Except PyErr (List (Option ℚ))) :=
  (rowMajor pr.forecast.data.grid.xLen pr.forecast.data.grid.yLen).map pr.forecast.seriesAt

theorem exampleFiles_load : (loadSolver exampleEnv.compute (exampleEnv.km 2 0) exampleFiles).1 =
    .ok ⟨⟨1, 2, [some 10, some 20]⟩, ⟨1, 2, [none, none]⟩, .plain ⟨1, 2, [none, none]⟩, [⟨0, 0⟩, ⟨0, 1⟩]⟩ := by
  have h := exampleEnv.km_good (by decide) (by decide) 2 0
  unfold exampleFiles
  exact C77_save_load h _ _ rfl

theorem exampleEnv_opens : exampleEnv.Opens (some exampleOther)
    (fun s => if s.map (fun v => v.getD 0) |>.foldl (· + ·) 0 |> (6 < ·)
      then .ok (labelStr 2 0 1) else .ok (labelStr 2 0 0))
    (.plain ⟨3, ⟨1, 2, [[some 1, some 2, some 3], [some 5, some 5, some 6]]⟩⟩)
    (.plain ⟨3, ⟨1, 2, [[some 7, some 8, some 9], [some 1, some 1, some 0]]⟩⟩) :=
  ⟨rfl, rfl, (fun h => by cases h), (fun md h => by cases h; rfl)⟩

/-- The hypotheses of C80 hold for it. -/
example : ∃ pr st', exampleEnv.predict ⟨0, 1, 0, 2⟩ 2 (some exampleOther)
      (ClassifierState.new exampleFiles) = (.ok pr, st') ∧
    ∀ p, Region.Has ⟨0, 1, 0, 2⟩ p → ∃ label model forecast test, AnswerAt exampleEnv exampleFiles
      (fun s => if s.map (fun v => v.getD 0) |>.foldl (· + ·) 0 |> (6 < ·)
        then .ok (labelStr 2 0 1) else .ok (labelStr 2 0 0))
      (.plain ⟨3, ⟨1, 2, [[some 1, some 2, some 3], [some 5, some 5, some 6]]⟩⟩)
      (.plain ⟨3, ⟨1, 2, [[some 7, some 8, some 9], [some 1, some 1, some 0]]⟩⟩) mseFun
      ⟨0, 1, 0, 2⟩ 2 pr p label model forecast test := by
  obtain ⟨pr, st', h1, -, -, -, h2⟩ := C80_first (files := exampleFiles) exampleEnv_opens (f := mseFun)
    ⟨.plain (by decide), by decide, rfl, fun h => absurd h (by decide)⟩ (by decide)
    (b := false) (.plain (by decide)) (r := ⟨0, 1, 0, 2⟩) ⟨by decide, by decide, by decide, by decide⟩
    ⟨by decide, by decide, by decide, by decide⟩ (tp := 2) (by decide) (by
      intro p _ v past recent _ _ _
      have hf : ∀ m : ℚ, ∃ w, exampleEnv.forecast m exampleEnv.testLen = .ok w ∧
          w.length = exampleEnv.testLen := fun m => ⟨_, rfl, rfl⟩
      simp only
      split
      · exact ⟨labelStr 2 0 1, some 20, rfl, ⟨2, 0, 1, _, _, ⟨0, 1⟩, rfl, exampleFiles_load, rfl, rfl, rfl⟩,
          fun m _ => hf m⟩
      · exact ⟨labelStr 2 0 0, some 10, rfl, ⟨2, 0, 0, _, _, ⟨0, 0⟩, rfl, exampleFiles_load, rfl, rfl, rfl⟩,
          fun m _ => hf m⟩)
  exact ⟨pr, st', h1, h2⟩

/-- The labels and forecasts of the first call, for both regions. -/
example : (exampleEnv.ask ⟨⟨0, 1, 0, 2⟩, 2, none⟩ (ClassifierState.new exampleFiles)).1.map
      (fun pr => (pr.labels.map Prod.snd, pr.forecasts)) =
      .ok ([labelStr 2 0 0, labelStr 2 0 1], [.ok [some 10], .ok [some 20]]) ∧
    (exampleEnv.ask ⟨⟨0, 1, 0, 2⟩, 2, some exampleOther⟩ (ClassifierState.new exampleFiles)).1.map
      (fun pr => (pr.labels.map Prod.snd, pr.forecasts)) =
      .ok ([labelStr 2 0 1, labelStr 2 0 0], [.ok [some 20], .ok [some 10]]) := by
  constructor <;> decide +kernel

/-- **C81** is false as stated: the region named by the second call is ignored. -/
theorem C81_region_refuted : ∃ (env : ClassifierEnv ℚ ℚ (List Point)) (files : SolverStore ℚ ℚ (List Point))
    (q₀ q : ClassifierQuery), (env.ask q₀ (ClassifierState.new files)).1.isOk ∧
    (env.ask q (env.after [q₀] (ClassifierState.new files))).1.isOk ∧
    (env.ask q (env.after [q₀] (ClassifierState.new files))).1 ≠ (env.ask q (ClassifierState.new files)).1 := by
  refine ⟨exampleEnv, exampleFiles, ⟨⟨0, 1, 0, 2⟩, 2, none⟩, ⟨⟨0, 1, 0, 2⟩, 2, some exampleOther⟩,
    by decide +kernel, by decide +kernel, ?_⟩
  intro h
  have := congrArg (fun e => e.map fun pr : ClassifierPrediction ℚ => pr.forecasts) h
  exact absurd this (by decide +kernel)

/-- The hypotheses of `C81_history_partial` hold for it. -/
example (qs : List ClassifierQuery) (q : ClassifierQuery) :
    (exampleEnv.ask q (exampleEnv.after (⟨⟨0, 1, 0, 2⟩, 2, some exampleOther⟩ :: qs)
      (ClassifierState.new exampleFiles))).1 =
      (exampleEnv.ask ⟨q.region, q.tp, some exampleOther⟩ (ClassifierState.new exampleFiles)).1 :=
  C81_history_partial (q₀ := ⟨⟨0, 1, 0, 2⟩, 2, some exampleOther⟩) exampleEnv_opens (by
    intro v l h
    simp only at h
    split at h
    · exact ⟨2, 0, 1, (Except.ok.inj h).symm⟩
    · exact ⟨2, 0, 0, (Except.ok.inj h).symm⟩) (by decide) (by decide) qs q

/-- The hypotheses of `C81_failed_prepare` hold if a region does not exist. -/
example : { exampleEnv with createInst := fun _ => .error .ioError : ClassifierEnv ℚ ℚ (List Point) }.ask
    ⟨⟨0, 1, 0, 2⟩, 2, none⟩ (ClassifierState.new exampleFiles) |>.1.isOk = false := by
  rw [(C81_failed_prepare (e := .ioError) (q₀ := ⟨⟨0, 1, 0, 2⟩, 2, none⟩) rfl (.inl rfl)).1]; rfl

/-- **C82** is false as stated: with three samples and `tp = 4`, the network gets the last one only, and
if its window has length one, this goes unnoticed. -/
theorem C82_refuted : ∃ (target : Stack ℚ) (r : Region) (network : List ℚ → List ℚ) (labels : List Str),
    CreatedRegion false target ∧ r.Inside target ∧ target.data.tLen = 3 ∧
    classifierLabels (dnnLabel 1 network labels) target r 4 = .ok [(⟨0, 0⟩, labelStr 2 0 1)] := by
  refine ⟨.plain ⟨3, ⟨1, 1, [[some 1, some 2, some 3]]⟩⟩, ⟨0, 1, 0, 1⟩, fun _ => [0, 1],
    [labelStr 2 0 0, labelStr 2 0 1], .plain (by decide), ⟨by decide, by decide, by decide, by decide⟩, rfl, ?_⟩
  decide +kernel

/-- The hypotheses of C82 hold with the right window. -/
example : classifierLabels (K := ℚ) (dnnLabel 2 (fun ys => ys) [labelStr 2 0 0, labelStr 2 0 1])
    (.plain ⟨3, ⟨1, 2, [[some 1, some 2, some 3], [some 5, some 5, some (-6)]]⟩⟩) ⟨0, 1, 0, 2⟩ 2 =
    .ok [(⟨0, 0⟩, labelStr 2 0 1), (⟨0, 1⟩, labelStr 2 0 0)] ∧
    givenSamples 3 2 = 2 := by
  constructor <;> decide +kernel

/-- Scaled by 10 a series has the same label, but not necessarily shifted by 10. -/
example : dnnLabel (K := ℚ) 2 (fun ys => ys.map (fun y => y + 1 / 3) ++ [1]) [['a'], ['b'], ['c']] [some 1, some 3] = .ok ['b'] ∧
    dnnLabel (K := ℚ) 2 (fun ys => ys.map (fun y => y + 1 / 3) ++ [1]) [['a'], ['b'], ['c']] [some 10, some 30] = .ok ['b'] ∧
    dnnLabel (K := ℚ) 2 (fun ys => ys.map (fun y => y + 1 / 3) ++ [1]) [['a'], ['b'], ['c']] [some 11, some 13] = .ok ['c'] := by
  refine ⟨?_, ?_, ?_⟩ <;> decide +kernel

/-- The hypotheses of `C83_total` hold. -/
example : ∃ label, dnnLabel (K := ℚ) 2 (fun ys => ys) [['a'], ['b']] [some 1, some 3] = .ok label :=
  C83_total (K := ℚ) (window := 2) (labels := [['a'], ['b']]) (xs := [1, 3]) (by decide) (by decide)
    (fun _ h => h) rfl

end Spta
