import Verif.Spec.ArimaForecast
import Verif.Props.Centroid
import Verif.Props.Catalogue
import Verif.Props.TrainingErrors

/-!
# C131: ARIMA forecasts for a whole region
-/

namespace Spta

variable {K A M V : Type} [Field K] [LinearOrder K] [IsStrictOrderedRing K] {lib : ArimaLib K A M}
  {forecast : M → Nat → Except PyErr (List (Option K))}

theorem CreatedRegion.exists_series {scaled : Bool} {s : Stack K} (h : CreatedRegion scaled s) {p : Point}
    (hx : p.x < s.data.grid.xLen) (hy : p.y < s.data.grid.yLen) : ∃ v, s.seriesAt p = .ok v := by
  obtain ⟨v, hv⟩ := s.data.grid.exists_get h.ok.1.data_wf.1 hx hy
  exact ⟨v, by rw [h.seriesAt, hv]⟩

/-- The analysis of a region. -/
theorem analyseRegion_ok {md : RegionMeta} {s : Stack K} (h : ForecastSetup md s) {o : PDQ}
    (hlib : ∀ v, Expected (lib.fit o v))
    (hf : ∀ v m, pdqModel lib o v = some m → ∃ w, forecast m 8 = .ok w ∧ w.length = 8)
    (junk : Option K) {root : K → K} (hroot : IsRoot root) {centroid : Option Point}
    (hc : ∀ p, centroid = some p → p.x < s.data.grid.xLen ∧ p.y < s.data.grid.yLen) :
    ∃ e, analyseRegion root lib forecast junk s centroid o = .ok e ∧
      RegionReport forecast maseFun s 8 (pdqModel lib o) centroid e := by
  have hok := h.created.ok.1
  obtain ⟨ct, co, e1, e2, hct, hco, htx, hty, hox, hoy, hlt, hlo, hsplit⟩ :=
    splitLast_new hok defaultForecastLen h.enough
  have ht := pdqTrains (s := s) o hlib
  have hnew := hok.new hct htx hty
  obtain ⟨r, r1, r2, ⟨r3, r4, r5⟩, -⟩ := arimaApply_ok lib false (pdqTrainer lib (some o) s.data.grid.xLen s.data.grid.yLen)
    hnew (by rw [Stack.data_new, htx]; exact h.x) (by rw [Stack.data_new, hty]; exact h.y) ht.params.1
    (by rw [Stack.data_new, htx]; exact ht.params.2.1) (by rw [Stack.data_new, hty]; exact ht.params.2.2)
    (fun _ v => pdqModel lib o v) (fun p v q _ hq => ht.train p q v hq)
  have hpast : ∀ p v, s.seriesAt p = .ok v → ∃ past, PastOf s 8 p past := by
    intro p v hv
    obtain ⟨a, b, rfl, hl, -⟩ := split_series hok h.enough hv
    exact ⟨a, b, hv, hl⟩
  have hmodel : ∀ p past, PastOf s 8 p past → r.models.get p = .ok ((pdqModel lib o past).map .model) := by
    rintro p past ⟨b, hu, hb⟩
    refine (r2.inside p past ?_).1
    rw [Stack.seriesAt_new_eq _ hu]
    exact (hsplit p _ past b hu rfl hb).1
  have hin : AnalysisInput s
      (fun tr => (arimaApply lib false (pdqTrainer lib (some o) s.data.grid.xLen s.data.grid.yLen) tr).map (·.models))
      (cellForecast forecast) defaultForecastLen r.models "MASE" maseFun := {
    ok := hok
    one := h.created.ok.2.1
    fits := h.enough
    train := by rw [e1, r1]; rfl
    modelsWF := r3
    modelsX := by rw [r4, Stack.data_new, htx]
    modelsY := by rw [r5, Stack.data_new, hty]
    forecasts := by
      intro p v c hv hc
      obtain ⟨past, hp⟩ := hpast p v hv
      rw [hmodel p past hp] at hc
      cases hw : pdqModel lib o past with
      | none => rw [hw] at hc; cases hc
      | some mm =>
        rw [hw] at hc
        cases hc
        exact hf _ _ hw
    func := rfl
    mase := fun _ => h.mase }
  obtain ⟨e, own, whole, c1, c2, c3, c4⟩ := C67_analyze_errors hin (Analysis.new K (ArimaCell M)) junk hroot
    centroid (fun p hp => h.created.exists_series (hc p hp).1 (hc p hp).2)
    (forecastsOf forecast (pdqModel lib o) s defaultForecastLen) (by
      intro p v hv
      obtain ⟨past, hp⟩ := hpast p v hv
      exact ⟨_, hmodel p past hp, (forecastsOf_raw hf hp).cell⟩)
  exact ⟨e, c1, _, own, whole, fun p past hp => forecastsOf_raw hf hp, c2, c3, c4⟩

theorem dictSet_new {R : Type} {o : PDQ} {r : R} {l : List (PDQ × R)} (h : o ∉ l.map Prod.fst) :
    dictSet o r l = l ++ [(o, r)] := by
  induction l with
  | nil => rfl
  | cons x l ih =>
    obtain ⟨a, b⟩ := x
    simp only [List.map_cons, List.mem_cons, not_or] at h
    rw [dictSet, if_neg (fun e => h.1 e.symm), ih h.2, List.cons_append]

theorem collectResults_ok {R : Type} (job : PDQ → Except PyErr R) (res : PDQ → R) (orders : List PDQ)
    (h : ∀ o ∈ orders, job o = .ok (res o)) (acc : List (PDQ × R)) (hnd : (acc.map Prod.fst ++ orders).Nodup) :
    collectResults job orders acc = .ok (acc ++ orders.map fun o => (o, res o)) := by
  induction orders generalizing acc with
  | nil => simp [collectResults]
  | cons o rest ih =>
    have hno : o ∉ acc.map Prod.fst := fun hm =>
      (List.nodup_append.1 hnd).2.2 o hm o (List.mem_cons_self ..) rfl
    rw [collectResults, h o (List.mem_cons_self ..)]
    simp only
    rw [dictSet_new hno, ih (fun o' ho' => h o' (List.mem_cons_of_mem _ ho')) _ (by simpa using hnd)]
    simp

theorem collectResults_error {R : Type} (job : PDQ → Except PyErr R) {orders : List PDQ} {o : PDQ} {e : PyErr}
    (ho : o ∈ orders) (h : job o = .error e) (acc : List (PDQ × R)) : ∃ e', collectResults job orders acc = .error e' := by
  induction orders generalizing acc with
  | nil => cases ho
  | cons o' rest ih =>
    rw [collectResults]
    cases hj : job o' with
    | error e' => exact ⟨e', rfl⟩
    | ok r =>
      rcases List.mem_cons.1 ho with rfl | ho
      · rw [h] at hj; cases hj
      · exact ih ho _

section

variable [AddCommMonoid V] [LinearOrder V] [OrderTop V]

theorem CentroidOf.inside {S : Type} {measure : S → S → Option V} {g : Grid S} {p : Point}
    (h : CentroidOf measure g (some p)) : p.x < g.xLen ∧ p.y < g.yLen := by
  obtain ⟨full, h1, h2⟩ := h
  cases full with
  | none => cases h2
  | some x =>
    obtain ⟨c, ds⟩ := x
    cases h2
    obtain ⟨-, s, -, -, -, pre, post, e, -⟩ := h1
    rw [← mem_rowMajor, e]
    simp

attribute [local instance] nanAddZero

variable {create : RegionMeta → Except PyErr (Stack K)} {measure : List (Option K) → List (Option K) → Option V}
  {files : MatrixFiles (Option V)}

/-- The orders of the suites are all different. -/
theorem suite_nodup {suite : Str} {orders : List PDQ} (h : arimaSuiteByName suite = .ok orders) : orders.Nodup := by
  have key : ∀ e ∈ arimaSuites, (arimaParamsGen e.2.1 e.2.2.1 e.2.2.2).Nodup := by decide +kernel
  unfold arimaSuiteByName dictAt at h
  cases hl : arimaSuites.lookup suite with
  | none => rw [hl] at h; cases h
  | some x =>
    rw [hl] at h
    cases h
    obtain ⟨l1, l2, e, -⟩ := List.lookup_eq_some_iff.1 hl
    exact key (suite, x) (by rw [e]; simp)

/-- **C131**: for every region and suite of the catalogues, if the distances of the region were saved, one line
per order is printed, in the order of the suite, with the errors of the models of that order, and with the
centroid of the region for the distances. -/
theorem C131_forecast {region suite : Str} {md : RegionMeta} (hmd : (region, md) ∈ predefinedRegions)
    {orders : List PDQ} (hs : arimaSuiteByName suite = .ok orders) {s : Stack K} (hcreate : create md = .ok s)
    (h : ForecastSetup md s) (hlib : ∀ o ∈ orders, ∀ v, Expected (lib.fit o v))
    (hf : ∀ o ∈ orders, ∀ v m, pdqModel lib o v = some m → ∃ w, forecast m 8 = .ok w ∧ w.length = 8)
    (hself : ∀ p t, s.data.grid.get p = .ok t → measure t t = some 0) {m : Grid (Option V)}
    (hfile : files (distancesPath md) = .matrix m) (hm : HoldsDistances measure s.data.grid m)
    (junk : Option K) {root : K → K} (hroot : IsRoot root) (show2 : ErrorVal K → Str) :
    ∃ centroid, CentroidOf measure s.data.grid centroid ∧ ∃ errors : PDQ → ForecastErrors K,
      (∀ o ∈ orders, RegionReport forecast maseFun s 8 (pdqModel lib o) centroid (errors o)) ∧
      arimaForecast root lib forecast junk show2 create files region suite =
        .ok (orders.map fun o => resultLine show2 o (errors o)) := by
  have hreg : (fun md => (create md).map (·.data.grid)) md = Except.ok s.data.grid := by
    simp only [hcreate]; rfl
  obtain ⟨centroid, d', h1, -, h2⟩ := C129_saved_partial (measure := measure)
    (region := fun md => (create md).map (·.data.grid)) hreg h.fits hself hfile hm (.inl rfl)
  have hin : ∀ p, centroid = some p → p.x < s.data.grid.xLen ∧ p.y < s.data.grid.yLen := by
    rintro p rfl
    exact h2.inside
  have : ∀ o, ∃ e, o ∈ orders → analyseRegion root lib forecast junk s centroid o = .ok e ∧
      RegionReport forecast maseFun s 8 (pdqModel lib o) centroid e := by
    intro o
    by_cases ho : o ∈ orders
    · obtain ⟨e, he⟩ := analyseRegion_ok h (hlib o ho) (hf o ho) junk hroot hin
      exact ⟨e, fun _ => he⟩
    · exact ⟨⟨none, ⊤, none, none, ⊥⟩, fun h => absurd h ho⟩
  choose errors herr using this
  refine ⟨centroid, h2, errors, fun o ho => (herr o ho).2, ?_⟩
  have hat : ∀ e ∈ predefinedRegions, dictAt predefinedRegions e.1 = .ok e.2 := by decide +kernel
  unfold arimaForecast
  rw [hat _ hmd]
  simp only [hcreate]
  rw [(C123_centroid _).1 _ hmd]
  simp only [h1, hs]
  rw [collectResults_ok _ errors orders (fun o ho => (herr o ho).1) [] (by simpa using suite_nodup hs)]
  simp

/-- **C131** (after the distance program): with the distances that any runs of the distance program leave, among
them one for the region. -/
theorem C131_session {regions : List RegionMeta} (hc : GoodCatalogue regions) {region suite : Str} {md : RegionMeta}
    (hin : md ∈ regions) (hmd : (region, md) ∈ predefinedRegions)
    {orders : List PDQ} (hs : arimaSuiteByName suite = .ok orders) {s : Stack K} (hcreate : create md = .ok s)
    (h : ForecastSetup md s) (hlib : ∀ o ∈ orders, ∀ v, Expected (lib.fit o v))
    (hf : ∀ o ∈ orders, ∀ v m, pdqModel lib o v = some m → ∃ w, forecast m 8 = .ok w ∧ w.length = 8)
    (hsym : SymmetricOn measure s.data.grid)
    (hself : ∀ p t, s.data.grid.get p = .ok t → measure t t = some 0)
    {runs : List DistanceRun} (hruns : ∀ run ∈ runs, run.md ∈ regions) {files files' : MatrixFiles (Option V)}
    (hd : DistanceSession measure (fun md => (create md).map (·.data.grid)) runs files files')
    (hrun : ∃ run ∈ runs, run.md = md ∧ ¬ run.workers.getD 0 < 0)
    (junk : Option K) {root : K → K} (hroot : IsRoot root) (show2 : ErrorVal K → Str) :
    ∃ centroid, CentroidOf measure s.data.grid centroid ∧ ∃ errors : PDQ → ForecastErrors K,
      (∀ o ∈ orders, RegionReport forecast maseFun s 8 (pdqModel lib o) centroid (errors o)) ∧
      arimaForecast root lib forecast junk show2 create files' region suite =
        .ok (orders.map fun o => resultLine show2 o (errors o)) := by
  have hreg : (fun md => (create md).map (·.data.grid)) md = Except.ok s.data.grid := by
    simp only [hcreate]; rfl
  obtain ⟨m, h1, h2⟩ := session_kept hc hin hreg h.fits.1 hsym hruns hd (.inl hrun)
  exact C131_forecast hmd hs hcreate h hlib hf hself h1 h2 junk hroot show2

/-- **C131** (without distances): if the distances of the region were not saved, nothing is printed: the program
fails. -/
theorem C131_missing {region suite : Str} {md : RegionMeta} (hmd : (region, md) ∈ predefinedRegions)
    {s : Stack K} (hcreate : create md = .ok s) (h : ForecastSetup md s)
    (hfile : files (distancesPath md) = .unreadable)
    (junk : Option K) (root : K → K) (show2 : ErrorVal K → Str) :
    arimaForecast root lib forecast junk show2 create files region suite = .error .assertionError := by
  have hreg : (fun md => (create md).map (·.data.grid)) md = Except.ok s.data.grid := by
    simp only [hcreate]; rfl
  obtain ⟨e, h1, h2, -⟩ := C129_missing_refuted (files := files)
    (region := fun md => (create md).map (·.data.grid)) hreg h.fits.1 h.x h.y
    (by intro m hm; rw [hfile] at hm; cases hm)
  cases h2 hfile
  have hat : ∀ e ∈ predefinedRegions, dictAt predefinedRegions e.1 = .ok e.2 := by decide +kernel
  unfold arimaForecast
  rw [hat _ hmd]
  simp only [hcreate]
  rw [(C123_centroid _).1 _ hmd]
  simp only [h1]

end

/-- **C131** (a line): the order, then the errors of the models of each point, of the model with the smallest error at
its own point and of the model at the centroid. -/
theorem C131_line {K : Type} [Field K] [LinearOrder K] (show2 : ErrorVal K → Str) (p d q : Int) (e : ForecastErrors K) :
    resultLine show2 ⟨p, d, q⟩ e =
      "ArimaPDQ(p=".toList ++ (intStr p ++ (", d=".toList ++ (intStr d ++ (", q=".toList ++ (intStr q ++
        (") errors -> each=".toList ++ (show2 e.each ++ (", min_local=".toList ++ (show2 e.minLocal ++
          (", centroid=".toList ++ show2 e.centroid)))))))))) := by
  have h : ∀ (a b c t u v w x y z : Str), a ++ w ++ b ++ x ++ c ++ y ++ [')'] ++ t ++ z ++ u ++ v =
      a ++ (w ++ (b ++ (x ++ (c ++ (y ++ (')' :: t ++ (z ++ (u ++ v)))))))) := by simp
  unfold resultLine PDQ.str
  rw [List.append_assoc _ _ (show2 e.centroid), List.append_assoc _ (show2 e.minLocal)]
  exact h _ _ _ _ _ _ _ _ _ _

/-! ### Example -/

/-- The metadata of a region of the catalogue with seven rows and ten columns. -/
def nordeste : RegionMeta := ⟨"nordeste_small".toList, ⟨43, 50, 85, 95⟩, 2015, 2015, 1, false⟩

/-- Series of ten samples that depend on the point. -/
noncomputable def nordesteStack : Stack ℝ :=
  .plain ⟨10, ⟨7, 10, (rowMajor 7 10).map fun p => (List.range 10).map fun t => some ((p.x * t + p.y : Nat) : ℝ)⟩⟩

/-- The distance of the first samples. -/
noncomputable def headDistance (a b : List (Option ℝ)) : Option (WithTop ℝ) :=
  some (WithTop.some |(a.headD none).getD 0 - (b.headD none).getD 0|)

theorem nordeste_setup : ForecastSetup nordeste nordesteStack where
  created := .plain ⟨by simp [Grid.WF, rowMajor_length], by
    intro v hv
    obtain ⟨p, -, rfl⟩ := List.mem_map.1 hv
    simp⟩
  fits := ⟨by simp [nordesteStack, Stack.data, Grid.WF, rowMajor_length], rfl, rfl⟩
  x := (by decide : 0 < 7)
  y := (by decide : 0 < 10)
  enough := (by decide : 8 ≤ 10)
  mase := (by decide : 10 ≠ 9)

attribute [local instance] nanAddZero in
/-- The hypotheses of C131 are met: two orders, after a parallel run of the distance program. Before, the program
fails. -/
example : ∃ files' : MatrixFiles (Option (WithTop ℝ)), ∃ centroid, ∃ errors : PDQ → ForecastErrors ℝ,
    CentroidOf headDistance nordesteStack.data.grid centroid ∧
    (∀ o, o = ⟨2, 0, 1⟩ ∨ o = ⟨2, 0, 2⟩ →
      RegionReport errForecast maseFun nordesteStack 8 (pdqModel (errLib ℝ) o) centroid (errors o)) ∧
    arimaForecast Real.sqrt (errLib ℝ) errForecast none (fun _ => "?".toList) (fun _ => .ok nordesteStack) files'
      "nordeste_small_2015_2015_1spd".toList "arima_two".toList =
      .ok [resultLine (fun _ => "?".toList) ⟨2, 0, 1⟩ (errors ⟨2, 0, 1⟩),
        resultLine (fun _ => "?".toList) ⟨2, 0, 2⟩ (errors ⟨2, 0, 2⟩)] ∧
    arimaForecast (V := WithTop ℝ) Real.sqrt (errLib ℝ) errForecast none (fun _ => "?".toList)
      (fun _ => .ok nordesteStack) (fun _ => .unreadable)
      "nordeste_small_2015_2015_1spd".toList "arima_two".toList = .error .assertionError := by
  have hmem : ("nordeste_small_2015_2015_1spd".toList, nordeste) ∈ predefinedRegions := by decide +kernel
  have hsuite : arimaSuiteByName "arima_two".toList = .ok [⟨2, 0, 1⟩, ⟨2, 0, 2⟩] := by decide +kernel
  have hok : ∀ (md : RegionMeta) (g : Grid (List (Option ℝ))),
      (fun _ => (Except.ok nordesteStack : Except PyErr (Stack ℝ)).map (·.data.grid)) md = Except.ok g → g.WF := by
    intro md g h
    cases h
    exact nordeste_setup.fits.1
  obtain ⟨files', hd⟩ := C121_session (measure := headDistance) hok [⟨nordeste, some 4⟩] (fun _ => .unreadable)
  obtain ⟨centroid, h1, errors, h2, h3⟩ := C131_session (create := fun _ => .ok nordesteStack) (lib := errLib ℝ)
    (forecast := errForecast) (measure := headDistance) (regions := [nordeste])
    (by unfold GoodCatalogue; decide +kernel) (List.mem_cons_self ..)
    hmem hsuite rfl nordeste_setup (fun o _ => errLib_fit o) (fun o _ v m _ => ⟨_, rfl, by simp⟩)
    (fun p q s t _ _ => by simp only [headDistance, abs_sub_comm])
    (fun p t _ => by simp [headDistance]) (by simp) hd ⟨_, List.mem_cons_self .., rfl, by decide⟩ none isRoot_sqrt
    (fun _ => "?".toList)
  refine ⟨files', centroid, errors, h1, fun o ho => h2 o (by simpa using ho), h3, ?_⟩
  exact C131_missing hmem rfl nordeste_setup rfl none _ _

/-- A printed line. -/
example : resultLine (K := ℚ) (fun e => if e = none then "nan".toList else if e = some 0 then "0.00".toList else
      "0.25".toList) ⟨2, 0, 1⟩ ⟨some ((1 / 4 : ℚ) : WithTop ℚ), ⊤, some 0, none, ⊥⟩ =
    "ArimaPDQ(p=2, d=0, q=1) errors -> each=0.25, min_local=0.00, centroid=nan".toList := by decide +kernel

end Spta
