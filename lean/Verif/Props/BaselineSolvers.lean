import Verif.Model.BaselineSolvers
import Verif.Spec.BaselineSolvers
import Verif.Props.SolverSession
import Verif.Props.SolverTrain
import Verif.Props.Train
import Verif.Props.Cost

/-!
# C150: what the baseline solvers answer
-/

set_option linter.unusedSectionVars false

namespace Spta

variable {K : Type} [Field K] [LinearOrder K] [IsStrictOrderedRing K] {P Q M V : Type}
variable {w : SolverWorld K P Q M} {measure : List (Option K) → List (Option K) → V}
  {argpartition : List V → Nat → List Nat} {regions : List RegionMeta}

theorem pySlice_past {A : Type} (past : Int) (v : List A) : pySlice v (-past) v.length = pastSamples past v := by
  have hb : pyBound v.length (v.length : Int) = v.length := by simp [pyBound]
  unfold pySlice pastSamples
  rw [hb, List.take_length]
  by_cases h : 0 < past
  · rw [if_pos h, pyBound, if_pos (by omega)]
    congr 1
    omega
  · rw [if_neg h, pyBound, if_neg (by omega)]
    by_cases hl : (-past).toNat ≤ v.length
    · rw [Nat.min_eq_left hl]
    · rw [Nat.min_eq_right (by omega), List.drop_length, List.drop_of_length_le (by omega)]

theorem pastSamples_map {A B : Type} (f : A → B) (past : Int) (v : List A) :
    pastSamples past (v.map f) = (pastSamples past v).map f := by
  unfold pastSamples
  rw [List.length_map]
  split_ifs <;> rw [List.map_drop]

theorem floatMean_isMean (v : List K) : IsMean v (floatMean (v.map some)) := by
  by_cases h : v = []
  · subst h
    exact .inl ⟨rfl, by simp [floatMean, floatSum, floatDiv]⟩
  · refine .inr ⟨h, _, floatMean_some h, div_mul_cancel₀ _ ?_⟩
    have := List.length_pos_iff.2 h
    exact_mod_cast this.ne'

/-- The model of the mean of the past. -/
theorem train_mean (arima : P → List (Option K) → Except PyErr (Option M)) (refit) (past : Int) (v : List K)
    {model : Option (ProgModel K M)} (h : progTrain (Q := Q) arima refit (.mean past) (v.map some) = .ok model) :
    ∃ y, model = some (.mean y) ∧ IsMean (pastSamples past v) y := by
  simp only [progTrain, Except.ok.injEq] at h
  refine ⟨_, h.symm, ?_⟩
  rw [pySlice_past, pastSamples_map]
  exact floatMean_isMean _

theorem const_params {A : Type} {x y : Nat} {a b : A} {p : Point} (h : (Grid.const x y a).get p = .ok b) : b = a := by
  have := (Grid.get_eq_ok_iff _ _ _).1 h
  exact (Except.ok.inj ((Grid.get_const (v := a) (show p.x < x from this.1) (show p.y < y from this.2.1)).symm.trans h)).symm

theorem baseline_training {md : RegionMeta} {s : Stack K} {testLen : Nat} {pt : Partition} {medoids : List Point}
    (hs : BaselineSetup md s testLen pt medoids) {params : ModelParams} {q : ProgParams P Q}
    (ht : w.progTrainer params md = Trainer.constant q md.xLen md.yLen (progTrain (w.trainer params md).train
      fun _ _ => .error .typeError))
    (hr : ∀ g, w.progRefitter params md g = w.progTrainer params md)
    (hok : ∀ v, ∃ x, (w.progTrainer params md).train q v = .ok x) :
    TrainingSetup (w.progTrainer params md) (w.progRefitter params md) md.scaled s testLen pt medoids where
  created := hs.created
  enough := hs.enough
  valid := hs.valid
  pointIndex := hs.pointIndex
  shape := hs.shape
  count := hs.count
  member := hs.member
  params := by
    rw [ht]
    exact ⟨Grid.const_wf _ _ _, hs.xLen.symm, hs.yLen.symm⟩
  trains := by
    intro m _ q' v hq _
    rw [ht] at hq
    rw [const_params hq]
    exact hok _
  refits := by
    intro g _ _ _
    rw [hr, ht]
    refine ⟨Grid.const_wf _ _ _, hs.xLen.symm, hs.yLen.symm, fun p q' v hq _ => ?_⟩
    rw [const_params hq, ← ht]
    exact hok _

/-- A solver that can be trained from the region and the partition is the one trained from scratch. -/
theorem freshSolver_of_train {P Q M : Type} {w : SolverWorld K P Q M} {a : SolverArgs} {s : Stack K} {pt : Partition}
    {medoids : List Point} (hmat : w.matrix a.region = .ok ()) (hreg : w.region a.region = .ok s)
    (hpart : w.partition a.region .dtw a.metadata.clustering = .ok (pt, medoids)) {sv : Solver K M}
    (h : trainCompleteSolver (w.trainer a.program.params a.region) (w.refitter a.program.params a.region)
      w.forecast (String.ofList a.errorType) a.region.scaled s a.testLen pt medoids w.zero w.junk = .ok sv) :
    freshSolver w a.metadata = .ok (sv, (pt, medoids)) := by
  unfold freshSolver
  rw [show w.matrix a.metadata.md = .ok () from hmat, show w.region a.metadata.md = .ok s from hreg,
    show w.partition a.metadata.md a.metadata.dist a.metadata.clustering = .ok (pt, medoids) from hpart]
  show (trainCompleteSolver (w.trainer a.program.params a.region) (w.refitter a.program.params a.region)
    w.forecast (String.ofList a.errorType) a.region.scaled s a.testLen pt medoids w.zero w.junk >>=
    fun sv => pure (sv, (pt, medoids))) = _
  rw [h]
  rfl

/-- The models at a point are trained with the series of the medoid of its cluster. -/
theorem baseline_models {md : RegionMeta} {s : Stack K} {testLen : Nat} {pt : Partition} {medoids : List Point}
    (hs : BaselineSetup md s testLen pt medoids) {params : ModelParams} {q : ProgParams P Q}
    (ht : w.progTrainer params md = Trainer.constant q md.xLen md.yLen (progTrain (w.trainer params md).train
      fun _ _ => .error .typeError))
    (hr : ∀ g, w.progRefitter params md g = w.progTrainer params md) {g : Grid (Option (ProgModel K M))} {p : Point}
    {l : Nat} {training whole : Option (ProgModel K M)}
    (h : ModelsAt (w.progTrainer params md) (w.progRefitter params md) s testLen pt medoids g p l training whole) :
    ∃ before future, MedoidSeries s testLen pt medoids p l before future ∧
      progTrain (w.trainer params md).train (fun _ _ => .error .typeError) q (before.map some) = .ok training ∧
      progTrain (w.trainer params md).train (fun _ _ => .error .typeError) q ((before ++ future).map some) =
        .ok whole := by
  obtain ⟨h0, m, past, future, q1, q2, h1, h2, h3, h4, h5, -, h7, h8⟩ := h
  rw [hr] at h7 h8
  rw [ht] at h4 h5 h7 h8
  obtain ⟨v, hv⟩ := hs.numbers _ _ h2
  obtain ⟨a, b, rfl, rfl, rfl⟩ := List.append_eq_map_iff.1 hv
  rw [const_params h4] at h5
  rw [const_params h7, ← List.map_append] at h8
  exact ⟨a, b, ⟨m, h0, h1, by rw [h2, List.map_append], by simpa using h3⟩, h5, h8⟩

theorem own_refitter {params : ModelParams} (hr : ∀ md g, w.progRefitter params md g = w.progTrainer params md) :
    OwnRefitter (w.programs measure argpartition) params := hr

/-- **C150** (mean of the past, in sample): in any session of the programs where it was trained, the solver answers every
point of the prediction region with the mean of the last `past` samples before the test samples of the medoid of its cluster,
at every step and in the units of the point, and with the error of this forecast. -/
theorem C150_mean (hc : GoodCatalogue regions) {session : List SolverCommand}
    (ha : ∀ c ∈ session, c.args.Accepted regions) {a : SolverArgs} (h : a.Accepted regions)
    (ht : TrainedIn session a.metadata) {past : Int} (hprog : a.program = .meanPast past) {s : Stack K} {pt : Partition}
    {medoids : List Point} (hmat : w.matrix a.region = .ok ()) (hreg : w.region a.region = .ok s)
    (hpart : w.partition a.region .dtw a.metadata.clustering = .ok (pt, medoids))
    (hs : BaselineSetup a.region s a.testLen pt medoids)
    {f : ErrorFun K} (hfunc : getErrorFunc (String.ofList a.errorType) = .ok f)
    (hmase : String.ofList a.errorType = "MASE" → s.data.tLen ≠ a.testLen + 1)
    {r : Region} (hr : r.Inside s) {n : Int} (hn : n ≤ 0) :
    ∃ res rows,
      (predictCommand (w.programs measure argpartition) a.metadata r n
        (sessionStore (w.programs measure argpartition) session)).1 = .ok res ∧ res.rows = .ok rows ∧
      rows.length = (r.x2 - r.x1) * (r.y2 - r.y1) ∧
      ∀ p : Point, r.Has p →
        ∃ l before future y shown test e, MedoidSeries s a.testLen pt medoids p l before future ∧
          IsMean (pastSamples past before) y ∧ InUnits s p (List.replicate a.testLen y) shown ∧
          ErrorOf f s a.testLen p shown test e ∧
          rows[(p.x - r.x1) * (r.y2 - r.y1) + (p.y - r.y1)]? =
            some [.coords ⟨p.x + a.region.region.x1, p.y + a.region.region.y1⟩, .index l, .errorValue e,
              .series shown, .series test] := by
  have hp : a.program.params = .mean past := by rw [hprog]; rfl
  have hT : w.progTrainer a.program.params a.region = Trainer.constant (.mean past) a.region.xLen a.region.yLen
      (progTrain (w.trainer a.program.params a.region).train fun _ _ => .error .typeError) := by rw [hp]; rfl
  have hR : ∀ g, w.progRefitter a.program.params a.region g = w.progTrainer a.program.params a.region := by
    rw [hp]; exact fun _ => rfl
  have hset := baseline_training hs hT hR (by rw [hT]; exact fun v => ⟨_, rfl⟩)
  obtain ⟨g, sv, res, rows, e1, e2, e3, -, e5, e6⟩ := C91_rows_in_sample_medoids hset
    (w.programs measure argpartition).forecast (by
      intro md _ b fu q m _ _ hq hm
      rw [hT] at hq hm
      rw [const_params hq] at hm
      cases hm
      exact ⟨_, rfl, List.length_replicate⟩) hfunc hmase (w.programs measure argpartition).zero
    (w.programs measure argpartition).junk hr hn a.region.region a.metadata.clustering
  have hf := freshSolver_of_train (w := w.programs measure argpartition) hmat hreg hpart e1
  refine ⟨res, rows, ?_, e3, e5, fun p hp' => ?_⟩
  · rw [C120_in_sample hc ha h ht hf r hn, freshAnswer_ok hf]
    exact e2
  · obtain ⟨l, training, whole, raw, shown, test, e, d1, d2, d3, d4, d5⟩ := e6 p hp'
    obtain ⟨before, future, k1, k2, -⟩ := baseline_models hs hT hR d1
    obtain ⟨y, rfl, k3⟩ := train_mean _ _ _ _ k2
    cases d2 with
    | model hm =>
      cases hm
      exact ⟨l, before, future, y, shown, test, e, k1, k3, d3, d4, d5⟩

/-- **C150** (mean of the past, out of sample): the same with all samples of the medoid; the error is the one of the forecast
in sample. Other trainings in the session do not matter. -/
theorem C150_mean_future (hc : GoodCatalogue regions) {session : List SolverCommand}
    (ha : ∀ c ∈ session, c.args.Accepted regions) {a : SolverArgs} (h : a.Accepted regions)
    (ht : TrainedIn session a.metadata) {past : Int} (hprog : a.program = .meanPast past) {s : Stack K} {pt : Partition}
    {medoids : List Point} (hmat : w.matrix a.region = .ok ()) (hreg : w.region a.region = .ok s)
    (hpart : w.partition a.region .dtw a.metadata.clustering = .ok (pt, medoids))
    (hs : BaselineSetup a.region s a.testLen pt medoids)
    {f : ErrorFun K} (hfunc : getErrorFunc (String.ofList a.errorType) = .ok f)
    (hmase : String.ofList a.errorType = "MASE" → s.data.tLen ≠ a.testLen + 1)
    {r : Region} (hr : r.Inside s) {n : Nat} (hn : 0 < n) :
    ∃ res rows,
      (predictCommand (w.programs measure argpartition) a.metadata r n
        (sessionStore (w.programs measure argpartition) session)).1 = .ok res ∧ res.rows = .ok rows ∧
      rows.length = (r.x2 - r.x1) * (r.y2 - r.y1) ∧
      ∀ p : Point, r.Has p →
        ∃ l before future y yT shown shownT test e, MedoidSeries s a.testLen pt medoids p l before future ∧
          IsMean (pastSamples past (before ++ future)) y ∧ InUnits s p (List.replicate n y) shown ∧
          IsMean (pastSamples past before) yT ∧ InUnits s p (List.replicate a.testLen yT) shownT ∧
          ErrorOf f s a.testLen p shownT test e ∧
          rows[(p.x - r.x1) * (r.y2 - r.y1) + (p.y - r.y1)]? =
            some [.coords ⟨p.x + a.region.region.x1, p.y + a.region.region.y1⟩, .index l, .errorValue e,
              .series shown] := by
  have hp : a.program.params = .mean past := by rw [hprog]; rfl
  have hT : w.progTrainer a.program.params a.region = Trainer.constant (.mean past) a.region.xLen a.region.yLen
      (progTrain (w.trainer a.program.params a.region).train fun _ _ => .error .typeError) := by rw [hp]; rfl
  have hR : ∀ md g, w.progRefitter a.program.params md g = w.progTrainer a.program.params md := by
    rw [hp]; exact fun _ _ => rfl
  have hset := baseline_training hs hT (hR _) (by rw [hT]; exact fun v => ⟨_, rfl⟩)
  have hfc : ∀ k q (v : List (Option K)) m, (Trainer.constant (ProgParams.mean past : ProgParams P Q) a.region.xLen
      a.region.yLen (progTrain (w.trainer a.program.params a.region).train fun _ _ => .error .typeError)).train q v =
      .ok (some m) → q = .mean past → ∃ x, (w.programs measure argpartition).forecast m k = .ok x ∧ x.length = k := by
    rintro k q v m hm rfl
    cases hm
    exact ⟨_, rfl, List.length_replicate⟩
  obtain ⟨g, sv, res, rows, e1, e2, e3, -, e5, e6⟩ := C91_rows_out_of_sample_medoids hset
    (w.programs measure argpartition).forecast (by
      intro md _ b fu q m _ _ hq hm
      rw [hT] at hq hm
      exact hfc _ _ _ _ hm (const_params hq)) hn (by
      intro g md _ q v m _ hq hm
      rw [hR, hT] at hq hm
      exact hfc _ _ _ _ hm (const_params hq)) hfunc hmase (w.programs measure argpartition).zero
    (w.programs measure argpartition).junk hr a.region.region a.metadata.clustering
  have hf := freshSolver_of_train (w := w.programs measure argpartition) hmat hreg hpart e1
  refine ⟨res, rows, ?_, e3, e5, fun p hp' => ?_⟩
  · rw [C120_own_refitter hc ha h (own_refitter hR) ht hf r n, freshAnswer_ok hf]
    exact e2
  · obtain ⟨l, training, whole, raw, shown, e, d1, d2, -, d3, ⟨rawT, shownT, test, t1, t2, t3⟩, d5⟩ := e6 p hp'
    obtain ⟨before, future, k1, k2, k3⟩ := baseline_models hs hT (hR _) d1
    obtain ⟨yT, rfl, k4⟩ := train_mean _ _ _ _ k2
    obtain ⟨y, rfl, k5⟩ := train_mean _ _ _ _ k3
    cases d2 with
    | model hm =>
      cases t1 with
      | model hm' =>
        cases hm
        cases hm'
        exact ⟨l, before, future, y, yT, shown, shownT, test, e, k1, k5, d3, k4, t2, t3, d5⟩

/-- The model of k nearest neighbours forecasts the mean of the nearest windows, if there are enough. -/
theorem forecast_knn [LinearOrder V]
    (hpart : ∀ values k, k < values.length → IsArgPartition values k (argpartition values k)) {k : Int} (hk : 0 < k)
    {n : Nat} {v : List K} (hl : n + k.toNat ≤ v.length) (arima : M → Nat → Except PyErr (List (Option K))) :
    ∃ raw, progForecast arima measure argpartition (.knn k (v.map some)) n = .ok raw ∧ raw.length = n ∧
      NearestForecast measure k.toNat n v raw := by
  obtain ⟨starts, raw, h1, h2, h3, h4⟩ := C46_forecast measure argpartition hpart v k.toNat n (by omega) hl
  exact ⟨raw, h1, h3, starts, h2, h3, fun j hj => let ⟨y, a, b, _⟩ := h4 j hj; ⟨y, a, b⟩⟩

theorem knn_series {md : RegionMeta} {s : Stack K} {testLen : Nat} {pt : Partition} {medoids : List Point}
    (hs : BaselineSetup md s testLen pt medoids) {p : Point} {v : List (Option K)} (h : s.seriesAt p = .ok v) :
    v.length = s.data.tLen :=
  Cube.get_length hs.created.ok.1.data_wf (by rw [← hs.created.seriesAt]; exact h)

/-- **C150** (k nearest neighbours, in sample): the forecast of a point is, at every step and in the units of the point, the
mean of the `k` windows of the medoid of its cluster, before the test samples, that are nearest to the last of them. -/
theorem C150_knn [LinearOrder V] (hc : GoodCatalogue regions) {session : List SolverCommand}
    (ha : ∀ c ∈ session, c.args.Accepted regions) {a : SolverArgs} (h : a.Accepted regions)
    (ht : TrainedIn session a.metadata) {k : Int} (hprog : a.program = .knn k) (hk : 0 < k) {s : Stack K} {pt : Partition}
    {medoids : List Point} (hmat : w.matrix a.region = .ok ()) (hreg : w.region a.region = .ok s)
    (hpart : w.partition a.region .dtw a.metadata.clustering = .ok (pt, medoids))
    (hs : BaselineSetup a.region s a.testLen pt medoids)
    (hap : ∀ values k, k < values.length → IsArgPartition values k (argpartition values k))
    (hlen : 2 * a.testLen + k.toNat ≤ s.data.tLen)
    {f : ErrorFun K} (hfunc : getErrorFunc (String.ofList a.errorType) = .ok f)
    (hmase : String.ofList a.errorType = "MASE" → s.data.tLen ≠ a.testLen + 1)
    {r : Region} (hr : r.Inside s) {n : Int} (hn : n ≤ 0) :
    ∃ res rows,
      (predictCommand (w.programs measure argpartition) a.metadata r n
        (sessionStore (w.programs measure argpartition) session)).1 = .ok res ∧ res.rows = .ok rows ∧
      rows.length = (r.x2 - r.x1) * (r.y2 - r.y1) ∧
      ∀ p : Point, r.Has p →
        ∃ l before future raw shown test e, MedoidSeries s a.testLen pt medoids p l before future ∧
          NearestForecast measure k.toNat a.testLen before raw ∧ InUnits s p raw shown ∧
          ErrorOf f s a.testLen p shown test e ∧
          rows[(p.x - r.x1) * (r.y2 - r.y1) + (p.y - r.y1)]? =
            some [.coords ⟨p.x + a.region.region.x1, p.y + a.region.region.y1⟩, .index l, .errorValue e,
              .series shown, .series test] := by
  have hp : a.program.params = .knn k .dtw := by rw [hprog]; rfl
  have hT : w.progTrainer a.program.params a.region = Trainer.constant (.knn k) a.region.xLen a.region.yLen
      (progTrain (w.trainer a.program.params a.region).train fun _ _ => .error .typeError) := by rw [hp]; rfl
  have hR : ∀ g, w.progRefitter a.program.params a.region g = w.progTrainer a.program.params a.region := by
    rw [hp]; exact fun _ => rfl
  have hset := baseline_training hs hT hR (by rw [hT]; exact fun v => ⟨_, rfl⟩)
  obtain ⟨g, sv, res, rows, e1, e2, e3, -, e5, e6⟩ := C91_rows_in_sample_medoids hset
    (w.programs measure argpartition).forecast (by
      intro md _ b fu q m h1 h2 hq hm
      rw [hT] at hq hm
      rw [const_params hq] at hm
      cases hm
      obtain ⟨v, hv⟩ := hs.numbers _ _ h1
      have hl := knn_series hs h1
      obtain ⟨b, fu, rfl, rfl, rfl⟩ := List.append_eq_map_iff.1 hv
      rw [List.length_append, List.length_map, h2] at hl
      obtain ⟨raw, r1, r2, -⟩ := forecast_knn (measure := measure) hap hk (n := a.testLen) (v := b) (by omega) w.forecast
      exact ⟨raw, r1, r2⟩) hfunc hmase (w.programs measure argpartition).zero
    (w.programs measure argpartition).junk hr hn a.region.region a.metadata.clustering
  have hf := freshSolver_of_train (w := w.programs measure argpartition) hmat hreg hpart e1
  refine ⟨res, rows, ?_, e3, e5, fun p hp' => ?_⟩
  · rw [C120_in_sample hc ha h ht hf r hn, freshAnswer_ok hf]
    exact e2
  · obtain ⟨l, training, whole, raw, shown, test, e, d1, d2, d3, d4, d5⟩ := e6 p hp'
    obtain ⟨before, future, k1, k2, -⟩ := baseline_models hs hT hR d1
    cases k2
    obtain ⟨m, -, -, m1, m2⟩ := id k1
    have hl := knn_series hs m1
    rw [List.length_map, List.length_append] at hl
    obtain ⟨raw', r1, -, r2⟩ := forecast_knn (measure := measure) hap hk (n := a.testLen) (v := before) (by omega) w.forecast
    cases d2 with
    | model hm =>
      cases (show Except.ok raw' = Except.ok raw from r1.symm.trans hm)
      exact ⟨l, before, future, raw, shown, test, e, k1, r2, d3, d4, d5⟩

/-- **C150** (k nearest neighbours, out of sample): the windows have as many samples as the forecast, and are those of all
samples of the medoid; the error is the one of the forecast in sample. -/
theorem C150_knn_future [LinearOrder V] (hc : GoodCatalogue regions) {session : List SolverCommand}
    (ha : ∀ c ∈ session, c.args.Accepted regions) {a : SolverArgs} (h : a.Accepted regions)
    (ht : TrainedIn session a.metadata) {k : Int} (hprog : a.program = .knn k) (hk : 0 < k) {s : Stack K} {pt : Partition}
    {medoids : List Point} (hmat : w.matrix a.region = .ok ()) (hreg : w.region a.region = .ok s)
    (hpart : w.partition a.region .dtw a.metadata.clustering = .ok (pt, medoids))
    (hs : BaselineSetup a.region s a.testLen pt medoids)
    (hap : ∀ values k, k < values.length → IsArgPartition values k (argpartition values k))
    (hlen : 2 * a.testLen + k.toNat ≤ s.data.tLen)
    {f : ErrorFun K} (hfunc : getErrorFunc (String.ofList a.errorType) = .ok f)
    (hmase : String.ofList a.errorType = "MASE" → s.data.tLen ≠ a.testLen + 1)
    {r : Region} (hr : r.Inside s) {n : Nat} (hn : 0 < n) (hnl : n + k.toNat ≤ s.data.tLen) :
    ∃ res rows,
      (predictCommand (w.programs measure argpartition) a.metadata r n
        (sessionStore (w.programs measure argpartition) session)).1 = .ok res ∧ res.rows = .ok rows ∧
      rows.length = (r.x2 - r.x1) * (r.y2 - r.y1) ∧
      ∀ p : Point, r.Has p →
        ∃ l before future raw rawT shown shownT test e, MedoidSeries s a.testLen pt medoids p l before future ∧
          NearestForecast measure k.toNat n (before ++ future) raw ∧ InUnits s p raw shown ∧
          NearestForecast measure k.toNat a.testLen before rawT ∧ InUnits s p rawT shownT ∧
          ErrorOf f s a.testLen p shownT test e ∧
          rows[(p.x - r.x1) * (r.y2 - r.y1) + (p.y - r.y1)]? =
            some [.coords ⟨p.x + a.region.region.x1, p.y + a.region.region.y1⟩, .index l, .errorValue e,
              .series shown] := by
  have hp : a.program.params = .knn k .dtw := by rw [hprog]; rfl
  have hT : w.progTrainer a.program.params a.region = Trainer.constant (.knn k) a.region.xLen a.region.yLen
      (progTrain (w.trainer a.program.params a.region).train fun _ _ => .error .typeError) := by rw [hp]; rfl
  have hR : ∀ md g, w.progRefitter a.program.params md g = w.progTrainer a.program.params md := by
    rw [hp]; exact fun _ _ => rfl
  have hset := baseline_training hs hT (hR _) (by rw [hT]; exact fun v => ⟨_, rfl⟩)
  obtain ⟨g, sv, res, rows, e1, e2, e3, -, e5, e6⟩ := C91_rows_out_of_sample_medoids hset
    (w.programs measure argpartition).forecast (by
      intro md _ b fu q m h1 h2 hq hm
      rw [hT] at hq hm
      rw [const_params hq] at hm
      cases hm
      obtain ⟨v, hv⟩ := hs.numbers _ _ h1
      have hl := knn_series hs h1
      obtain ⟨b, fu, rfl, rfl, rfl⟩ := List.append_eq_map_iff.1 hv
      rw [List.length_append, List.length_map, h2] at hl
      obtain ⟨raw, r1, r2, -⟩ := forecast_knn (measure := measure) hap hk (n := a.testLen) (v := b) (by omega) w.forecast
      exact ⟨raw, r1, r2⟩) hn (by
      intro g md _ q v m h1 hq hm
      rw [hR, hT] at hq hm
      rw [const_params hq] at hm
      cases hm
      have hl := knn_series hs h1
      obtain ⟨v, rfl⟩ := hs.numbers _ _ h1
      rw [List.length_map] at hl
      obtain ⟨raw, r1, r2, -⟩ := forecast_knn (measure := measure) hap hk (n := n) (v := v) (by omega) w.forecast
      exact ⟨raw, r1, r2⟩) hfunc hmase (w.programs measure argpartition).zero
    (w.programs measure argpartition).junk hr a.region.region a.metadata.clustering
  have hf := freshSolver_of_train (w := w.programs measure argpartition) hmat hreg hpart e1
  refine ⟨res, rows, ?_, e3, e5, fun p hp' => ?_⟩
  · rw [C120_own_refitter hc ha h (own_refitter hR) ht hf r n, freshAnswer_ok hf]
    exact e2
  · obtain ⟨l, training, whole, raw, shown, e, d1, d2, -, d3, ⟨rawT, shownT, test, t1, t2, t3⟩, d5⟩ := e6 p hp'
    obtain ⟨before, future, k1, k2, k3⟩ := baseline_models hs hT (hR _) d1
    cases k2
    cases k3
    obtain ⟨m, -, -, m1, m2⟩ := id k1
    have hl := knn_series hs m1
    rw [List.length_map, List.length_append] at hl
    obtain ⟨raw1, r1, -, r2⟩ := forecast_knn (measure := measure) hap hk (n := a.testLen) (v := before) (by omega) w.forecast
    obtain ⟨raw2, r3, -, r4⟩ := forecast_knn (measure := measure) hap hk (n := n) (v := before ++ future)
      (by rw [List.length_append]; omega) w.forecast
    cases d2 with
    | model hm =>
      cases t1 with
      | model hm' =>
        cases (show Except.ok raw2 = Except.ok raw from r3.symm.trans hm)
        cases (show Except.ok raw1 = Except.ok rawT from r1.symm.trans hm')
        exact ⟨l, before, future, raw, rawT, shown, shownT, test, e, k1, r4, d3, r2, t2, t3, d5⟩

/-- Applying models that all fail in the same way fails in this way. -/
theorem applyModelsOver_fails {M : Type} {s : Stack K} {forecast : M → Nat → Except PyErr (List (Option K))}
    {models : Grid (Option M)} {n : Nat} {items : List (Point × List (Option K))} (hi : s.items = .ok items)
    (hne : items ≠ []) (hx : s.data.grid.xLen = models.xLen) (hy : s.data.grid.yLen = models.yLen) {e : PyErr}
    (hf : ∀ it ∈ items, ∃ m, models.get it.1 = .ok (some m) ∧ forecast m n = .error e) :
    applyModelsOver forecast models n s = .error e := by
  unfold applyModelsOver
  rw [if_pos ⟨hx, hy⟩, hi]
  cases items with
  | nil => exact absurd rfl hne
  | cons it rest =>
    obtain ⟨m, h1, h2⟩ := hf it (List.mem_cons_self ..)
    simp only [applyWith, forecastAt, h1, forecastOf, h2]

theorem trainCompleteSolver_errors {P Q M : Type} {t : Trainer K P M} {refitter : Grid (Option M) → Trainer K Q M}
    {forecast : M → Nat → Except PyErr (List (Option K))} {errorType : String} {scaled : Bool}
    {s : Stack K} {testLen : Nat} {pt : Partition} {medoids : List Point} {zero junk : Option M}
    {training whole : Grid (Option M)} {e : PyErr}
    (h1 : trainSolver t refitter s testLen pt medoids zero junk = .ok (training, whole))
    (h2 : calculateErrors forecast errorType training (splitLast s testLen).1 (splitLast s testLen).2 = .error e) :
    trainCompleteSolver t refitter forecast errorType scaled s testLen pt medoids zero junk = .error e := by
  unfold trainSolver at h1
  unfold trainCompleteSolver
  cases a1 : t.applyAtRepresentatives medoids zero (splitLast s testLen).1 with
  | error e => simp [a1] at h1
  | ok atMedoids =>
    simp only [a1] at h1 ⊢
    cases a2 : replicateModels atMedoids.1 pt medoids junk with
    | error e => simp [a2] at h1
    | ok tr =>
      simp only [a2] at h1 ⊢
      cases a3 : (refitter atMedoids.1).applyTo zero s with
      | error e => simp [a3] at h1
      | ok refitted =>
        simp only [a3] at h1 ⊢
        cases a4 : replicateModels refitted.1 pt medoids junk with
        | error e => simp [a4] at h1
        | ok wh =>
          simp only [a4, Except.ok.injEq, Prod.mk.injEq] at h1
          rw [h1.1, h2]

/-- **C150** (k nearest neighbours, too short): with fewer samples than the test samples twice and `k`, the solver cannot be
trained, since already the errors of its forecasts cannot be computed; no session makes it answer. -/
theorem C150_knn_short [LinearOrder V] (hc : GoodCatalogue regions) {session : List SolverCommand}
    (ha : ∀ c ∈ session, c.args.Accepted regions) {a : SolverArgs} (h : a.Accepted regions)
    {k : Int} (hprog : a.program = .knn k) {s : Stack K} {pt : Partition}
    {medoids : List Point} (hmat : w.matrix a.region = .ok ()) (hreg : w.region a.region = .ok s)
    (hpart : w.partition a.region .dtw a.metadata.clustering = .ok (pt, medoids))
    (hs : BaselineSetup a.region s a.testLen pt medoids) (hne : medoids ≠ [])
    (hlen : s.data.tLen < 2 * a.testLen + k.toNat) (r : Region) (n : Int) :
    freshSolver (w.programs measure argpartition) a.metadata =
        .error (if s.data.tLen < 2 * a.testLen then .indexError else .valueError) ∧
      (predictCommand (w.programs measure argpartition) a.metadata r n
        (sessionStore (w.programs measure argpartition) session)).1 = .error .ioError := by
  have hp : a.program.params = .knn k .dtw := by rw [hprog]; rfl
  have hT : w.progTrainer a.program.params a.region = Trainer.constant (.knn k) a.region.xLen a.region.yLen
      (progTrain (w.trainer a.program.params a.region).train fun _ _ => .error .typeError) := by rw [hp]; rfl
  have hR : ∀ g, w.progRefitter a.program.params a.region g = w.progTrainer a.program.params a.region := by
    rw [hp]; exact fun _ => rfl
  have hset := baseline_training hs hT hR (by rw [hT]; exact fun v => ⟨_, rfl⟩)
  obtain ⟨hok, -, -⟩ := hs.created.ok
  have hall : ∀ p : Point, p.x < s.data.grid.xLen → p.y < s.data.grid.yLen → ∃ v, s.seriesAt p = .ok v := by
    intro p hx hy
    obtain ⟨v, hv⟩ := s.data.grid.exists_get hok.data_wf.1 hx hy
    exact ⟨v, by rw [hs.created.seriesAt, hv]⟩
  obtain ⟨g, gT, gW, c1, c2, c3, c4, c5, c6, c7, c8⟩ := C47_models_of_medoids _ _ s hok hall a.testLen
    hs.enough pt hs.valid hs.pointIndex hs.shape.1 hs.shape.2 medoids hs.count hs.member hset.params.1
    hset.params.2.1 hset.params.2.2 hset.trains hset.refits (w.programs measure argpartition).zero
    (w.programs measure argpartition).junk
  obtain ⟨ct, co, e1, e2, hct, hco, htx, hty, hox, hoy, hlt, hlo, hsplit⟩ := splitLast_new hok a.testLen hs.enough
  obtain ⟨items, i1, i2, i3, i4⟩ := Stack.items_ok (hok.new hco hox hoy)
  have hfail : calculateErrors (w.programs measure argpartition).forecast (String.ofList a.errorType) gT
      (splitLast s a.testLen).1 (splitLast s a.testLen).2 =
      .error (if s.data.tLen < 2 * a.testLen then .indexError else .valueError) := by
    unfold calculateErrors
    rw [e2, applyModelsOver_fails i1 ?_ (by rw [Stack.data_new, c2.2.1, hox]) (by rw [Stack.data_new, c2.2.2, hoy])]
    · intro it hit
      obtain ⟨hx, hy⟩ := Stack.seriesAt_range (i3 it hit)
      rw [Stack.data_new] at hx hy
      obtain ⟨l, m, v, q, q', d1, d2, d3, d4, d5, -⟩ := c8 it.1 (by omega) (by omega)
      rw [hT] at d4 d5
      rw [const_params d4] at d5
      refine ⟨_, d5, ?_⟩
      have hl := knn_series hs d3
      have hle := hs.enough
      rw [Stack.data_new, hlo]
      refine (C46_forecast_errors measure argpartition _ k.toNat a.testLen ?_).trans ?_
      · rw [List.length_take]; omega
      · rw [List.length_take]
        congr 1
        by_cases hh : s.data.tLen < 2 * a.testLen
        · rw [if_pos hh, if_pos (by omega)]
        · rw [if_neg hh, if_neg (by omega)]
    · obtain ⟨m, hm⟩ := List.exists_mem_of_ne_nil _ hne
      obtain ⟨i, hi⟩ := List.mem_iff_getElem?.1 hm
      have hr := (Grid.get_eq_ok_iff _ _ _).1 (hs.member i m hi)
      rw [hs.shape.1, hs.shape.2] at hr
      obtain ⟨v, hv⟩ := co.grid.exists_get hco.1 (p := m) (by omega) (by omega)
      obtain ⟨u, hu⟩ := hall m hr.1 hr.2.1
      exact List.ne_nil_of_mem (i4 m v ((Stack.seriesAt_new_iff hok hox hoy).2 ⟨hv, u, hu⟩))
  have hfresh : freshSolver (w.programs measure argpartition) a.metadata =
      .error (if s.data.tLen < 2 * a.testLen then .indexError else .valueError) := by
    unfold freshSolver
    rw [show (w.programs measure argpartition).matrix a.metadata.md = .ok () from hmat,
      show (w.programs measure argpartition).region a.metadata.md = .ok s from hreg,
      show (w.programs measure argpartition).partition a.metadata.md a.metadata.dist a.metadata.clustering =
        .ok (pt, medoids) from hpart]
    show (trainCompleteSolver (w.progTrainer a.program.params a.region) (w.progRefitter a.program.params a.region)
      (w.programs measure argpartition).forecast (String.ofList a.errorType) a.region.scaled s a.testLen pt medoids
      (w.programs measure argpartition).zero (w.programs measure argpartition).junk >>=
      fun sv => pure (sv, (pt, medoids))) = _
    rw [trainCompleteSolver_errors c1 hfail]
    rfl
  refine ⟨hfresh, ?_⟩
  rw [C120_untrained hc ha h (by rintro ⟨-, x, hx⟩; rw [hfresh] at hx; cases hx) r n]
  rw [show (w.programs measure argpartition).partition a.metadata.md a.metadata.dist a.metadata.clustering =
    .ok (pt, medoids) from hpart]

/-! ### Examples -/

/-- A region of three points in two clusters, with six samples. -/
def baselineRegion : Stack ℚ :=
  .scaled (.plain ⟨6, ⟨1, 3, [[some 0, some 1, some (1/2), some 0, some 1, some 1],
      [some 1, some (1/2), some 0, some (1/2), some 1, some 0],
      [some 0, some 0, some 1, some 0, some 0, some 1]]⟩⟩)
    (.plain ⟨1, 3, [some 10, some 20, some 30]⟩) (.plain ⟨1, 3, [some 12, some 24, some 36]⟩)

/-- A world with this region. Its auto ARIMA fails. -/
def baselineWorld : SolverWorld ℚ Unit Unit Unit where
  region _ := .ok baselineRegion
  matrix _ := .ok ()
  partition _ _ _ := .ok (trainedPartition, [⟨0, 1⟩, ⟨0, 2⟩])
  trainer _ _ := Trainer.constant () 1 3 fun _ _ => .error .valueError
  refitter _ _ := Trainer.sameRefitter (Trainer.constant () 1 3 fun _ _ => .error .valueError)
  forecast _ _ := .error .valueError
  zero := none
  junk := none

/-- The arguments of a program with two test samples. -/
def baselineArgs (program : SolverProgram) : SolverArgs :=
  { program := program, region := ⟨['b'], ⟨5, 6, 7, 10⟩, 2015, 2015, 1, true⟩, clustering := .kmedoids,
    k := 2, testLen := 2, errorType := ['M', 'S', 'E'] }

theorem baselineSetup (program : SolverProgram) : BaselineSetup (baselineArgs program).region baselineRegion
    (baselineArgs program).testLen trainedPartition [⟨0, 1⟩, ⟨0, 2⟩] where
  created := .scaled (by decide +kernel) (by decide +kernel) (by decide +kernel) rfl rfl rfl rfl
  numbers := by
    intro p v h
    have h' : baselineRegion.data.grid.get p = .ok v := h
    have hm := List.mem_of_getElem? ((Grid.get_eq_ok_iff _ _ _).1 h').2.2
    exact ⟨v.filterMap id, (show ∀ v ∈ baselineRegion.data.grid.data, v = (v.filterMap id).map some by decide +kernel) v hm⟩
  enough := by show 2 ≤ 6; decide
  xLen := rfl
  yLen := rfl
  valid := ⟨by decide, by decide, by decide⟩
  pointIndex := rfl
  shape := ⟨rfl, rfl⟩
  count := rfl
  member := by
    intro i m h
    match i, h with
    | 0, h => cases h; decide +kernel
    | 1, h => cases h; decide +kernel

/-- Sum of squared differences. -/
def squaredDistance (a b : List (Option ℚ)) : ℚ :=
  ((a.zip b).map fun p => (p.1.getD 0 - p.2.getD 0) * (p.1.getD 0 - p.2.getD 0)).sum

/-- Sorting is a partition around any position. -/
def argsortBy (values : List ℚ) (_ : Nat) : List Nat :=
  (List.range values.length).insertionSort fun i j => values.getD i 0 ≤ values.getD j 0

theorem argsortBy_partition (values : List ℚ) (k : Nat) (_ : k < values.length) :
    IsArgPartition values k (argsortBy values k) := by
  refine ⟨List.perm_insertionSort _ _, fun i j a b x y hi hj ha hb hx hy => ?_⟩
  have hs : (argsortBy values k).Pairwise fun i j => values.getD i 0 ≤ values.getD j 0 := by
    haveI : Std.Total fun i j => values.getD i 0 ≤ values.getD j 0 := ⟨fun _ _ => le_total _ _⟩
    haveI : IsTrans Nat fun i j => values.getD i 0 ≤ values.getD j 0 := ⟨fun _ _ _ h1 h2 => le_trans h1 h2⟩
    exact List.pairwise_insertionSort _ _
  obtain ⟨h1, rfl⟩ := List.getElem?_eq_some_iff.1 ha
  obtain ⟨h2, rfl⟩ := List.getElem?_eq_some_iff.1 hb
  have := List.pairwise_iff_getElem.1 hs i j h1 h2 (by omega)
  rwa [List.getD_eq_getElem?_getD, List.getD_eq_getElem?_getD, hx, hy] at this

/-- The two commands of a program. -/
theorem baselineAccepted (program : SolverProgram) : (baselineArgs program).Accepted [(baselineArgs .autoArima).region] :=
  ⟨List.mem_singleton.2 rfl, List.mem_cons_of_mem _ (List.mem_cons_of_mem _ (List.mem_singleton.2 rfl))⟩

/-- Forecasts of the programs, after the trainings of two of them. -/
def baselineForecasts (program : SolverProgram) (n : Int) : Option (List (List (Option ℚ))) :=
  match (predictCommand (baselineWorld.programs squaredDistance argsortBy) (baselineArgs program).metadata ⟨0, 1, 0, 3⟩ n
    (sessionStore (baselineWorld.programs squaredDistance argsortBy)
      [.train (baselineArgs (.meanPast 2)), .train (baselineArgs (.meanPast (-3)))])).1 with
  | .ok (.withPartition (.outOfSample base) _ _ _) => some base.forecast.data.grid.data
  | _ => none

/-- The mean of the last two samples of the medoids, and of those from the fourth one, in the units of the points. -/
example : baselineForecasts (.meanPast 2) 1 = some [[some 11], [some 22], [some 33]] ∧
    baselineForecasts (.meanPast (-3)) 2 = some [[some 11, some 11], [some 22, some 22], [some 32, some 32]] ∧
    baselineForecasts (.meanPast 1) 2 = none := by
  decide +kernel

/-- The hypotheses of `C150_mean` and `C150_mean_future` hold. -/
example : ∃ res rows, (predictCommand (baselineWorld.programs squaredDistance argsortBy)
      (baselineArgs (.meanPast 2)).metadata ⟨0, 1, 0, 2⟩ 0
      (sessionStore (baselineWorld.programs squaredDistance argsortBy) [.train (baselineArgs (.meanPast 2))])).1 = .ok res ∧
    res.rows = .ok rows ∧ rows.length = 2 := by
  obtain ⟨f, hfunc⟩ : ∃ f, getErrorFunc (K := ℚ) (String.ofList (baselineArgs (.meanPast 2)).errorType) = .ok f :=
    exists_ok_of_isSome (by decide +kernel)
  obtain ⟨res, rows, h1, h2, h3, -⟩ := C150_mean (w := baselineWorld) (measure := squaredDistance)
    (argpartition := argsortBy) (regions := [(baselineArgs .autoArima).region])
    (session := [.train (baselineArgs (.meanPast 2))]) (a := baselineArgs (.meanPast 2))
    (by unfold GoodCatalogue; decide +kernel)
    (by intro c hc; rw [List.mem_singleton] at hc; rw [hc]; exact baselineAccepted _) (baselineAccepted _)
    ⟨_, by simp, rfl⟩ rfl rfl rfl rfl (baselineSetup _) hfunc (fun e => absurd e (by decide +kernel)) (r := ⟨0, 1, 0, 2⟩)
    (⟨by decide, by decide, by decide +kernel, by decide +kernel⟩) (n := 0) (by decide)
  exact ⟨res, rows, h1, h2, h3⟩

example : ∃ res rows, (predictCommand (baselineWorld.programs squaredDistance argsortBy)
      (baselineArgs (.meanPast 2)).metadata ⟨0, 1, 0, 2⟩ 4
      (sessionStore (baselineWorld.programs squaredDistance argsortBy) [.train (baselineArgs (.meanPast 2))])).1 = .ok res ∧
    res.rows = .ok rows ∧ rows.length = 2 := by
  obtain ⟨f, hfunc⟩ : ∃ f, getErrorFunc (K := ℚ) (String.ofList (baselineArgs (.meanPast 2)).errorType) = .ok f :=
    exists_ok_of_isSome (by decide +kernel)
  obtain ⟨res, rows, h1, h2, h3, -⟩ := C150_mean_future (w := baselineWorld) (measure := squaredDistance)
    (argpartition := argsortBy) (regions := [(baselineArgs .autoArima).region])
    (session := [.train (baselineArgs (.meanPast 2))]) (a := baselineArgs (.meanPast 2))
    (by unfold GoodCatalogue; decide +kernel)
    (by intro c hc; rw [List.mem_singleton] at hc; rw [hc]; exact baselineAccepted _) (baselineAccepted _)
    ⟨_, by simp, rfl⟩ rfl rfl rfl rfl (baselineSetup _) hfunc (fun e => absurd e (by decide +kernel)) (r := ⟨0, 1, 0, 2⟩)
    (⟨by decide, by decide, by decide +kernel, by decide +kernel⟩) (n := 4) (by decide)
  exact ⟨res, rows, h1, h2, h3⟩

/-- With two test samples and two neighbours, six samples are just enough; the hypotheses of `C150_knn` and
`C150_knn_future` hold. -/
example : ∃ res rows, (predictCommand (baselineWorld.programs squaredDistance argsortBy)
      (baselineArgs (.knn 2)).metadata ⟨0, 1, 0, 2⟩ 0
      (sessionStore (baselineWorld.programs squaredDistance argsortBy) [.train (baselineArgs (.knn 2))])).1 = .ok res ∧
    res.rows = .ok rows ∧ rows.length = 2 := by
  obtain ⟨f, hfunc⟩ : ∃ f, getErrorFunc (K := ℚ) (String.ofList (baselineArgs (.knn 2)).errorType) = .ok f :=
    exists_ok_of_isSome (by decide +kernel)
  obtain ⟨res, rows, h1, h2, h3, -⟩ := C150_knn (w := baselineWorld) (measure := squaredDistance)
    (argpartition := argsortBy) (regions := [(baselineArgs .autoArima).region])
    (session := [.train (baselineArgs (.knn 2))]) (a := baselineArgs (.knn 2))
    (by unfold GoodCatalogue; decide +kernel)
    (by intro c hc; rw [List.mem_singleton] at hc; rw [hc]; exact baselineAccepted _) (baselineAccepted _)
    ⟨_, by simp, rfl⟩ rfl (by decide) rfl rfl rfl (baselineSetup _) argsortBy_partition (by decide +kernel) hfunc
    (fun e => absurd e (by decide +kernel)) (r := ⟨0, 1, 0, 2⟩)
    (⟨by decide, by decide, by decide +kernel, by decide +kernel⟩) (n := 0) (by decide)
  exact ⟨res, rows, h1, h2, h3⟩

example : ∃ res rows, (predictCommand (baselineWorld.programs squaredDistance argsortBy)
      (baselineArgs (.knn 2)).metadata ⟨0, 1, 0, 2⟩ 4
      (sessionStore (baselineWorld.programs squaredDistance argsortBy) [.train (baselineArgs (.knn 2))])).1 = .ok res ∧
    res.rows = .ok rows ∧ rows.length = 2 := by
  obtain ⟨f, hfunc⟩ : ∃ f, getErrorFunc (K := ℚ) (String.ofList (baselineArgs (.knn 2)).errorType) = .ok f :=
    exists_ok_of_isSome (by decide +kernel)
  obtain ⟨res, rows, h1, h2, h3, -⟩ := C150_knn_future (w := baselineWorld) (measure := squaredDistance)
    (argpartition := argsortBy) (regions := [(baselineArgs .autoArima).region])
    (session := [.train (baselineArgs (.knn 2))]) (a := baselineArgs (.knn 2))
    (by unfold GoodCatalogue; decide +kernel)
    (by intro c hc; rw [List.mem_singleton] at hc; rw [hc]; exact baselineAccepted _) (baselineAccepted _)
    ⟨_, by simp, rfl⟩ rfl (by decide) rfl rfl rfl (baselineSetup _) argsortBy_partition (by decide +kernel) hfunc
    (fun e => absurd e (by decide +kernel)) (r := ⟨0, 1, 0, 2⟩)
    (⟨by decide, by decide, by decide +kernel, by decide +kernel⟩) (n := 4) (by decide) (by decide +kernel)
  exact ⟨res, rows, h1, h2, h3⟩

/-- With three neighbours the training fails. -/
example : freshSolver (baselineWorld.programs squaredDistance argsortBy) (baselineArgs (.knn 3)).metadata =
    .error .valueError :=
  (C150_knn_short (w := baselineWorld) (measure := squaredDistance) (argpartition := argsortBy)
    (regions := [(baselineArgs .autoArima).region]) (session := [.train (baselineArgs (.knn 3))])
    (a := baselineArgs (.knn 3)) (by unfold GoodCatalogue; decide +kernel)
    (by intro c hc; rw [List.mem_singleton] at hc; rw [hc]; exact baselineAccepted _) (baselineAccepted _)
    rfl rfl rfl rfl (baselineSetup _) (by decide) (by decide +kernel) ⟨0, 1, 0, 2⟩ 0).1.trans
    (congrArg Except.error (if_neg (by decide +kernel)))

end Spta
