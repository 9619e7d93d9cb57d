import Verif.Spec.TrainingPipeline
import Verif.Props.ExtractionLstm
import Verif.Props.StudySuites

/-!
# C145: training data made from the analysis of a suite
-/

namespace Spta

section

variable {K : Type} [Field K] [LinearOrder K]

/-- The choice for one of the points, after those for the points before it. -/
theorem chooseAll_at {P : Type} {penalties : P → Str → List AbsPoint → Except PyErr (List (Score K))}
    {threshold : Int} {suite : SuiteResult} {points : List P} {hist hist' : MedoidHist}
    {cs : List (Str × Nat × AbsPoint)} (h : chooseAll penalties threshold suite points hist = (.ok cs, hist'))
    {n : Nat} {p : P} (hp : points[n]? = some p) :
    ∃ c h1 h2, cs[n]? = some c ∧
      chooseAll penalties threshold suite (points.take n) hist = (.ok (cs.take n), h1) ∧
      chooseMedoid (penalties p) threshold suite h1 = (.ok c, h2) := by
  induction points generalizing hist cs n with
  | nil => simp at hp
  | cons q ps ih =>
    rw [chooseAll] at h
    split at h
    · cases h
    · rename_i c h2 h1
      split at h
      · cases h
      · rename_i cs' h3 h4
        cases h
        cases n with
        | zero =>
          cases hp
          exact ⟨c, hist, h2, rfl, rfl, h1⟩
        | succ n =>
          rw [List.getElem?_cons_succ] at hp
          obtain ⟨c', k1, k2, i1, i2, i3⟩ := ih h4 hp
          refine ⟨c', k1, k2, i1, ?_, i3⟩
          rw [List.take_succ_cons, List.take_succ_cons, chooseAll, h1]
          simp only [i2]

/-- The scores of the medoids are their distances from the point. -/
theorem minDistance_scores {r : Region} {g : Grid (Option K)} {xLen yLen : Nat} {d : Nat → Nat → K}
    (hg : g.yLen = xLen * yLen) (hx : xLen = r.x2 - r.x1) (hy : yLen = r.y2 - r.y1)
    (hd : ∀ p q, p < xLen * yLen → q < xLen * yLen → g.get ⟨p, q⟩ = .ok (some (d p q))) {p : Point} (hpx : p.x < xLen)
    (hpy : p.y < yLen) {medoids : List AbsPoint}
    (hin : ∀ m ∈ medoids, (r.x1 : Int) ≤ m.1 ∧ m.1 < r.x2 ∧ (r.y1 : Int) ≤ m.2 ∧ m.2 < r.y2) :
    minDistancePenalties (some g) r p medoids =
      .ok (medoids.map fun m => some ((d (p.x * yLen + p.y) (positionIn r m) : K) : WithTop K)) := by
  rw [minDistancePenalties]
  refine mapM_ok _ _ _ fun m hm => ?_
  obtain ⟨b1, b2, b3, b4⟩ := hin m hm
  have hq : positionIn r m < xLen * yLen := by
    rw [positionIn, ← hy]
    exact idx_lt (by omega) (by omega)
  have e1 : (m.1 - r.x1) * (r.y2 - r.y1 : Nat) + (m.2 - r.y1) = ((positionIn r m : Nat) : Int) := by
    rw [positionIn]
    push_cast
    rw [Int.toNat_of_nonneg (by omega), Int.toNat_of_nonneg (by omega)]
  have e2 : numpyIndex ((positionIn r m : Nat) : Int) g.yLen = .ok (positionIn r m) := by
    rw [numpyIndex, if_pos (by omega), if_pos (by rw [hg]; exact_mod_cast hq), Int.toNat_natCast]
  rw [e1, e2]
  simp only [← hy, hd _ _ (idx_lt hpx hpy) hq]
  rfl

/-- The choice for a point, when the scores are the distances `dist`. -/
theorem chosen_nearest {penalties : Str → List AbsPoint → Except PyErr (List (Score K))} {threshold : Int}
    {suite : SuiteResult} (hkeys : (suite.map Prod.fst).Nodup) (hne : ∀ e ∈ suite, e.2 ≠ []) {dist : AbsPoint → K}
    (hs : ∀ e ∈ suite, penalties e.1 e.2 = .ok (e.2.map fun m => some ((dist m : K) : WithTop K)))
    {hist hist' : MedoidHist} (hb : threshold ≠ 0 → ∀ key, (hist.count key : Int) ≤ threshold)
    {c : Str × Nat × AbsPoint} (h : chooseMedoid penalties threshold suite hist = (.ok c, hist')) :
    ∃ (a : Nat) (ms : List AbsPoint), suite[a]? = some (c.1, ms) ∧ ms[c.2.1]? = some c.2.2 ∧
      (threshold = 0 ∨ (hist.count (c.1, c.2.1) : Int) < threshold) ∧
      ∀ (b : Nat) r' ms' (j : Nat) m', suite[b]? = some (r', ms') → ms'[j]? = some m' →
        (threshold = 0 ∨ (hist.count (r', j) : Int) < threshold) →
        dist c.2.2 ≤ dist m' ∧ (Before b j a c.2.1 → dist c.2.2 < dist m') := by
  let penalty : Str → Nat → Score K := fun r i =>
    match suite.find? (fun e => e.1 = r) with
    | some e => match e.2[i]? with
      | some m => effective threshold (hist.count (r, i)) (some ((dist m : K) : WithTop K))
      | none => some ⊤
    | none => some ⊤
  have hpen : ∀ e ∈ suite, ∀ (i : Nat) m, e.2[i]? = some m →
      penalty e.1 i = effective threshold (hist.count (e.1, i)) (some ((dist m : K) : WithTop K)) := by
    intro e he i m hm
    have hfind : suite.find? (fun e' => e'.1 = e.1) = some e := by
      cases hf : suite.find? (fun e' => e'.1 = e.1) with
      | none =>
        rw [List.find?_eq_none] at hf
        exact absurd (decide_eq_true rfl) (hf e he)
      | some e' =>
        have hm := List.mem_of_find?_eq_some hf
        have he' := List.find?_some hf
        simp only [decide_eq_true_eq] at he'
        rw [List.inj_on_of_nodup_map hkeys hm he he']
    simp only [penalty, hfind, hm]
  have hP : Penalizes penalties threshold suite hist penalty := by
    refine ⟨hne, fun e he => ⟨_, hs e he, by simp, fun i s hi => ?_⟩, fun h0 e _ i _ => hb h0 _⟩
    rw [List.getElem?_map] at hi
    obtain ⟨m, hm, rfl⟩ := Option.map_eq_some_iff.1 hi
    exact hpen e he i m hm
  have hfin : ∀ e ∈ suite, ∀ i < e.2.length, penalty e.1 i ≠ none := by
    intro e he i hi
    rw [hpen e he i _ (List.getElem?_eq_getElem hi), effective]
    split <;> simp
  obtain ⟨a, ms, v, h1, h2, h3, h4⟩ := (C54_no_nan_partial hP hfin).2 c hist' h
  have hmem := List.mem_of_getElem? h1
  have e1 := hpen _ hmem _ _ h2
  rw [h3] at e1
  have hfree : threshold = 0 ∨ (hist.count (c.1, c.2.1) : Int) < threshold := by
    by_cases h0 : threshold = 0
    · exact .inl h0
    · right
      refine lt_of_le_of_ne (hb h0 _) fun heq => ?_
      rw [effective, if_pos ⟨h0, heq⟩] at e1
      simp at e1
  have hv : v = dist c.2.2 := by
    rw [effective, if_neg (by rintro ⟨g1, g2⟩; rcases hfree with h | h; exacts [g1 h, h.ne g2])] at e1
    simpa using e1
  subst hv
  refine ⟨a, ms, h1, h2, hfree, ?_⟩
  intro b r' ms' j m' k1 k2 k3
  have e2 := hpen _ (List.mem_of_getElem? k1) _ _ k2
  rw [effective, if_neg (by rintro ⟨g1, g2⟩; rcases k3 with h | h; exacts [g1 h, h.ne g2])] at e2
  obtain ⟨f1, f2⟩ := h4 b r' ms' j _ k1 (List.getElem?_eq_some_iff.1 k2).1 e2
  exact ⟨WithTop.coe_le_coe.1 f1, fun hbf => WithTop.coe_lt_coe.1 (f2 hbf)⟩

namespace Extraction

/-- **C145** (choice): in a run that ends well with the smallest distance as the criterion, the rows of the choices are
those of distinct points of the region, with their series. Each names the medoid that is nearest to its point among those
that have been named less than `threshold` times by the rows before it. -/
theorem _root_.Spta.C145_nearest {x : Extraction K} {files files' : Str → Option Str} (hgood : x.Good)
    {suite : SuiteResult} (hread : retrieveSuiteText (files x.analysisPath) = .ok suite) {s : Stack K}
    {g : Grid (Option K)} (hp : x.Prepared s suite g) {d : Nat → Nat → K}
    (hd : ∀ p q, p < s.data.grid.xLen * s.data.grid.yLen → q < s.data.grid.xLen * s.data.grid.yLen →
      g.get ⟨p, q⟩ = .ok (some (d p q)))
    (h : x.run files = (.ok (), files')) (ht : 0 ≤ x.threshold) (hshort : ShortSuite suite)
    (hlen : s.data.tLen < 10 ^ 9) (hid : Readable x.md.repr) (hshow : ∀ v, Readable (x.show3 v)) :
    ∃ header choice, ∃ points : List Point,
      (files' (x.path .choice)).map csvReadText = some (header :: choice, none) ∧
      points.length = x.count ∧ choice.length = x.count ∧
      points.Nodup ∧ (∀ p ∈ points, p.x < s.data.grid.xLen ∧ p.y < s.data.grid.yLen) ∧
      ∀ (n : Nat) p row, points[n]? = some p → choice[n]? = some row →
        (∃ ref series, medoidRef row = some (ref, series.map x.show3) ∧ s.seriesAt p = .ok series) ∧
        ∃ a i e m, NearestFree x.threshold x.md.region d suite (choice.take n) (p.x * s.data.grid.yLen + p.y) row
          a i e m := by
  obtain ⟨n1, n2, n3, n4⟩ := paths hgood
  have hkeys := retrieveSuiteText_keys hread
  have hload : (loadMatrix2d x.matrixFile x.md.region none).1 = .ok (some g) := by
    obtain ⟨h1, h2, h3⟩ := hp.shape
    rw [hp.file, loadMatrix2d, h2, h3, hp.sizes.1, hp.sizes.2]
    simp
  rw [run, hload, hp.region] at h
  simp only at h
  split at h
  · cases h
  · rename_i u files1 he
    obtain ⟨suite', points, header, cs, hist, rows, e1, e2, e3, e4, e5, e6⟩ := evaluate_ok he
    obtain ⟨_, _, _, _, _, _, _, _, f5⟩ := produceCsv_ok h
    rw [hread] at e1
    cases e1
    obtain ⟨c1, c2, -⟩ := C55_counts e4
    have hpoints : points.length = x.count ∧ points.Nodup ∧
        ∀ p ∈ points, p.x < s.data.grid.xLen ∧ p.y < s.data.grid.yLen := by
      obtain ⟨d1, d2⟩ := C56_distinct x.count x.perm _ _ _ hp.draws
      rcases Nat.lt_or_ge (Finset.Icc (0 : Int) ((s.data.grid.xLen * s.data.grid.yLen : Nat) - 1) \
        (allMedoidIndices suite s.data.grid.yLen).toFinset).card x.count with hlt | hge
      · rw [d1 hlt] at e2; cases e2
      · obtain ⟨ps, d3, d4, d5, d6⟩ := d2 hge
        rw [d3] at e2
        cases e2
        exact ⟨d4, d5, fun p hp => ⟨(d6 p hp).1, (d6 p hp).2.1⟩⟩
    rw [mapM_eq_ok] at e5
    have hchoice : List.Forall₂ (fun (e : Point × Str × Nat × AbsPoint) row => ∃ v, s.seriesAt e.1 = .ok v ∧
        medoidRef row = some (⟨e.2.1, natStr e.2.2.1, intStr e.2.2.2.1, intStr e.2.2.2.2⟩, v.map x.show3) ∧
        ∀ f ∈ row, Readable f) (points.zip cs) (rows.map (·.map (cellText x.show3))) := by
      rw [List.forall₂_map_right_iff]
      have hz : ∀ e ∈ points.zip cs, e.2 ∈ cs := fun e hm => (List.of_mem_zip hm).2
      refine ((List.forall₂_and_left _ _).2 ⟨hz, e5⟩).imp ?_
      rintro e row0 ⟨a1, a2⟩
      obtain ⟨v, v1, v2⟩ := choiceRow_ok a2
      obtain ⟨e', hem, k1, k2⟩ := c2 _ a1
      obtain ⟨cl, k3, k4⟩ := hp.medoids.1 e' hem
      obtain ⟨s1, s2, s3⟩ := hshort e' hem
      obtain ⟨row, r1, r2, r3⟩ := trainRow_ref x.show3 x.md.repr k4 e.2.2.1 e.2.2.2 v
      rw [← k3, k1] at r1 r2 r3
      have hm := s3 _ (List.mem_of_getElem? k2)
      obtain ⟨hi, _⟩ := List.getElem?_eq_some_iff.1 k2
      rw [v2] at r1
      cases r1
      exact ⟨v, v1, r2, r3 hid (k1 ▸ s1) (by omega) hm.1 hm.2 hshow⟩
    have hclen : (rows.map (·.map (cellText x.show3))).length = x.count := by
      rw [← hchoice.length_eq, List.length_zip, c1, Nat.min_self, hpoints.1]
    refine ⟨header, rows.map (·.map (cellText x.show3)), points, ?_, hpoints.1, hclen, hpoints.2.1, hpoints.2.2, ?_⟩
    · rw [f5, Function.update_of_ne (n3 _).symm, e6, Function.update_of_ne n4, choiceFiles, Function.update_self,
        Option.map_some, C132_round_trip]
      intro row hr
      rcases List.mem_cons.1 hr with rfl | hr
      · exact trainHeader_readable hlen e3
      · obtain ⟨e, _, v, _, _, hf⟩ := forall₂_mem_right hchoice hr
        exact hf
    · intro n p row hpn hrow
      obtain ⟨hpx, hpy⟩ := hpoints.2.2 p (List.mem_of_getElem? hpn)
      obtain ⟨c, h1, h2, j1, j2, j3⟩ := chooseAll_at e4 hpn
      obtain ⟨z, hz, v, v1, v2, -⟩ := forall₂_getElem?_right hchoice hrow
      have hz' : z = (p, c) := by
        rw [List.getElem?_zip_eq_some] at hz
        rw [hpn, j1] at hz
        exact Prod.ext (Option.some.inj hz.1).symm (Option.some.inj hz.2).symm
      subst hz'
      refine ⟨⟨_, v, v2, v1⟩, ?_⟩
      have hcount : ∀ r i, h1.count (r, i) =
          ((rows.map (·.map (cellText x.show3))).take n).countP (Names r (natStr i)) := by
        intro r i
        have hcnt := (C55_counts j2).2.2 (r, i)
        rw [MedoidHist.count, Nat.zero_add] at hcnt
        have hzz : cs.take n = ((points.zip cs).take n).map Prod.snd := by
          rw [List.map_take, List.map_snd_zip (by omega)]
        rw [hcnt, hzz, List.countP_map]
        refine forall₂_countP (List.forall₂_take n hchoice) ?_
        rintro z row ⟨v, _, h2, _⟩
        simp only [Function.comp, Names, h2, decide_eq_decide]
        constructor
        · intro hk
          obtain ⟨k1, k2⟩ := Prod.mk.inj hk
          exact ⟨k1, by rw [k2]⟩
        · rintro ⟨k1, k2⟩
          exact Prod.ext k1 (natStr_inj k2)
      have hb : x.threshold ≠ 0 → ∀ key, (h1.count key : Int) ≤ x.threshold := by
        intro h0 key
        have := C55_bound (penalties := x.rule.penalties (some g) x.md.region) (threshold := x.threshold) (by omega)
          (suite := suite) (points.take n) [] (fun key => by
            show ((0 : Nat) : Int) ≤ x.threshold
            exact ht) key
        rw [j2] at this
        exact this
      obtain ⟨a, ms, q1, q2, q3, q4⟩ := chosen_nearest hkeys hp.medoids.2.2
        (dist := fun m => d (p.x * s.data.grid.yLen + p.y) (positionIn x.md.region m)) (fun e he => by
          rw [hp.rule, ChoiceRule.penalties]
          exact minDistance_scores hp.shape.2.2 hp.sizes.1 hp.sizes.2 hd hpx hpy (hp.medoids.2.1 e he)) hb j3
      refine ⟨a, c.2.1, (c.1, ms), c.2.2, q1, q2, ⟨_, v2⟩, ?_, ?_⟩
      · rw [Free, ← hcount]
        exact q3
      · intro b e' j m' k1 k2 k3
        rw [Free, ← hcount] at k3
        exact q4 b e'.1 e'.2 j m' k1 k2 k3

end Extraction

end

/-! ### After the analysis -/

section

variable {K : Type} [Field K] [LinearOrder K] [IsStrictOrderedRing K] {P Q M A L : Type} {w : SolverWorld K P Q M}
  {dnn : DnnTools K} {tools : ErrorTools K M} {st : StudyTools K A L} {regions : List RegionMeta}

theorem trainingMedoids_eq {md : RegionMeta} {c : ClusterMeta} {pt : Partition} {ms : List Point}
    (h : w.partition md .dtw c = .ok (pt, ms)) : medoidsOf w md c = ms := by
  rw [medoidsOf, h]

theorem intStr_natCast (n : Nat) : intStr (n : Int) = natStr n := rfl

theorem positionIn_dataset {r : Region} {yLen : Nat} (hy : yLen = r.y2 - r.y1) (m : Point) :
    positionIn r (((r.x1 + m.x : Nat) : Int), ((r.y1 + m.y : Nat) : Int)) = m.x * yLen + m.y := by
  have e1 : (((r.x1 + m.x : Nat) : Int) - r.x1).toNat = m.x := by omega
  have e2 : (((r.y1 + m.y : Nat) : Int) - r.y1).toNat = m.y := by omega
  simp only [positionIn, e1, e2, hy]

/-- What the extraction needs holds of the suite that was analysed. -/
theorem prepared_analysed {a : AnalysisArgs} (ha : SuiteAccepted regions a.region a.suite)
    {s : Stack K} {d : Nat → Nat → K} (hw : StudyReady w tools a.region s) (hx : AnalysisReady tools st a s d)
    (hr : ∀ c ∈ a.suite, ∃ pt medoids, PartitionReady w a.region s c pt medoids) {x : Extraction K}
    (he : ExtractionReady w tools a s x) :
    x.Prepared s (analysedSuite w a) (tools.distances a.region) ∧ ShortSuite (analysedSuite w a) := by
  obtain ⟨g1, g2, g3⟩ := he.shape
  have hinside : ∀ c ∈ a.suite, ∀ m ∈ medoidsOf w a.region c, m.x < s.data.grid.xLen ∧ m.y < s.data.grid.yLen := by
    intro c hc m hm
    obtain ⟨pt, ms, hp⟩ := hr c hc
    rw [trainingMedoids_eq hp.partition] at hm
    obtain ⟨i, hi⟩ := List.getElem?_of_mem hm
    have := (Grid.get_eq_ok_iff _ _ _).1 (hp.member i m hi)
    rw [← hp.shape.1, ← hp.shape.2]
    exact ⟨this.1, this.2.1⟩
  have hmem : ∀ e ∈ analysedSuite w a, ∃ c ∈ a.suite, e = (c.repr, datasetPoints a.region.region (medoidsOf w a.region c)) := by
    intro e hem
    obtain ⟨c, hc, rfl⟩ := List.mem_map.1 hem
    exact ⟨c, hc, rfl⟩
  refine ⟨⟨he.rule, he.file, he.shape, ?_, he.loaded, ?_, ?_, ⟨?_, ?_, ?_⟩, he.draws⟩, ?_⟩
  · intro v hv
    obtain ⟨n, hn⟩ := List.getElem?_of_mem hv
    have hlt := (List.getElem?_eq_some_iff.1 hn).1
    rw [g1] at hlt
    have hpos : 0 < (tools.distances a.region).yLen := by
      rcases Nat.eq_zero_or_pos (tools.distances a.region).yLen with h0 | h0
      · rw [h0, Nat.mul_zero] at hlt
        omega
      · exact h0
    have hget : (tools.distances a.region).get ⟨n / (tools.distances a.region).yLen, n % (tools.distances a.region).yLen⟩ =
        .ok v := by
      rw [Grid.get_eq_ok_iff]
      refine ⟨Nat.div_lt_of_lt_mul (by rw [Nat.mul_comm]; exact hlt), Nat.mod_lt _ hpos, ?_⟩
      rw [Nat.div_add_mod']
      exact hn
    have := hx.distances (n / (tools.distances a.region).yLen) (n % (tools.distances a.region).yLen)
      (by rw [← g2]; exact Nat.div_lt_of_lt_mul (by rw [Nat.mul_comm]; exact hlt))
      ((Nat.mod_lt _ hpos).trans_eq g3)
    rw [hget] at this
    cases this
    rfl
  · rw [he.region]
    exact he.sizes
  · intro p h1 h2
    rw [hw.created.seriesAt]
    exact s.data.grid.exists_get hw.created.ok.1.data_wf.1 h1 h2
  · intro e hem
    obtain ⟨c, hc, rfl⟩ := hmem e hem
    refine ⟨c, rfl, ?_⟩
    rintro m rfl
    obtain ⟨k, seed, h | h⟩ := ha.2 _ hc
    · cases h
    · cases h
      show '_' ∉ (({ k := 1, seed := 0 } : KmMeta)).mode ∧ ({ k := 1, seed := 0 } : KmMeta).initial = none
      decide
  · intro e hem m hm
    obtain ⟨c, hc, rfl⟩ := hmem e hem
    obtain ⟨q, hq, rfl⟩ := List.mem_map.1 hm
    obtain ⟨h1, h2⟩ := hinside c hc q hq
    obtain ⟨z1, z2⟩ := he.sizes
    rw [he.region]
    simp only
    omega
  · intro e hem
    obtain ⟨c, hc, rfl⟩ := hmem e hem
    obtain ⟨pt, ms, hp⟩ := hr c hc
    have hpos := hp.valid.pos
    have hcnt := hp.count
    simp only [trainingMedoids_eq hp.partition, datasetPoints]
    intro h0
    rw [List.map_eq_nil_iff] at h0
    rw [h0] at hcnt
    simp at hcnt
    omega
  · intro e hem
    obtain ⟨c, hc, rfl⟩ := hmem e hem
    obtain ⟨pt, ms, hp⟩ := hr c hc
    obtain ⟨n1, n2⟩ := hx.names c hc
    refine ⟨n1, ?_, ?_⟩
    · have h1 := hp.count
      have h2 := hp.clusters
      simp only [trainingMedoids_eq hp.partition, datasetPoints, List.length_map]
      omega
    · intro m hm
      obtain ⟨q, hq, rfl⟩ := List.mem_map.1 hm
      obtain ⟨h1, h2⟩ := hinside c hc q hq
      have h3 := hx.x
      have h4 := hx.y
      simp only
      omega

/-- **C145**: the analysis of a suite of different clusterings, after any session, prepares the extraction of training
data. The extraction ends well exactly if the suite is not empty, enough points are left to draw from, and there is no
threshold or at most `threshold` points are drawn per cluster of the suite. In that case the files fit together, and each
row of the choices names the medoid of the suite that is nearest to its point among those that are still free. -/
theorem C145_training (hc : GoodCatalogue regions) (hl : dnn.GoodLabels) {session : List StudyRun}
    (hs : ∀ c ∈ session, c.Accepted regions) {a : AnalysisArgs} (ha : SuiteAccepted regions a.region a.suite)
    (hn : a.suite.Nodup) {s : Stack K} {d : Nat → Nat → K} (hw : StudyReady w tools a.region s)
    (hx : AnalysisReady tools st a s d) (hr : ∀ c ∈ a.suite, ∃ pt medoids, PartitionReady w a.region s c pt medoids)
    {x : Extraction K} (he : ExtractionReady w tools a s x) (files : Str → Option Str) :
    ∃ store files1, analysisCommand w tools st a (studyStore w dnn tools st session, files) =
        (.ok (), (store, files1)) ∧
      ((x.run files1).1 = .ok () ↔ a.suite ≠ [] ∧ x.count ≤ Extraction.available (analysedSuite w a) s ∧
        (x.threshold = 0 ∨ (x.count : Int) ≤ (a.suite.map ClusterMeta.k).sum * x.threshold)) ∧
      ∀ files2, x.run files1 = (.ok (), files2) →
        ∃ header choice medoids hist, ∃ points : List Point,
          (files2 (x.path .choice)).map csvReadText = some (header :: choice, none) ∧
          (files2 x.medoidPath).map csvReadText = some (header :: medoids, none) ∧
          (files2 (x.path .hist)).map csvReadText =
            some ((["clustering_repr", "cluster_index", "count"].map String.toList) ::
              hist.map (fun h => [h.1, h.2.1, natStr h.2.2]), none) ∧
          TrainingFiles x.count choice medoids hist ∧ points.length = x.count ∧ points.Nodup ∧
          (∀ p ∈ points, p.x < s.data.grid.xLen ∧ p.y < s.data.grid.yLen) ∧
          ∀ (n : Nat) p row, points[n]? = some p → choice[n]? = some row →
            TrainingRow w a s x d (choice.take n) p row := by
  obtain ⟨store, files1, h1, ⟨text, h2, -, h3⟩, -⟩ := C144_analysis hc hl hs ha hw hx hr files
  obtain ⟨ms, h4, h5⟩ := h3 hn
  obtain ⟨hprep, hshort⟩ := prepared_analysed ha hw hx hr he
  have hgood : x.Good := by
    refine ⟨?_, ?_, ?_⟩
    · rw [he.region]; exact hc.1 _ ha.1
    · rw [he.suite]; exact hx.suite
    · rw [he.rule]; trivial
  have hsuite : (a.suite.map fun c => (c.repr, datasetPoints a.region.region (ms c))) = analysedSuite w a := by
    refine List.map_congr_left fun c hcm => ?_
    obtain ⟨pt, m, hp⟩ := hr c hcm
    rw [trainingMedoids_eq hp.partition, h4 c hcm pt m hp.partition]
  have hread : retrieveSuiteText (files1 x.analysisPath) = .ok (analysedSuite w a) := by
    have e : x.analysisPath = a.id.analysisPath "outputs".toList a.region .dtw := by
      rw [Extraction.analysisPath, he.suite, he.region]; rfl
    rw [e, h2, h5, hsuite]
  refine ⟨store, files1, h1, ?_, ?_⟩
  · rw [C141_when hgood hread hprep he.threshold]
    have e1 : analysedSuite w a ≠ [] ↔ a.suite ≠ [] := by rw [analysedSuite, ne_eq, List.map_eq_nil_iff]
    have e2 : ((((analysedSuite w a).map fun e => e.2.length).sum : Nat) : Int) = (a.suite.map ClusterMeta.k).sum := by
      rw [analysedSuite, List.map_map, Nat.cast_list_sum, List.map_map]
      congr 1
      refine List.map_congr_left fun c hcm => ?_
      obtain ⟨pt, m, hp⟩ := hr c hcm
      simp only [Function.comp, trainingMedoids_eq hp.partition, datasetPoints, List.length_map, hp.count]
      exact hp.clusters
    rw [e1, e2]
  · intro files2 hrun
    obtain ⟨header, choice, medoids, hist, s', points', k0, k1, k2, k3, k4, -⟩ := C141_files hgood hrun
      (fun suite hsu => by
        rw [hread] at hsu
        cases hsu
        exact ⟨hprep.medoids.1, hshort⟩)
      (fun suite s' hsu hs' => by
        rw [hread] at hsu
        cases hsu
        rw [he.loaded] at hs'
        cases hs'
        exact ⟨he.draws, he.tLen⟩) (by rw [he.region]; exact he.id) he.show3 he.count
    obtain ⟨header', choice', points, j1, j2, j3, j4, j5, j6⟩ := C145_nearest hgood hread hprep hx.distances hrun
      he.threshold hshort he.tLen (by rw [he.region]; exact he.id) he.show3
    rw [j1] at k1
    cases k1
    refine ⟨header, choice, medoids, hist, points, j1, k2, k3, k4, j2, j4, j5, ?_⟩
    intro n p row hp hrow
    obtain ⟨⟨ref, series, r1, r2⟩, b, i, e, m, hnf⟩ := j6 n p row hp hrow
    have hcl := hnf.clustering
    rw [analysedSuite, List.getElem?_map] at hcl
    obtain ⟨c, hcb, rfl⟩ := Option.map_eq_some_iff.1 hcl
    have hmd := hnf.medoid
    rw [datasetPoints, List.getElem?_map] at hmd
    obtain ⟨q, hq, rfl⟩ := Option.map_eq_some_iff.1 hmd
    obtain ⟨samples, hsm⟩ := hnf.named
    rw [r1] at hsm
    cases hsm
    refine ⟨b, c, i, q, series, hcb, hq, r2, r1, hnf.free, ?_⟩
    intro b' c' j m' hcb' hq' hfree
    have := hnf.nearest b' (c'.repr, datasetPoints a.region.region (medoidsOf w a.region c')) j _
      (by rw [analysedSuite, List.getElem?_map, hcb']; rfl)
      (by rw [datasetPoints, List.getElem?_map, hq']; rfl) hfree
    rw [he.region, positionIn_dataset he.sizes.2, positionIn_dataset he.sizes.2] at this
    exact this

/-- **C145** (own cluster): without threshold and with a single clustering, whose labels are those of the first nearest
medoids, as k-medoids leaves them (C26), each row names the cluster of its point. -/
theorem C145_own {a : AnalysisArgs} {c : ClusterMeta} (hsuite : a.suite = [c]) {s : Stack K} {d : Nat → Nat → K}
    (hsym : ∀ p q, p < s.data.grid.xLen * s.data.grid.yLen → q < s.data.grid.xLen * s.data.grid.yLen → d p q = d q p)
    {pt : Partition} {medoids : List Point} (hr : PartitionReady w a.region s c pt medoids)
    (hnear : ∀ p i, pt.labels.get p = .ok i → FirstNearest d (medoids.map fun m => m.x * s.data.grid.yLen + m.y)
      (p.x * s.data.grid.yLen + p.y) i)
    {x : Extraction K} (ht : x.threshold = 0) {before : List (List Str)} {p : Point}
    (hp : p.x < s.data.grid.xLen ∧ p.y < s.data.grid.yLen) {row : List Str} (h : TrainingRow w a s x d before p row) :
    ∃ i m series, pt.labels.get p = .ok i ∧ medoids[i]? = some m ∧ s.seriesAt p = .ok series ∧
      medoidRef row = some (⟨c.repr, natStr i, natStr (a.region.region.x1 + m.x), natStr (a.region.region.y1 + m.y)⟩,
        series.map x.show3) := by
  obtain ⟨b, c', i, m, series, h1, h2, h3, h4, -, h6⟩ := h
  have hb : b = 0 ∧ c' = c := by
    rw [hsuite] at h1
    cases b with
    | zero => cases h1; exact ⟨rfl, rfl⟩
    | succ b => simp at h1
  obtain ⟨rfl, rfl⟩ := hb
  rw [trainingMedoids_eq hr.partition] at h2
  obtain ⟨l, hlab⟩ := pt.labels.exists_get hr.valid.wf (p := p) (by rw [hr.shape.1]; exact hp.1)
    (by rw [hr.shape.2]; exact hp.2)
  obtain ⟨q, q1, q2⟩ := hnear p l hlab
  rw [List.getElem?_map] at q1
  obtain ⟨m', hm', rfl⟩ := Option.map_eq_some_iff.1 q1
  have hlt : ∀ (j : Nat) q, medoids[j]? = some q → q.x * s.data.grid.yLen + q.y < s.data.grid.xLen * s.data.grid.yLen := by
    intro j q hq
    have := (Grid.get_eq_ok_iff _ _ _).1 (hr.member j q hq)
    rw [hr.shape.1, hr.shape.2] at this
    exact idx_lt this.1 this.2.1
  have hil : i = l := by
    have a1 := q2 i (m.x * s.data.grid.yLen + m.y) (by rw [List.getElem?_map, h2]; rfl)
    have a2 := h6 0 c' l m' (by rw [hsuite]; rfl) (by rw [trainingMedoids_eq hr.partition]; exact hm') (.inl ht)
    rw [hsym _ _ (idx_lt hp.1 hp.2) (hlt i m h2), hsym _ _ (idx_lt hp.1 hp.2) (hlt l m' hm')] at a2
    rcases Nat.lt_trichotomy i l with hlt | heq | hgt
    · exact absurd a2.1 (not_le.2 (a1.2 hlt))
    · exact heq
    · exact absurd a1.1 (not_le.2 (a2.2 (.inr ⟨rfl, hgt⟩)))
  subst hil
  rw [h2] at hm'
  cases hm'
  exact ⟨i, m, series, hlab, h2, h3, h4⟩

end

/-! ### Examples -/

/-- An extraction of three points for the region and the suite of the examples of C144. -/
def studyExtraction (K : Type) [Field K] [LinearOrder K] (threshold : Int) (perm : List Nat) : Extraction K where
  md := studyRegion
  suite := ⟨"kmedoids".toList, "quick".toList⟩
  rule := .minDistance
  count := 3
  seed := 0
  threshold := threshold
  matrixFile := .matrix ((studyLab K).distances studyRegion)
  region := .ok (errRegion K)
  perm := perm
  show3 _ := "?".toList

section

variable {K : Type} [Field K] [LinearOrder K] [IsStrictOrderedRing K]

theorem study_analysed : analysedSuite (studyWorld K) (studyAnalysis labSuite) =
    [("kmedoids_k2_seed0_lite".toList, [(5, 7), (5, 9)]), ("regular_k2".toList, [(5, 7), (5, 9)])] := by
  have h : analysedSuite (studyWorld K) (studyAnalysis labSuite) =
      labSuite.map fun c => (c.repr, datasetPoints studyRegion.region [⟨0, 0⟩, ⟨0, 2⟩]) :=
    List.map_congr_left fun c hc => by
      show (c.repr, datasetPoints studyRegion.region (medoidsOf (studyWorld K) studyRegion c)) = _
      rw [trainingMedoids_eq (study_partitions c hc).partition]
  rw [h]
  decide +kernel

/-- The indices of the medoids in coordinates of the dataset are not those of points of the region, so that all three
points are available. -/
theorem study_extraction {threshold : Int} (ht : 0 ≤ threshold) :
    ExtractionReady (studyWorld K) (studyLab K) (studyAnalysis labSuite) (errRegion K)
      (studyExtraction K threshold [1, 0, 2]) where
  region := rfl
  suite := rfl
  rule := rfl
  loaded := rfl
  file := rfl
  shape := ⟨rfl, rfl, rfl⟩
  sizes := ⟨rfl, rfl⟩
  draws := by
    rw [study_analysed]
    show List.Perm [1, 0, 2] (List.range (Finset.Icc (0 : Int) ((1 * 3 : Nat) - 1) \ (allMedoidIndices
      [("kmedoids_k2_seed0_lite".toList, [(5, 7), (5, 9)]), ("regular_k2".toList, [(5, 7), (5, 9)])] 3).toFinset).card)
    decide +kernel
  threshold := ht
  id := by unfold Readable; decide +kernel
  show3 := by
    intro v
    show Readable "?".toList
    unfold Readable
    decide +kernel
  count := by show 3 < 10 ^ 9; decide
  tLen := by show 9 < 10 ^ 9; decide

end

/-- The hypotheses of C145 hold after the session of the examples of C144: with a threshold of 1 there are four medoids
for three points. -/
example (files : Str → Option Str) : ∃ store files1 files2,
    analysisCommand (studyWorld ℝ) (studyLab ℝ) (studyTools Real.sqrt) (studyAnalysis labSuite)
      (studyStore (studyWorld ℝ) (studyDnn ℝ) (studyLab ℝ) (studyTools Real.sqrt) studySession, files) =
        (.ok (), (store, files1)) ∧
    (studyExtraction ℝ 1 [1, 0, 2]).run files1 = (.ok (), files2) ∧
    ∃ header choice, ∃ points : List Point,
      (files2 ((studyExtraction ℝ 1 [1, 0, 2]).path .choice)).map csvReadText = some (header :: choice, none) ∧
      points.length = 3 ∧ ∀ (n : Nat) p row, points[n]? = some p → choice[n]? = some row →
        TrainingRow (studyWorld ℝ) (studyAnalysis labSuite) (errRegion ℝ) (studyExtraction ℝ 1 [1, 0, 2])
          (studyDistance ℝ) (choice.take n) p row := by
  obtain ⟨store, files1, h1, h2, h3⟩ := C145_training (st := studyTools Real.sqrt) study_regions studyDnn_labels
    studySession_accepted (a := studyAnalysis labSuite) ⟨List.mem_singleton.2 rfl, labSuite_plain⟩ (by decide)
    (study_ready (K := ℝ)) (study_analysis Real.sqrt study_names) (fun c hc => ⟨_, _, study_partitions c hc⟩)
    (study_extraction (threshold := 1) (by decide)) files
  have h4 := h2.2 ⟨by decide, by
    rw [study_analysed]
    show 3 ≤ (Finset.Icc (0 : Int) ((1 * 3 : Nat) - 1) \ (allMedoidIndices
      [("kmedoids_k2_seed0_lite".toList, [(5, 7), (5, 9)]), ("regular_k2".toList, [(5, 7), (5, 9)])] 3).toFinset).card
    decide +kernel, .inr (by decide)⟩
  obtain ⟨header, choice, -, -, points, k1, -, -, -, k2, -, -, k3⟩ := h3 _ (Prod.ext h4 rfl)
  exact ⟨store, files1, _, h1, Prod.ext h4 rfl, header, choice, points, k1, k2, k3⟩

/-- The hypotheses of `C145_own` hold of the clustering of the examples. -/
example {before : List (List Str)} {p : Point} (hp : p.x < 1 ∧ p.y < 3) {row : List Str}
    (h : TrainingRow (studyWorld ℝ) (studyAnalysis [.regular 2]) (errRegion ℝ) (studyExtraction ℝ 0 [1, 0, 2])
      (studyDistance ℝ) before p row) :
    ∃ i m series, errPartition.labels.get p = .ok i ∧ [(⟨0, 0⟩ : Point), ⟨0, 2⟩][i]? = some m ∧
      (errRegion ℝ).seriesAt p = .ok series ∧
      medoidRef row = some (⟨(ClusterMeta.regular 2).repr, natStr i, natStr (5 + m.x), natStr (7 + m.y)⟩,
        series.map (studyExtraction ℝ 0 [1, 0, 2]).show3) := by
  refine C145_own (a := studyAnalysis [.regular 2]) rfl ?_ (study_partitions _ (by decide)) ?_ rfl hp h
  · intro p q _ _
    unfold studyDistance
    simp only [eq_comm (a := p), add_comm p]
  · rintro ⟨x, y⟩ i hi
    have hr := (Grid.get_eq_ok_iff _ _ _).1 hi
    have h1 : x < 1 := hr.1
    have h2 : y < 3 := hr.2.1
    have h3 : i = if y = 2 then 1 else 0 := by
      have : (errPartition.labels.get ⟨x, y⟩) = .ok (if y = 2 then 1 else 0) := by
        interval_cases x <;> interval_cases y <;> rfl
      rw [this] at hi
      exact (Except.ok.inj hi).symm
    subst h3
    interval_cases x
    interval_cases y
    · refine ⟨0, rfl, fun j m hm => ?_⟩
      match j, hm with
      | 0, hm => cases hm; norm_num [studyDistance, errRegion, Stack.data]
      | 1, hm => cases hm; norm_num [studyDistance, errRegion, Stack.data]
    · refine ⟨0, rfl, fun j m hm => ?_⟩
      match j, hm with
      | 0, hm => cases hm; norm_num [studyDistance, errRegion, Stack.data]
      | 1, hm => cases hm; norm_num [studyDistance, errRegion, Stack.data]
    · refine ⟨2, rfl, fun j m hm => ?_⟩
      match j, hm with
      | 0, hm => cases hm; norm_num [studyDistance, errRegion, Stack.data]
      | 1, hm => cases hm; norm_num [studyDistance, errRegion, Stack.data]

/-- The file of the choices after the two programs. -/
example :
    let files1 := (analysisCommand (studyWorld ℚ) (studyLab ℚ) (studyTools id) (studyAnalysis labSuite)
      (fun _ => none, fun _ => none)).2.2
    ((studyExtraction ℚ 1 [1, 0, 2]).run files1).2 ((studyExtraction ℚ 1 [1, 0, 2]).path .choice) =
      some ("region_id type k seed mode cluster_index medoid_x medoid_y s0 s1 s2 s3 s4 s5 s6 s7 s8\r\n" ++
        "b_2015_2015_1spd kmedoids 2 0 lite 0 5 7 ? ? ? ? ? ? ? ? ?\r\n" ++
        "b_2015_2015_1spd regular 2 0 5 7 ? ? ? ? ? ? ? ? ?\r\n" ++
        "b_2015_2015_1spd kmedoids 2 0 lite 1 5 9 ? ? ? ? ? ? ? ? ?\r\n").toList := by
  decide +kernel

end Spta
