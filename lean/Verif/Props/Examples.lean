import Verif.Spec.Examples
import Verif.Props.SyntheticProfiles
import Verif.Props.Silhouette
import Verif.Props.Parallel

/-!
# C139: the k-medoids examples
-/

namespace Spta

variable {K : Type}

theorem palette_nodup : palette.Nodup := by decide

theorem colourLoop_ok (seriesLen : Nat) (colours : List Nat) : ∀ (l : List (List K × Nat)),
    (∀ p ∈ l, p.1.length = seriesLen ∧ ∃ c, colours[p.2]? = some c ∧ c < 7) →
    ∃ lines, colourLoop seriesLen colours l = .ok lines ∧ lines.length = l.length ∧
      ∀ (i : Nat) q, lines[i]? = some q → ∃ p c, l[i]? = some p ∧ p.1 = q.1 ∧ colours[p.2]? = some c ∧
        palette[c]? = some q.2
  | [], _ => ⟨[], rfl, rfl, fun i q h => by simp at h⟩
  | (s, n) :: rest, h => by
    obtain ⟨h1, c, h2, h3⟩ := h (s, n) (by simp)
    obtain ⟨lines, e1, e2, e3⟩ := colourLoop_ok seriesLen colours rest fun p hp => h p (by simp [hp])
    have h4 : palette[c]? = some (palette[c]'h3) := List.getElem?_eq_getElem h3
    refine ⟨(s, palette[c]'h3) :: lines, ?_, by simp [e2], fun i q hi => ?_⟩
    · simp only at h1 h2
      simp only [colourLoop, h2, h4, e1, h1, ne_eq, not_true_eq_false, if_false]
    · cases i with
      | zero =>
        simp only [List.getElem?_cons_zero, Option.some.injEq] at hi
        subst hi
        exact ⟨(s, n), c, rfl, rfl, h2, h4⟩
      | succ i => exact e3 i q hi

theorem colourLoop_error (seriesLen : Nat) (colours : List Nat) : ∀ (l : List (List K × Nat)),
    (∀ p ∈ l, p.1.length = seriesLen) → (∃ p ∈ l, ∀ c, colours[p.2]? = some c → 7 ≤ c) →
    colourLoop seriesLen colours l = .error .indexError
  | [], _, h => by simp at h
  | (s, n) :: rest, hl, h => by
    by_cases hn : ∀ c, colours[n]? = some c → 7 ≤ c
    · unfold colourLoop
      cases hc : colours[n]? with
      | none => rfl
      | some c =>
        simp only
        rw [List.getElem?_eq_none (show palette.length ≤ c from hn c hc)]
    · obtain ⟨p, hp, hp'⟩ := h
      have hp'' : p ∈ rest := by
        rcases List.mem_cons.1 hp with rfl | hp
        · exact absurd hp' hn
        · exact hp
      have ih := colourLoop_error seriesLen colours rest (fun p hp => hl p (by simp [hp])) ⟨p, hp'', hp'⟩
      simp only [not_forall, not_le] at hn
      obtain ⟨c, hc, hlt⟩ := hn
      have h4 : palette[c]? = some (palette[c]'hlt) := List.getElem?_eq_getElem hlt
      have h1 := hl (s, n) (by simp)
      simp only at h1
      simp only [colourLoop, hc, h4, ih, h1, ne_eq, not_true_eq_false, if_false]

/-- **C139** (colours): series with their number of samples are drawn in the colours of their labels, different
colours for different labels, if every series has a label below 7 and there are at most 7 different labels. A label
from 7 on is an IndexError, even if there are only a few different labels; more than 7 different labels are a
ValueError. -/
theorem C139_colours (seriesLen : Nat) (group : List (List K)) (labels : List Nat)
    (hlen : ∀ s ∈ group, s.length = seriesLen) :
    ((∀ i < group.length, ∃ c, labels[i]? = some c ∧ c < 7) → labels.toFinset.card ≤ 7 →
      ∃ lines, plotByColour seriesLen group labels = .ok lines ∧ DrawnBy group labels lines ∧
        ∀ (i j : Nat) l l', lines[i]? = some l → lines[j]? = some l' → (l.2 = l'.2 ↔ labels[i]? = labels[j]?)) ∧
    ((∃ i < group.length, ∀ c, labels[i]? = some c → 7 ≤ c) → labels.toFinset.card ≤ 7 →
      plotByColour seriesLen group labels = .error .indexError) ∧
    (7 < labels.toFinset.card → plotByColour seriesLen group labels = .error .valueError) := by
  have hcard : labels.toFinset.card = labels.dedup.length := List.card_toFinset labels
  have hzip : ∀ p ∈ group.zipIdx, p.1.length = seriesLen ∧ p.2 < group.length := by
    intro p hp
    have h := List.mk_mem_zipIdx_iff_getElem?.1 (show (p.1, p.2) ∈ group.zipIdx from hp)
    exact ⟨hlen _ (List.mem_of_getElem? h), (List.getElem?_eq_some_iff.1 h).1⟩
  rw [hcard]
  refine ⟨fun h1 h2 => ?_, fun ⟨i, hi, h1⟩ h2 => ?_, fun h => ?_⟩
  · obtain ⟨lines, e1, e2, e3⟩ := colourLoop_ok seriesLen labels group.zipIdx fun p hp =>
      ⟨(hzip p hp).1, h1 _ (hzip p hp).2⟩
    have hl : ∀ (i : Nat) l, lines[i]? = some l → group[i]? = some l.1 ∧
        ∃ c, labels[i]? = some c ∧ palette[c]? = some l.2 := by
      intro i l h
      obtain ⟨p, c, a1, a2, a3, a4⟩ := e3 i l h
      rw [List.getElem?_zipIdx] at a1
      obtain ⟨s, hs, rfl⟩ := Option.map_eq_some_iff.1 a1
      simp only [Nat.zero_add] at a2 a3
      exact ⟨a2 ▸ hs, c, a3, a4⟩
    refine ⟨lines, ?_, ⟨by simpa using e2, fun i l h => (hl i l h).1, fun i l h => (hl i l h).2⟩, ?_⟩
    · unfold plotByColour
      rw [if_neg (show ¬ palette.length < _ from not_lt.2 h2), e1]
    · intro i j l l' hi hj
      obtain ⟨_, c, a1, a2⟩ := hl i l hi
      obtain ⟨_, c', b1, b2⟩ := hl j l' hj
      rw [a1, b1]
      constructor
      · intro e
        rw [← e, ← a2] at b2
        have hc : c' < palette.length := by
          by_contra hn
          rw [List.getElem?_eq_none (not_lt.1 hn), a2] at b2
          cases b2
        rw [(List.getElem?_inj hc palette_nodup).1 b2]
      · intro e
        cases e
        rw [a2] at b2
        exact Option.some.inj b2
  · unfold plotByColour
    rw [if_neg (show ¬ palette.length < _ from not_lt.2 h2)]
    refine colourLoop_error _ _ _ (fun p hp => (hzip p hp).1) ⟨(group[i], i), ?_, h1⟩
    exact List.mk_mem_zipIdx_iff_getElem?.2 (List.getElem?_eq_getElem hi)
  · unfold plotByColour
    rw [if_pos (show palette.length < _ from h)]

variable [Field K] [LinearOrder K]

omit [Field K] [LinearOrder K] in
theorem plotSeriesGroup_ok {seriesLen : Nat} {group : List (List K)} (h : ∀ s ∈ group, s.length = seriesLen) :
    plotSeriesGroup seriesLen group = .ok group := by
  unfold plotSeriesGroup
  rw [if_neg]
  simp only [ne_eq, List.any_eq_true, decide_eq_true_eq, not_exists, not_and, not_not]
  exact h

omit [Field K] [LinearOrder K] in
/-- **C139** (groups): `plot_series_group` draws every series if all have the given length, and else fails with
ValueError. -/
theorem C139_group (seriesLen : Nat) (group : List (List K)) :
    ((∀ s ∈ group, s.length = seriesLen) → plotSeriesGroup seriesLen group = .ok group) ∧
    ((∃ s ∈ group, s.length ≠ seriesLen) → plotSeriesGroup seriesLen group = .error .valueError) := by
  refine ⟨plotSeriesGroup_ok, ?_⟩
  rintro ⟨s, hs, hne⟩
  unfold plotSeriesGroup
  rw [if_pos]
  simp only [ne_eq, List.any_eq_true, decide_eq_true_eq]
  exact ⟨s, hs, hne⟩

example : plotSeriesGroup 2 [[1, 2], [3, (4 : ℚ)]] = .ok [[1, 2], [3, 4]] ∧
    plotSeriesGroup 2 [[1, 2], [(3 : ℚ)]] = .error .valueError := by decide +kernel

theorem flatten_getElem? {A : Type} {w : Nat} : ∀ (rows : List (List A)), (∀ r ∈ rows, r.length = w) →
    ∀ (a i : Nat), i < w → rows.flatten[a * w + i]? = rows[a]?.bind (·[i]?)
  | [], _, a, i, _ => by simp
  | r :: rows, h, a, i, hi => by
    have hr := h r (by simp)
    cases a with
    | zero => rw [List.flatten_cons, List.getElem?_append_left (by omega)]; simp
    | succ a =>
      rw [List.flatten_cons, List.getElem?_append_right (by rw [hr, Nat.succ_mul]; omega), hr,
        show (a + 1) * w + i - w = a * w + i by rw [Nat.succ_mul]; omega,
        flatten_getElem? rows (fun r' h' => h r' (by simp [h'])) a i hi]
      rfl

omit [LinearOrder K] in
/-- The matrix of an array of series holds the distances of the series. -/
theorem C139_matrix (measure : List K → List K → K) (X : List (List K)) :
    Realises (.matrix (seriesMatrix measure X)) X (distancesIn measure X) := by
  refine ⟨rfl, rfl, fun a ha i hi => ?_⟩
  rw [Grid.get_eq_ok_iff]
  refine ⟨ha, hi, ?_⟩
  show (seriesArrayMatrix measure X).flatten[a * X.length + i]? = _
  rw [flatten_getElem? _ (by
    intro r hr
    obtain ⟨s, _, rfl⟩ := List.mem_map.1 hr
    simp) a i hi, seriesArrayMatrix, List.getElem?_map, List.getElem?_eq_getElem ha, distancesIn]
  simp [List.getElem?_eq_getElem ha, List.getElem?_eq_getElem hi]

omit [LinearOrder K] in
/-- The matrix of a region is the matrix of its series. -/
theorem sequential_eq {g : Grid (List K)} (hg : g.WF) {junk : Grid K} (hj : junk.WF)
    (hx : junk.xLen = g.xLen * g.yLen) (hy : junk.yLen = g.xLen * g.yLen) (measure : List K → List K → K) :
    ∃ m, sequentialMatrix measure g junk = .ok m ∧ m = seriesMatrix measure g.data := by
  obtain ⟨m, h1, h2, h3, h4, h5⟩ := C35_sequential (measure := measure) hg hj hx hy
  refine ⟨m, h1, ?_⟩
  have hgl : g.data.length = g.xLen * g.yLen := hg
  have hget : ∀ a < g.data.length, ∃ p : Point, p.x * g.yLen + p.y = a ∧ ∀ s, g.data[a]? = some s → g.get p = .ok s := by
    intro a ha
    have ha' := ha
    rw [hgl] at ha'
    have hy0 : 0 < g.yLen := Nat.pos_of_mul_pos_left (Nat.lt_of_le_of_lt (Nat.zero_le _) ha')
    refine ⟨⟨a / g.yLen, a % g.yLen⟩, Nat.div_add_mod' _ _, fun s hs => (Grid.get_eq_ok_iff _ _ _).2
      ⟨Nat.div_lt_of_lt_mul (by rw [Nat.mul_comm]; exact ha'), Nat.mod_lt _ hy0, ?_⟩⟩
    simp only
    rw [Nat.div_add_mod', hs]
  obtain ⟨d1, d2, d3⟩ := C139_matrix measure g.data
  have hlen : (seriesMatrix measure g.data).data.length = g.data.length * g.data.length := by
    show (seriesArrayMatrix measure g.data).flatten.length = _
    rw [List.length_flatten, seriesArrayMatrix, List.map_map]
    rw [List.map_congr_left (g := fun _ => g.data.length) (fun s _ => by simp)]
    simp
  have hdata : m.data = (seriesMatrix measure g.data).data := by
    refine List.ext_getElem? fun i => ?_
    by_cases hi : i < g.data.length * g.data.length
    · have hn : 0 < g.data.length := Nat.pos_of_mul_pos_left (Nat.lt_of_le_of_lt (Nat.zero_le _) hi)
      have ha : i / g.data.length < g.data.length := Nat.div_lt_of_lt_mul hi
      have hb : i % g.data.length < g.data.length := Nat.mod_lt _ hn
      obtain ⟨p, p1, p2⟩ := hget _ ha
      obtain ⟨q, q1, q2⟩ := hget _ hb
      have e1 := h5 p q _ _ (p2 _ (List.getElem?_eq_getElem ha)) (q2 _ (List.getElem?_eq_getElem hb))
      have e2 := d3 _ ha _ hb
      rw [p1, q1, Grid.get_eq_ok_iff, h4, ← hgl] at e1
      rw [Grid.get_eq_ok_iff, d2] at e2
      have e1' := e1.2.2
      have e2' := e2.2.2
      simp only at e1' e2'
      rw [Nat.div_add_mod'] at e1' e2'
      rw [e1', e2', distancesIn]
      simp [List.getElem?_eq_getElem ha, List.getElem?_eq_getElem hb]
    · have hm : m.data.length = g.data.length * g.data.length := by
        have := h2
        rw [Grid.WF, h3, h4] at this
        rw [this, hgl]
      rw [List.getElem?_eq_none (by omega), List.getElem?_eq_none (by omega)]
  cases m
  simp only at h3 h4 hdata
  subst h3 h4 hdata
  rw [← hgl]
  rfl

variable [IsStrictOrderedRing K]

/-- **C139** (series): with up to 7 functions, no more functions than series, at least 7 samples and no two series at
distance 0, the example ends with one medoid for each function and a line for each series, in the colour of the
nearest medoid. Every medoid has the colour of its own cluster. -/
theorem C139_series (count seriesLen : Nat) (options : List (Profile K)) (measure : List K → List K → K)
    (draw : Nat → Nat) (z : Nat → Nat → K) (outcome : List Nat) (ho : options ≠ []) (h7 : options.length ≤ 7)
    (hs : 7 ≤ seriesLen) (hc : options.length ≤ count) (hl : outcome.length = options.length) (hn : outcome.Nodup)
    (hi : ∀ i ∈ outcome, i < count)
    (hsep : ∀ group, alternating1d count seriesLen options draw z = .ok group →
      ApartDistances (distancesIn measure group) count) :
    ∃ group r lines, alternating1d count seriesLen options draw z = .ok group ∧
      example1d count seriesLen options measure draw z outcome = .ok (r, lines) ∧
      r.medoids.length = options.length ∧ r.medoids.Nodup ∧ Contiguous r.labels options.length ∧
      (∀ i c, r.labels[i]? = some c → FirstNearest (distancesIn measure group) r.medoids i c) ∧
      (∀ (c m : Nat), r.medoids[c]? = some m → r.labels[m]? = some c) ∧
      DrawnBy group r.labels lines ∧
      ∀ (i j : Nat) l l', lines[i]? = some l → lines[j]? = some l' →
        (l.2 = l'.2 ↔ r.labels[i]? = r.labels[j]?) := by
  obtain ⟨group, g1, g2, g3⟩ := C138_group count seriesLen options draw z ho hs
  have hap := hsep group g1
  have hlen : ∀ s ∈ group, s.length = seriesLen := by
    intro s h
    obtain ⟨i, hi'⟩ := List.mem_iff_getElem?.1 h
    obtain ⟨_, _, _, _, h2, _⟩ := g3 i s hi'
    exact h2.length
  have hpos : 0 < options.length := List.length_pos_iff.2 ho
  have hX : group ≠ [] := by
    rintro rfl
    simp only [List.length_nil] at g2
    omega
  have hd := C139_matrix measure group
  have hk : (initialIndices none outcome).length = options.length := hl
  have hnd : (initialIndices none outcome).Nodup := hn
  rw [← g2] at hap
  obtain ⟨r, hr0⟩ := C26_returns (mode := .lite) (initial := none) (outcome := outcome) (maxIter := 1000)
    (tol := 1 / 1000) hd (by simp) (fun i h => by rw [g2]; exact hi i h) hk hpos (by rw [g2]; exact hc)
  have hr := C30_verbose_report_partial hd hX hap.nearer hr0 hk hnd
  obtain ⟨m1, m2, _⟩ := C28_distinct_medoids hd hX hr hk hnd
  obtain ⟨o1, _⟩ := C30_medoid_in_own_cluster_partial hd hX hap.nearer hr hk hnd
  have hcs := C26_labels_and_costs hd hX hr
  obtain ⟨c1, c2⟩ := kmedoids_contiguous hd hX hap hr hk hnd
  obtain ⟨lines, l1, l2, l3⟩ := (C139_colours seriesLen group r.labels hlen).1 (fun i h => by
      have h' : i < r.labels.length := by rw [c2]; exact h
      exact ⟨_, List.getElem?_eq_getElem h', lt_of_lt_of_le ((c1 _).1 (List.getElem_mem h')) h7⟩) (by
      rw [List.card_toFinset, c1.dedup_length]; exact h7)
  refine ⟨group, r, lines, g1, ?_, m1, m2, c1, hcs.nearest, o1, l2, l3⟩
  unfold example1d
  rw [g1]
  simp only
  rw [plotSeriesGroup_ok hlen]
  simp only
  rw [hr]
  simp only
  rw [l1]

/-- **C139** (region): with a region of more points than clusters, numbers of clusters from 2 to 7, at least 7 samples
and no two series at distance 0, the example ends with the first of the numbers of clusters with the best silhouette
score, and draws the series in the colours of this clustering. -/
theorem C139_region (xLen yLen seriesLen : Nat) (options : List (Profile K)) (ks : List Nat)
    (measure : List K → List K → K) (junk : Grid K) (draw : Nat → Nat) (z : Nat → Nat → K)
    (outcome : Nat → Int → List Nat) (ho : options ≠ []) (hs : 7 ≤ seriesLen) (hks : ks ≠ [])
    (hk : ∀ k ∈ ks, 2 ≤ k ∧ k ≤ 7 ∧ k < xLen * yLen)
    (hout : ∀ k ∈ ks, (outcome k 1).length = k ∧ (outcome k 1).Nodup ∧ ∀ i ∈ outcome k 1, i < xLen * yLen)
    (hj : junk.WF) (hjx : junk.xLen = xLen * yLen) (hjy : junk.yLen = xLen * yLen)
    (hsep : ∀ series mask, alternating2d xLen yLen seriesLen options draw z = .ok (series, mask) →
      ApartDistances (distancesIn measure series.data) (xLen * yLen)) :
    ∃ series mask map pre k post medoids labels lines, ∃ sc : Nat → K,
      alternating2d xLen yLen seriesLen options draw z = .ok (series, mask) ∧
      example2d xLen yLen seriesLen options ks measure junk draw z outcome =
        .ok (map, (k, some 1, some medoids), lines) ∧ clusterColours mask = .ok map ∧ ks = pre ++ k :: post ∧
      DrawnBy series.data labels lines ∧
      (∃ r, runKmedoids series.data k (.matrix (seriesMatrix measure series.data)) none (outcome k 1) .lite 1000
        (1 / 1000) true = .ok r ∧ r.medoids = medoids ∧ r.labels = labels) ∧
      (∀ k' ∈ ks, ∃ r, runKmedoids series.data k' (.matrix (seriesMatrix measure series.data)) none (outcome k' 1) .lite
          1000 (1 / 1000) true = .ok r ∧ IsScore (distancesIn measure series.data) r.labels (sc k')) ∧
      (∀ k' ∈ pre, sc k' < sc k) ∧ ∀ k' ∈ post, sc k' ≤ sc k := by
  obtain ⟨series, mask, g1, g2, g3, g4, g5, g6, g7, g8⟩ :=
    C138_region_partial xLen yLen seriesLen options draw z ho hs
  have hap := hsep series mask g1
  have hsl : series.data.length = xLen * yLen := by rw [← g4, ← g5]; exact g2
  have hml : mask.data.length = xLen * yLen := by rw [← g6, ← g7]; exact g3
  have hpos : 0 < xLen * yLen := by
    obtain ⟨k, hk'⟩ := List.exists_mem_of_ne_nil _ hks
    have := hk k hk'
    omega
  have hlen : ∀ s ∈ series.data, s.length = seriesLen := by
    intro s h
    obtain ⟨i, hi⟩ := List.mem_iff_getElem?.1 h
    have hil := (List.getElem?_eq_some_iff.1 hi).1
    rw [hsl] at hil
    have hy : 0 < yLen := Nat.pos_of_mul_pos_left hpos
    have hix : i / yLen < xLen := Nat.div_lt_of_lt_mul (by rw [Nat.mul_comm]; exact hil)
    obtain ⟨s', _, _, _, h1, _, _, h2, _⟩ := g8 ⟨i / yLen, i % yLen⟩ hix (Nat.mod_lt _ hy)
    have h3 := ((Grid.get_eq_ok_iff _ _ _).1 h1).2.2
    simp only [g5] at h3
    rw [Nat.div_add_mod', hi] at h3
    cases h3
    exact h2.length
  obtain ⟨m, m1, m2⟩ := sequential_eq g2 hj (by rw [g4, g5]; exact hjx) (by rw [g4, g5]; exact hjy) measure
  subst m2
  have hd := C139_matrix measure series.data
  rw [← hsl] at hap
  have hok : SilhouetteOK ⟨ks, [1], .lite, none, 1000⟩ outcome series.data.length := by
    refine ⟨by simp, hks, by simp, fun k h => ⟨(hk k h).1, by rw [hsl]; exact (hk k h).2.2⟩, ?_⟩
    intro k h s hs'
    obtain rfl : s = 1 := by simpa using hs'
    rw [hsl]
    exact hout k h
  obtain ⟨map, hmap⟩ : ∃ map, clusterColours (K := K) mask = .ok map := by
    unfold clusterColours
    cases hmx : mask.data.max? with
    | none =>
      rw [List.max?_eq_none_iff] at hmx
      rw [hmx] at hml
      simp only [List.length_nil] at hml
      omega
    | some t => exact ⟨_, rfl⟩
  obtain ⟨pre, post, s, k, sc, medoids, labels, fig, c1, c2, c3, _, _, c4, c5, c6⟩ :=
    C126_command_partial (.unreadable) ⟨0, 0, 0, 0⟩ (.ok (seriesMatrix measure series.data)) series g2 _ rfl _ hd hap
      ⟨ks, [1], .lite, none, 1000⟩ outcome (1 / 1000) true true hok
  simp only [List.flatMap_cons, List.flatMap_nil, List.append_nil] at c2
  obtain ⟨pre', l, e1, rfl, hl⟩ := List.map_eq_append_iff.1 c2
  obtain ⟨k', post', rfl, ec, rfl⟩ := List.map_eq_cons_iff.1 hl
  simp only [Prod.mk.injEq] at ec
  obtain ⟨rfl, rfl⟩ := ec
  have hrun : ∀ k' medoids labels, kmedoidsForSilhouette series.data (seriesMatrix measure series.data) outcome
      ⟨ks, [1], .lite, none, 1000⟩ (1 / 1000) true k' 1 (none : Option (List Nat)) = .ok (medoids, labels) →
      ∃ r, runKmedoids series.data k' (.matrix (seriesMatrix measure series.data)) none (outcome k' 1) .lite 1000
        (1 / 1000) true = .ok r ∧ r.medoids = medoids ∧ r.labels = labels := by
    intro k' medoids labels h
    unfold kmedoidsForSilhouette at h
    split at h
    · cases h
    · rename_i r hr
      cases h
      exact ⟨r, hr, rfl, rfl⟩
  have hdo : doSilhouetteAnalysis (kmedoidsForSilhouette series.data (seriesMatrix measure series.data) outcome
      ⟨ks, [1], .lite, none, 1000⟩ (1 / 1000) true) (silhouetteOfLabels (some (seriesMatrix measure series.data))
        series.xLen series.yLen true) ⟨ks, [1], .lite, none, 1000⟩ = .ok (k', some 1, some medoids, some labels) := by
    unfold silhouetteCommand at c1
    simp only [analysisMatrix, loadMatrix2d] at c1
    split at c1
    · cases c1
    · cases c1
    · rename_i hdo
      split at c1
      · cases c1
      · split at c1
        · cases c1
        · cases c1
          exact hdo
  have hkmem : k' ∈ ks := by rw [e1]; simp
  obtain ⟨r, r1, r2, r3⟩ := hrun k' medoids labels c3
  have hX : series.data ≠ [] := by
    intro h0
    rw [h0] at hsl
    simp only [List.length_nil] at hsl
    omega
  obtain ⟨n1, n2⟩ := kmedoids_contiguous hd hX hap r1 (hout k' hkmem).1 (hout k' hkmem).2.1
  rw [r3] at n1 n2
  obtain ⟨lines, l1, l2, _⟩ := (C139_colours seriesLen series.data labels hlen).1 (fun i h => by
      have h' : i < labels.length := by rw [n2]; exact h
      exact ⟨_, List.getElem?_eq_getElem h', lt_of_lt_of_le ((n1 _).1 (List.getElem_mem h')) (hk k' hkmem).2.1⟩) (by
      rw [List.card_toFinset, n1.dedup_length]; exact (hk k' hkmem).2.1)
  refine ⟨series, mask, map, pre', k', post', medoids, labels, lines, fun k => sc (1, k), g1, ?_, hmap, e1, l2,
    ⟨r, r1, r2, r3⟩, fun q hq => ?_, fun q hq => ?_, fun q hq => ?_⟩
  · unfold example2d
    rw [g1]
    simp only
    rw [hmap]
    simp only
    rw [plotSeriesGroup_ok hlen]
    simp only
    rw [m1]
    simp only
    rw [← g4, ← g5, hdo]
    simp only
    rw [l1]
  · obtain ⟨a, b, f1, f2⟩ := c4 1 (by simp) q hq
    obtain ⟨r', p1, _, p3⟩ := hrun q a b f1
    exact ⟨r', p1, p3 ▸ f2⟩
  · exact c5 _ (List.mem_map.2 ⟨q, hq, rfl⟩)
  · exact c6 _ (List.mem_map.2 ⟨q, hq, rfl⟩)

/-- The sum of the differences of two series. -/
def exampleMeasure (a b : List ℚ) : ℚ := ((a.zip b).map fun p => |p.1 - p.2|).sum

/-- Four series with two functions, and a little noise so that no two of them are the same. -/
example : (example1d (K := ℚ) 4 7 [fun _ _ => 1, fun j _ => j] exampleMeasure (fun _ => 0) (fun i _ => i) [0, 2]).map
      (fun p => (p.1.medoids, p.1.labels, p.2.map (·.2))) =
    .ok ([0, 1], [0, 1, 0, 1], ['b', 'g', 'b', 'g']) := by decide +kernel

/-- A region of 3 by 2 points with two functions. -/
def exampleRegion : Except PyErr (Grid ℚ × (Nat × Option Int × Option (List Nat)) × List (List ℚ × Char)) :=
  example2d 3 2 7 [fun _ _ => 1, fun j _ => j] [2, 3] exampleMeasure ⟨6, 6, List.replicate 36 9⟩ (fun _ => 0)
    (fun i _ => i) (fun k _ => List.range k)

/-- Two clusters are better than three. -/
example : exampleRegion.map (fun p => p.1.data) = .ok [0, 0, 0, 1 / 2, 0, 0] ∧
    exampleRegion.map (fun p => p.2.1) = .ok (2, some 1, some [2, 3]) ∧
    exampleRegion.map (fun p => p.2.2.map (·.2)) = .ok ['b', 'b', 'b', 'g', 'b', 'b'] :=
  ⟨by decide +kernel, by decide +kernel, by decide +kernel⟩

/-- The palette has seven colours: label 7 has none, and neither have eight labels. -/
example : plotByColour (K := ℚ) 1 [[1], [2]] [0, 6] = .ok [([1], 'b'), ([2], 'k')] ∧
    plotByColour (K := ℚ) 1 [[1], [2]] [0, 7] = .error .indexError ∧
    plotByColour (K := ℚ) 1 [[1], [2]] (List.range 8) = .error .valueError :=
  ⟨by decide +kernel, by decide +kernel, by decide +kernel⟩

end Spta
