import Verif.Spec.Scaling
import Verif.Lemmas.Scaling

/-!
# C18–C21: scaling, descaling, subsets of scaled regions
-/

set_option linter.unusedSectionVars false

namespace Spta

variable {K : Type} [Field K] [LinearOrder K] [IsStrictOrderedRing K]

/-! ### Series -/

/-- The scaled version of one series, as computed at each point. -/
def scaledOf (s : List (Option K)) : List (Option K) :=
  scaleSeries s.length ((s.filterMap id).min?) ((s.filterMap id).max?) s

theorem scaleSeries_length (n : Nat) (lo hi : Option K) (s : List (Option K)) (h : s.length = n) :
    (scaleSeries n lo hi s).length = n := by
  unfold scaleSeries
  split
  · split <;> simp [h]
  · simp

/-- The three situations of a non-empty series. -/
theorem series_cases (s : List (Option K)) :
    ((∀ v ∈ s, v = none) ∧ scaledOf s = List.replicate s.length none ∧
      (s.filterMap id).min? = none ∧ (s.filterMap id).max? = none) ∨
    (∃ a : K, some a ∈ s ∧ (∀ b, some b ∈ s → b = a) ∧
      scaledOf s = List.replicate s.length (some 0) ∧
      (s.filterMap id).min? = some a ∧ (s.filterMap id).max? = some a) ∨
    (∃ a b : K, some a ∈ s ∧ some b ∈ s ∧ a < b ∧ (∀ v, some v ∈ s → a ≤ v ∧ v ≤ b) ∧
      scaledOf s = s.map (fun v => v.map fun x => (x - a) / (b - a)) ∧
      (s.filterMap id).min? = some a ∧ (s.filterMap id).max? = some b) := by
  cases hmin : (s.filterMap id).min? with
  | none =>
    left
    have h1 := min?_none_iff.1 hmin
    have h2 := max?_none_iff.2 h1
    exact ⟨h1, by unfold scaledOf; rw [hmin, h2]; rfl, rfl, h2⟩
  | some a =>
    right
    cases hmax : (s.filterMap id).max? with
    | none =>
      have h1 := min?_none_iff.2 (max?_none_iff.1 hmax)
      rw [hmin] at h1; cases h1
    | some b =>
      obtain ⟨ha, ha'⟩ := min?_spec' hmin
      obtain ⟨hb, hb'⟩ := max?_spec' hmax
      have hab : a ≤ b := ha' b hb
      by_cases he : a = b
      · left
        subst he
        refine ⟨a, mem_values.1 ha, ?_, by unfold scaledOf; rw [hmin, hmax]; simp [scaleSeries], rfl, rfl⟩
        intro c hc
        exact le_antisymm (hb' c (mem_values.2 hc)) (ha' c (mem_values.2 hc))
      · right
        refine ⟨a, b, mem_values.1 ha, mem_values.1 hb, lt_of_le_of_ne hab he, ?_,
          by unfold scaledOf; rw [hmin, hmax]; simp [scaleSeries, he], rfl, rfl⟩
        intro v hv
        exact ⟨ha' v (mem_values.2 hv), hb' v (mem_values.2 hv)⟩

theorem scaledOf_spec (s : List (Option K)) : ScaledSeries s (scaledOf s) := by
  rcases series_cases s with ⟨h, he, _, _⟩ | ⟨a, ha, h, he, _, _⟩ | ⟨a, b, ha, hb, hab, h, he, _, _⟩
  · have hno : ∀ v : K, some v ∉ s := fun v hv => by have := h _ hv; cases this
    rw [he]
    refine ⟨by simp, ?_, ?_, ?_, ?_, ?_⟩
    · intro i w hw
      have := List.mem_of_getElem? hw
      simp at this
    · intro i j a b ha _
      exact absurd (List.mem_of_getElem? ha) (hno a)
    · intro a b ha; exact absurd ha (hno a)
    · intro a hc w hw
      obtain ⟨hl, rfl⟩ := List.mem_replicate.1 hw
      obtain ⟨v, hv⟩ := List.exists_mem_of_length_pos (Nat.pos_of_ne_zero hl)
      have h1 := h v hv
      have h2 := hc v hv
      rw [h1] at h2; cases h2
    · intro _ w hw; exact (List.mem_replicate.1 hw).2
  · rw [he]
    refine ⟨by simp, ?_, ?_, ?_, ?_, ?_⟩
    · intro i w hw
      have := (List.mem_replicate.1 (List.mem_of_getElem? hw)).2
      cases this
      exact ⟨le_rfl, zero_le_one⟩
    · intro i j c d hc hd
      have hi := (List.getElem?_eq_some_iff.1 hc).1
      have hj := (List.getElem?_eq_some_iff.1 hd).1
      refine ⟨0, 0, by simp [hi], by simp [hj], ?_⟩
      rw [h c (List.mem_of_getElem? hc), h d (List.mem_of_getElem? hd)]
      simp
    · intro c d hc hd hne
      exact absurd ((h c hc).trans (h d hd).symm) hne
    · intro _ _ w hw; exact (List.mem_replicate.1 hw).2
    · intro hn; have := hn _ ha; cases this
  · have hpos : 0 < b - a := sub_pos.2 hab
    rw [he]
    refine ⟨by simp, ?_, ?_, ?_, ?_, ?_⟩
    · intro i w hw
      rw [List.getElem?_map] at hw
      cases hsi : s[i]? with
      | none => rw [hsi] at hw; simp at hw
      | some v =>
        cases v with
        | none => rw [hsi] at hw; simp at hw
        | some v =>
          rw [hsi] at hw
          simp only [Option.map_some, Option.some.injEq] at hw
          subst hw
          obtain ⟨h1, h2⟩ := h v (List.mem_of_getElem? hsi)
          exact ⟨div_nonneg (sub_nonneg.2 h1) hpos.le,
            (div_le_one hpos).2 (sub_le_sub_right h2 a)⟩
    · intro i j c d hc hd
      refine ⟨(c - a) / (b - a), (d - a) / (b - a), by simp [hc], by simp [hd], ?_⟩
      rw [div_le_div_iff_of_pos_right hpos]
      simp
    · intro _ _ _ _ _
      refine ⟨List.mem_map.2 ⟨some a, ha, by simp⟩, List.mem_map.2 ⟨some b, hb, ?_⟩⟩
      simp [div_self hpos.ne']
    · intro c hc
      have h1 := hc _ ha
      have h2 := hc _ hb
      cases h1; cases h2; exact absurd hab (lt_irrefl _)
    · intro hn; have := hn _ ha; cases this

/-- Scaling a scaled series changes nothing. -/
theorem scaledOf_idem (s : List (Option K)) : scaledOf (scaledOf s) = scaledOf s := by
  rcases series_cases s with ⟨h, he, _, _⟩ | ⟨a, ha, h, he, _, _⟩ | ⟨a, b, ha, hb, hab, h, he, _, _⟩
  · rw [he]
    rcases series_cases (List.replicate s.length (none : Option K)) with
      ⟨_, he', _, _⟩ | ⟨c, hc, _⟩ | ⟨c, _, hc, _⟩
    · rw [he']; simp
    · simp at hc
    · simp at hc
  · rw [he]
    rcases series_cases (List.replicate s.length (some (0 : K))) with
      ⟨hc, _, _, _⟩ | ⟨c, _, _, he', _⟩ | ⟨c, d, hc, hd, hcd, _⟩
    · have hl : s.length ≠ 0 := by
        have := List.length_pos_of_mem ha; omega
      have := hc (some 0) (List.mem_replicate.2 ⟨hl, rfl⟩)
      cases this
    · rw [he']; simp
    · have h1 := (List.mem_replicate.1 hc).2
      have h2 := (List.mem_replicate.1 hd).2
      cases h1; cases h2; exact absurd hcd (lt_irrefl _)
  · have hsp := scaledOf_spec s
    have hends := hsp.ends a b ha hb hab.ne
    have hrange : ∀ w, some w ∈ scaledOf s → 0 ≤ w ∧ w ≤ 1 := by
      intro w hw
      obtain ⟨i, hi, hiw⟩ := List.mem_iff_getElem.1 hw
      exact hsp.range i w (by rw [List.getElem?_eq_getElem hi, hiw])
    rcases series_cases (scaledOf s) with
      ⟨hc, _, _, _⟩ | ⟨c, _, hc, _, _⟩ | ⟨c, d, hc, hd, hcd, hall, he', _, _⟩
    · have := hc _ hends.1; cases this
    · have h0 := hc 0 hends.1
      have h1 := hc 1 hends.2
      exact absurd (h0.trans h1.symm) zero_ne_one
    · have h0 : c = 0 := le_antisymm (hall 0 hends.1).1 (hrange c hc).1
      have h1 : d = 1 := le_antisymm (hrange d hd).2 (hall 1 hends.2).2
      rw [he', h0, h1]
      simp

theorem descale_scaled (s : List (Option K)) (h : Recoverable s) :
    descaleSeries ((s.filterMap id).min?) ((s.filterMap id).max?) (scaledOf s) = s := by
  rcases series_cases s with ⟨h', he, h1, h2⟩ | ⟨a, ha, h', he, h1, h2⟩ |
    ⟨a, b, ha, hb, hab, h', he, h1, h2⟩
  · rw [he, h1, h2]
    have : s = List.replicate s.length none := List.eq_replicate_of_mem h'
    conv_rhs => rw [this]
    simp [descaleSeries]
  · have hs : ∀ v ∈ s, v = some a := by
      rcases h with h | h | ⟨c, d, hc, hd, hcd⟩
      · intro v hv
        cases v with
        | none => exact absurd rfl (h none hv)
        | some c => rw [h' c hv]
      · have := h _ ha; cases this
      · exact absurd ((h' c hc).trans (h' d hd).symm) hcd
    rw [he, h1, h2]
    have : s = List.replicate s.length (some a) := List.eq_replicate_of_mem hs
    conv_rhs => rw [this]
    simp [descaleSeries]
  · rw [he, h1, h2]
    have hne : b - a ≠ 0 := (sub_pos.2 hab).ne'
    unfold descaleSeries
    rw [List.map_map]
    conv_rhs => rw [← List.map_id s]
    apply List.map_congr_left
    intro v _
    cases v with
    | none => rfl
    | some v =>
      simp only [Function.comp, Option.map_some, id, Option.some.injEq]
      field_simp
      ring

theorem descaleSeries_length (lo hi : Option K) (s : List (Option K)) :
    (descaleSeries lo hi s).length = s.length := by simp [descaleSeries]

theorem descaleSeries_slice (lo hi : Option K) (s : List (Option K)) (ti : TimeInterval) :
    descaleSeries lo hi (sliceSeries s ti) = sliceSeries (descaleSeries lo hi s) ti := by
  simp [descaleSeries, sliceSeries, List.map_drop, List.map_take]

/-! ### Regions -/

theorem scaleApply_ok {s : Stack K} (hs : s.OK) (ht : 0 < s.data.tLen) :
    ∃ g gmin gmax, scaleApply s s.data.tLen =
        .ok (.scaled (s.new ⟨s.data.tLen, g⟩) (s.newSpatial gmin) (s.newSpatial gmax)) ∧
      g.xLen = s.data.grid.xLen ∧ g.yLen = s.data.grid.yLen ∧
      (⟨s.data.tLen, g⟩ : Cube (Option K)).WF ∧ (gmin.WF ∧ gmax.WF) ∧
      ∀ p v, s.seriesAt p = .ok v → g.get p = .ok (scaledOf v) ∧
        gmin.get p = .ok ((v.filterMap id).min?) ∧ gmax.get p = .ok ((v.filterMap id).max?) := by
  have hne : ∀ p v, s.seriesAt p = .ok v → v ≠ [] := by
    intro p v hv h0
    have := Stack.seriesAt_length hs hv
    rw [h0] at this; simp at this; omega
  obtain ⟨gmin, a1, _, _, a4, a5⟩ := Stack.applyScalar_ok hs (fun _ => nanMin)
    (fun p v hv => ⟨_, by simp only [nanMin, if_neg (hne p v hv)]; rfl⟩)
  obtain ⟨gmax, b1, _, _, b4, b5⟩ := Stack.applyScalar_ok hs (fun _ => nanMax)
    (fun p v hv => ⟨_, by simp only [nanMax, if_neg (hne p v hv)]; rfl⟩)
  have hmin : ∀ p v, s.seriesAt p = .ok v → gmin.get p = .ok ((v.filterMap id).min?) := by
    intro p v hv; rw [a5 p v hv]; simp [nanMin, hne p v hv]
  have hmax : ∀ p v, s.seriesAt p = .ok v → gmax.get p = .ok ((v.filterMap id).max?) := by
    intro p v hv; rw [b5 p v hv]; simp [nanMax, hne p v hv]
  have hf : ∀ p v, s.seriesAt p = .ok v →
      scaleAt s.data.tLen (s.newSpatial gmin) (s.newSpatial gmax) p v = .ok (scaledOf v) := by
    intro p v hv
    unfold scaleAt
    rw [Stack.valueAt_newSpatial gmin hv, Stack.valueAt_newSpatial gmax hv, hmin p v hv,
      hmax p v hv]
    simp only [scaledOf, Stack.seriesAt_length hs hv]
  obtain ⟨g, c1, c2, c3, c4, c5, _⟩ := Stack.applySeries_ok hs
    (scaleAt s.data.tLen (s.newSpatial gmin) (s.newSpatial gmax)) s.data.tLen
    (fun p v hv => ⟨scaledOf v, hf p v hv, by
      rw [scaledOf, scaleSeries_length _ _ _ _ rfl]; exact Stack.seriesAt_length hs hv⟩)
  refine ⟨g, gmin, gmax, ?_, c2, c3, c4, ⟨a4, b4⟩, ?_⟩
  · simp only [scaleApply, if_true, a1, b1, c1]
  · intro p v hv
    exact ⟨by rw [c5 p v hv]; exact hf p v hv, hmin p v hv, hmax p v hv⟩

/-- **C18.** Scaling any well-formed region with at least one sample succeeds; the result says it
is scaled, has the points of the original, and its series at every point is the original series
scaled into `[0, 1]`. -/
theorem C18_scale_range_and_order (s : Stack K) (hs : s.OK) (ht : 0 < s.data.tLen) :
    ∃ r, scaleApply s s.data.tLen = .ok r ∧ r.hasScaling = true ∧
      ∀ p series, s.seriesAt p = .ok series →
        ∃ out, r.seriesAt p = .ok out ∧ ScaledSeries series out := by
  obtain ⟨g, gmin, gmax, h1, _, _, _, _, h5⟩ := scaleApply_ok hs ht
  refine ⟨_, h1, rfl, ?_⟩
  intro p series hp
  refine ⟨scaledOf series, ?_, scaledOf_spec series⟩
  have : (s.new ⟨s.data.tLen, g⟩).seriesAt p = .ok (scaledOf series) := by
    rw [Stack.seriesAt_new_eq _ hp]; exact (h5 p series hp).1
  exact this

/-- **C18** (no samples): a region with at least one point but without samples cannot be scaled, as there is no
minimum. -/
theorem C18_no_samples (s : Stack K) (hs : s.OK) (ht : s.data.tLen = 0) {p : Point} {v : List (Option K)}
    (hp : s.seriesAt p = .ok v) : scaleApply s s.data.tLen = .error .valueError := by
  obtain ⟨items, h1, _, h3, h4⟩ := Stack.items_ok hs
  have hmem := h4 p v hp
  have : s.applyScalar (fun _ => nanMin) = .error .valueError := by
    cases items with
    | nil => cases hmem
    | cons it rest =>
      have hl := Stack.seriesAt_length hs (h3 it List.mem_cons_self)
      rw [ht] at hl
      have hnil := List.eq_nil_of_length_eq_zero hl
      simp only [Stack.applyScalar, h1, applyWith, nanMin, hnil, if_true]
  simp only [scaleApply, if_true, this]

example : scaleApply (Stack.plain (⟨0, ⟨1, 2, [[], []]⟩⟩ : Cube (Option ℚ))) 0 = .error .valueError := by
  decide +kernel

/-- **C18** (idempotence). Scaling a scaled region succeeds and changes no series. -/
theorem C18_scale_idempotent (s : Stack K) (hs : s.OK) (ht : 0 < s.data.tLen) :
    ∃ r r', scaleApply s s.data.tLen = .ok r ∧ scaleApply r s.data.tLen = .ok r' ∧
      ∀ p series, r.seriesAt p = .ok series → r'.seriesAt p = .ok series := by
  obtain ⟨g, gmin, gmax, h1, h2, h3, h4, hw4, h5⟩ := scaleApply_ok hs ht
  have hok : (Stack.scaled (s.new ⟨s.data.tLen, g⟩) (s.newSpatial gmin)
      (s.newSpatial gmax)).OK := by
    refine ⟨hs.new h4 h2 h3, ⟨s.newSpatial_wf hw4.1, s.newSpatial_wf hw4.2⟩, ?_⟩
    intro p v hv
    obtain ⟨_, w, hw⟩ := (Stack.seriesAt_new_iff hs h2 h3).1 hv
    rw [Stack.valueAt_newSpatial gmin hw, Stack.valueAt_newSpatial gmax hw]
    exact ⟨⟨_, (h5 p w hw).2.1⟩, ⟨_, (h5 p w hw).2.2⟩⟩
  have htl : (Stack.scaled (s.new ⟨s.data.tLen, g⟩) (s.newSpatial gmin)
      (s.newSpatial gmax)).data.tLen = s.data.tLen := by
    simp [Stack.data]
  obtain ⟨g', gmin', gmax', k1, k2, k3, k4, _, k5⟩ := scaleApply_ok hok (by rw [htl]; exact ht)
  rw [htl] at k1
  refine ⟨_, _, h1, k1, ?_⟩
  intro p series hp
  have hp' : (s.new ⟨s.data.tLen, g⟩).seriesAt p = .ok series := hp
  obtain ⟨hg, w, hw⟩ := (Stack.seriesAt_new_iff hs h2 h3).1 hp'
  have hsc := (h5 p w hw).1
  simp only at hg
  rw [hg] at hsc; cases hsc
  have e1 := (k5 p _ hp).1
  rw [scaledOf_idem] at e1
  have := Stack.seriesAt_new_eq (s := Stack.scaled (s.new ⟨s.data.tLen, g⟩) (s.newSpatial gmin)
      (s.newSpatial gmax)) ⟨s.data.tLen, g'⟩ hp
  rw [e1] at this
  exact this

/-- The descaled region, point by point. -/
theorem descale_scaled_ok {inner : Stack K} {smin smax : SpStack (Option K)}
    (hs : (Stack.scaled inner smin smax).OK) :
    ∃ g, (Stack.scaled inner smin smax).descale = .ok (inner.new ⟨inner.data.tLen, g⟩) ∧
      g.xLen = inner.data.grid.xLen ∧ g.yLen = inner.data.grid.yLen ∧
      (⟨inner.data.tLen, g⟩ : Cube (Option K)).WF ∧
      (∀ p v lo hi, inner.seriesAt p = .ok v → smin.valueAt p = .ok lo → smax.valueAt p = .ok hi →
        g.get p = .ok (descaleSeries lo hi v)) ∧
      (∀ p : Point, p.x < g.xLen → p.y < g.yLen → (∀ v, inner.seriesAt p ≠ .ok v) →
        g.get p = .ok (List.replicate inner.data.tLen (some 0))) := by
  obtain ⟨g, c1, c2, c3, c4, c5, c6⟩ := Stack.applySeries_ok hs (descaleAt smin smax)
    inner.data.tLen (by
      intro p v hv
      obtain ⟨⟨lo, hlo⟩, ⟨hi, hhi⟩⟩ := hs.2.2 p v hv
      refine ⟨descaleSeries lo hi v, by simp [descaleAt, hlo, hhi], ?_⟩
      rw [descaleSeries_length]
      exact Stack.seriesAt_length hs hv)
  refine ⟨g, ?_, c2, c3, c4, ?_, c6⟩
  · simp only [Stack.descale, c1, Stack.data_new]
  · intro p v lo hi hv hlo hhi
    rw [c5 p v hv]; simp [descaleAt, hlo, hhi]

/-- **C19** (every stack). Descaling a scaled region succeeds and gives back the original series at
every point of the region, unless the series mixes NaN with copies of one value. -/
theorem C19_descale_inverts_scale (s : Stack K) (hs : s.OK) (ht : 0 < s.data.tLen) :
    ∃ r d, scaleApply s s.data.tLen = .ok r ∧ r.descale = .ok d ∧
      ∀ p series, s.seriesAt p = .ok series → Recoverable series → d.seriesAt p = .ok series := by
  obtain ⟨g, gmin, gmax, h1, h2, h3, h4, hw4, h5⟩ := scaleApply_ok hs ht
  have hok : (Stack.scaled (s.new ⟨s.data.tLen, g⟩) (s.newSpatial gmin)
      (s.newSpatial gmax)).OK := by
    refine ⟨hs.new h4 h2 h3, ⟨s.newSpatial_wf hw4.1, s.newSpatial_wf hw4.2⟩, ?_⟩
    intro p v hv
    obtain ⟨_, w, hw⟩ := (Stack.seriesAt_new_iff hs h2 h3).1 hv
    rw [Stack.valueAt_newSpatial gmin hw, Stack.valueAt_newSpatial gmax hw]
    exact ⟨⟨_, (h5 p w hw).2.1⟩, ⟨_, (h5 p w hw).2.2⟩⟩
  obtain ⟨g', k1, k2, k3, k4, k5, _⟩ := descale_scaled_ok hok
  refine ⟨_, _, h1, k1, ?_⟩
  intro p series hp hrec
  rw [Stack.new_new, Stack.seriesAt_new_eq _ hp]
  have hin : (s.new ⟨s.data.tLen, g⟩).seriesAt p = .ok (scaledOf series) := by
    rw [Stack.seriesAt_new_eq _ hp]; exact (h5 p series hp).1
  have := k5 p _ _ _ hin
    (by rw [Stack.valueAt_newSpatial gmin hp]; exact (h5 p series hp).2.1)
    (by rw [Stack.valueAt_newSpatial gmax hp]; exact (h5 p series hp).2.2)
  rw [this, descale_scaled series hrec]

/-- **C19** (plain region with real values). Scaling and descaling gives back exactly the same
region. -/
theorem C19_descale_inverts_scale_plain (c : Cube (Option K)) (hc : c.WF) (ht : 0 < c.tLen)
    (hreal : ∀ s ∈ c.grid.data, ∀ v ∈ s, v ≠ none) :
    ∃ r, scaleApply (.plain c) c.tLen = .ok r ∧ r.descale = .ok (.plain c) := by
  obtain ⟨g, gmin, gmax, h1, h2, h3, h4, hw4, h5⟩ := scaleApply_ok (s := .plain c) hc ht
  have hok : (Stack.scaled ((Stack.plain c).new ⟨c.tLen, g⟩) ((Stack.plain c).newSpatial gmin)
      ((Stack.plain c).newSpatial gmax)).OK := by
    refine ⟨Stack.OK.new (s := .plain c) hc h4 h2 h3, hw4, ?_⟩
    intro p v hv
    obtain ⟨_, w, hw⟩ := (Stack.seriesAt_new_iff (s := .plain c) hc (c := ⟨c.tLen, g⟩) h2 h3).1 hv
    rw [Stack.valueAt_newSpatial gmin hw, Stack.valueAt_newSpatial gmax hw]
    exact ⟨⟨_, (h5 p w hw).2.1⟩, ⟨_, (h5 p w hw).2.2⟩⟩
  obtain ⟨g', k1, k2, k3, k4, k5, _⟩ := descale_scaled_ok hok
  refine ⟨_, h1, ?_⟩
  rw [show (Stack.plain c).data.tLen = c.tLen from rfl]
  rw [k1]
  simp only [Stack.new, Stack.data]
  have : g' = c.grid := by
    apply Grid.ext_get k4.1 hc.1
    · rw [k2]; exact h2
    · rw [k3]; exact h3
    · intro p hx hy
      have hx' : p.x < c.grid.xLen := by rw [k2] at hx; simpa [Stack.new, Stack.data, h2] using hx
      have hy' : p.y < c.grid.yLen := by rw [k3] at hy; simpa [Stack.new, Stack.data, h3] using hy
      obtain ⟨series, hp⟩ := c.grid.exists_get hc.1 hx' hy'
      have hp' : (Stack.plain c).seriesAt p = .ok series := hp
      have hin : ((Stack.plain c).new ⟨c.tLen, g⟩).seriesAt p = .ok (scaledOf series) := by
        rw [Stack.seriesAt_new_eq _ hp']; exact (h5 p series hp').1
      have := k5 p _ _ _ hin
        (by rw [Stack.valueAt_newSpatial gmin hp']; exact (h5 p series hp').2.1)
        (by rw [Stack.valueAt_newSpatial gmax hp']; exact (h5 p series hp').2.2)
      rw [this, descale_scaled series, hp]
      left
      exact hreal series (List.mem_of_getElem? ((Grid.get_eq_ok_iff _ _ _).1 hp).2.2)
  rw [this]

/-! ### C20: subsets -/

theorem Stack.regionSubset_facts {s s' : Stack K} {r : Region} (hs : s.OK)
    (h : s.regionSubset r = .ok s') :
    s'.data = s.data.regionSlice r ∧ (∀ p, s.seriesAt p = s.data.grid.get p) ∧
      (∀ p, s'.seriesAt p = s'.data.grid.get p) ∧ s'.OK ∧
      ∀ c, (s.new c).regionSubset r = .ok (s'.new (c.regionSlice r)) := by
  induction s generalizing s' with
  | plain c =>
    simp only [regionSubset, Except.ok.injEq] at h
    subst h
    exact ⟨rfl, fun _ => rfl, fun _ => rfl, Cube.regionSlice_wf hs r, fun _ => rfl⟩
  | scaled inner smin smax ih =>
    simp only [regionSubset] at h
    split at h
    · cases h
    rename_i sub hsub
    split at h
    · cases h
    rename_i smin' hmin
    split at h
    · cases h
    rename_i smax' hmax
    cases h
    obtain ⟨h1, h2, h3, h4, h5⟩ := ih hs.1 hsub
    cases smin with
    | cluster _ _ _ => cases hmin
    | plain gmin =>
    cases smax with
    | cluster _ _ _ => cases hmax
    | plain gmax =>
    simp only [SpStack.regionSubset, Except.ok.injEq] at hmin hmax
    refine ⟨h1, h2, h3, ⟨h4, ?_, ?_⟩, ?_⟩
    · subst hmin hmax
      exact ⟨Grid.slice_wf hs.2.1.1 r, Grid.slice_wf hs.2.1.2 r⟩
    · intro p v hv
      rw [h3, h1] at hv
      have hr := (Grid.get_eq_ok_iff _ _ _).1 hv
      have hr1 : p.x < min r.x2 inner.data.grid.xLen - r.x1 := hr.1
      have hr2 : p.y < min r.y2 inner.data.grid.yLen - r.y1 := hr.2.1
      have hv' : (inner.data.grid.slice r).get p = .ok v := hv
      rw [Grid.get_slice _ hs.1.data_wf.1 r hr1 hr2, ← h2] at hv'
      obtain ⟨⟨lo, hlo⟩, ⟨hi, hhi⟩⟩ := hs.2.2 _ _ hv'
      have hlo' : gmin.get ⟨r.x1 + p.x, r.y1 + p.y⟩ = .ok lo := hlo
      have hhi' : gmax.get ⟨r.x1 + p.x, r.y1 + p.y⟩ = .ok hi := hhi
      have e1 := (Grid.get_eq_ok_iff _ _ _).1 hlo'
      have e2 := (Grid.get_eq_ok_iff _ _ _).1 hhi'
      simp only at e1 e2
      subst hmin hmax
      refine ⟨⟨lo, ?_⟩, ⟨hi, ?_⟩⟩
      · show (gmin.slice r).get p = _
        rw [Grid.get_slice _ hs.2.1.1 r (by omega) (by omega)]; exact hlo'
      · show (gmax.slice r).get p = _
        rw [Grid.get_slice _ hs.2.1.2 r (by omega) (by omega)]; exact hhi'
    · intro c
      subst hmin hmax
      simp only [Stack.new, regionSubset, h5 c, SpStack.regionSubset]
  | cluster _ _ _ _ => cases h

/-- **C20** (spatial subsets). Descaling a spatial subset of a scaled region is the same as taking
the spatial subset of the descaled region. -/
theorem C20_descale_commutes_with_region_subset (inner : Stack K) (smin smax : SpStack (Option K))
    (hs : (Stack.scaled inner smin smax).OK) (r : Region) (sub : Stack K)
    (hsub : (Stack.scaled inner smin smax).regionSubset r = .ok sub) :
    ∃ d' d, (Stack.scaled inner smin smax).descale = .ok d' ∧ sub.descale = .ok d ∧
      d'.regionSubset r = .ok d := by
  obtain ⟨_, _, _, hok', _⟩ := Stack.regionSubset_facts hs hsub
  simp only [Stack.regionSubset] at hsub
  split at hsub
  · cases hsub
  rename_i inner' hinner
  split at hsub
  · cases hsub
  rename_i smin' hmin
  split at hsub
  · cases hsub
  rename_i smax' hmax
  cases hsub
  obtain ⟨h1, h2, h3, h4, h5⟩ := Stack.regionSubset_facts hs.1 hinner
  obtain ⟨g, a1, a2, a3, a4, a5, _⟩ := descale_scaled_ok hs
  obtain ⟨g', b1, b2, b3, b4, b5, _⟩ := descale_scaled_ok hok'
  refine ⟨_, _, a1, b1, ?_⟩
  rw [h5]
  congr 2
  cases smin with
  | cluster _ _ _ => cases hmin
  | plain gmin =>
  cases smax with
  | cluster _ _ _ => cases hmax
  | plain gmax =>
  simp only [SpStack.regionSubset, Except.ok.injEq] at hmin hmax
  subst hmin hmax
  unfold Cube.regionSlice
  congr 1
  · rw [h1]; rfl
  symm
  apply Grid.ext_get b4.1 (Grid.slice_wf a4.1 r)
  · rw [b2, h1]; simp [Cube.regionSlice, a2]
  · rw [b3, h1]; simp [Cube.regionSlice, a3]
  · intro p hx hy
    rw [b2, h1] at hx
    rw [b3, h1] at hy
    change p.x < min r.x2 inner.data.grid.xLen - r.x1 at hx
    change p.y < min r.y2 inner.data.grid.yLen - r.y1 at hy
    rw [Grid.get_slice _ a4.1 r (by rw [a2]; exact hx) (by rw [a3]; exact hy)]
    obtain ⟨v, hv⟩ := inner.data.grid.exists_get hs.1.data_wf.1
      (p := ⟨r.x1 + p.x, r.y1 + p.y⟩) (by simp only; omega) (by simp only; omega)
    have hv1 := hv
    rw [← h2] at hv1
    obtain ⟨⟨lo, hlo⟩, ⟨hi, hhi⟩⟩ := hs.2.2 _ _ hv1
    rw [a5 _ _ _ _ hv1 hlo hhi]
    have hlo' : gmin.get ⟨r.x1 + p.x, r.y1 + p.y⟩ = .ok lo := hlo
    have hhi' : gmax.get ⟨r.x1 + p.x, r.y1 + p.y⟩ = .ok hi := hhi
    have e1 := (Grid.get_eq_ok_iff _ _ _).1 hlo'
    have e2 := (Grid.get_eq_ok_iff _ _ _).1 hhi'
    simp only at e1 e2
    apply b5
    · rw [h3, h1]
      show (inner.data.grid.slice r).get p = _
      rw [Grid.get_slice _ hs.1.data_wf.1 r hx hy]; exact hv
    · show (gmin.slice r).get p = _
      rw [Grid.get_slice _ hs.2.1.1 r (by omega) (by omega)]; exact hlo'
    · show (gmax.slice r).get p = _
      rw [Grid.get_slice _ hs.2.1.2 r (by omega) (by omega)]; exact hhi'

theorem Cube.get_intervalSlice {α : Type} (c : Cube α) (ti : TimeInterval) (p : Point) :
    (c.intervalSlice ti).grid.get p = (c.grid.get p).map fun s => sliceSeries s ti :=
  Grid.get_map c.grid _ p

/-- **C20** (time intervals). On every stack with a scaling layer (scaled regions, clusters of
scaled regions, scaled clusters, ...) descaling a time-interval subset is the same as taking the
time-interval subset of the descaled region. -/
theorem C20_descale_commutes_with_interval_subset (s : Stack K) (hs : s.OK)
    (hsc : s.hasScaling = true) (ti : TimeInterval) :
    ∃ d, s.descale = .ok d ∧ (s.intervalSubset ti).descale = .ok (d.intervalSubset ti) := by
  induction s with
  | plain c => cases hsc
  | scaled inner smin smax _ =>
    have hD := Cube.intervalSlice_wf hs.1.data_wf ti
    have hok' : (Stack.scaled (inner.new (inner.data.intervalSlice ti)) smin smax).OK :=
      Stack.OK.new (s := Stack.scaled inner smin smax) hs hD rfl rfl
    obtain ⟨g, a1, a2, a3, a4, a5, a6⟩ := descale_scaled_ok hs
    obtain ⟨g', b1, b2, b3, b4, b5, b6⟩ := descale_scaled_ok hok'
    refine ⟨_, a1, ?_⟩
    rw [show (Stack.scaled inner smin smax).intervalSubset ti =
      Stack.scaled (inner.new (inner.data.intervalSlice ti)) smin smax from rfl]
    rw [b1, Stack.new_new, Stack.intervalSubset_eq, Stack.new_new, Stack.data_new, Stack.data_new]
    simp only [Stack.data_new] at b2 b3 b4 b6
    congr 2
    have e : ((⟨inner.data.tLen, g⟩ : Cube (Option K)).intervalSlice ti) =
        ⟨(inner.data.intervalSlice ti).tLen,
          ((⟨inner.data.tLen, g⟩ : Cube (Option K)).intervalSlice ti).grid⟩ := rfl
    rw [e]
    congr 1
    apply Grid.ext_get b4.1 (Cube.intervalSlice_wf a4 ti).1
    · rw [b2]; exact a2.symm
    · rw [b3]; exact a3.symm
    · intro p hx hy
      have hx' : p.x < inner.data.grid.xLen := by rw [b2] at hx; exact hx
      have hy' : p.y < inner.data.grid.yLen := by rw [b3] at hy; exact hy
      rw [Cube.get_intervalSlice]
      by_cases hex : ∃ v, inner.seriesAt p = .ok v
      · obtain ⟨v, hv⟩ := hex
        obtain ⟨⟨lo, hlo⟩, ⟨hi, hhi⟩⟩ := hs.2.2 _ _ hv
        have hv' : (inner.new (inner.data.intervalSlice ti)).seriesAt p =
            .ok (sliceSeries v ti) := by
          rw [Stack.seriesAt_new_eq _ hv, Cube.get_intervalSlice, Stack.seriesAt_data hv]; rfl
        rw [b5 _ _ _ _ hv' hlo hhi, a5 _ _ _ _ hv hlo hhi, descaleSeries_slice]
        rfl
      · push Not at hex
        have hex' : ∀ v, (inner.new (inner.data.intervalSlice ti)).seriesAt p ≠ .ok v := by
          intro v hv
          obtain ⟨_, w, hw⟩ := (Stack.seriesAt_new_iff hs.1
            (c := inner.data.intervalSlice ti) rfl rfl).1 hv
          exact hex w hw
        rw [b6 p hx hy hex', a6 p (by rw [a2]; exact hx') (by rw [a3]; exact hy') hex]
        simp [Except.map, sliceSeries, Cube.intervalSlice]
  | cluster inner part i ih =>
    obtain ⟨d, h1, h2⟩ := ih hs.1 hsc
    refine ⟨(Stack.cluster inner part i).new d.data, by simp only [Stack.descale, h1], ?_⟩
    have e : (Stack.cluster inner part i).intervalSubset ti =
        Stack.cluster (inner.intervalSubset ti) part i := by
      rw [Stack.intervalSubset_eq, Stack.intervalSubset_eq]; rfl
    rw [e]
    simp only [Stack.descale, h2]
    simp only [Stack.intervalSubset_eq, Stack.new, Stack.data_new, Stack.new_new, Stack.data]

/-- What descaling a combined subset actually computes: the scaling data is read at the point of
the subset, not at the point of the region it came from. -/
theorem descale_subset_ok (c : Cube (Option K)) (gmin gmax : Grid (Option K))
    (hc : c.WF) (hmin : gmin.WF) (hmax : gmax.WF)
    (hx1 : gmin.xLen = c.grid.xLen) (hy1 : gmin.yLen = c.grid.yLen)
    (hx2 : gmax.xLen = c.grid.xLen) (hy2 : gmax.yLen = c.grid.yLen)
    (r : Region) (ti : TimeInterval) :
    ∃ d, ((Stack.scaled (.plain c) (.plain gmin) (.plain gmax)).subset r ti).descale =
        .ok (.plain d) ∧ d.WF ∧ d.tLen = min ti.t2 c.tLen - ti.t1 ∧
      d.grid.xLen = min r.x2 c.grid.xLen - r.x1 ∧ d.grid.yLen = min r.y2 c.grid.yLen - r.y1 ∧
      ∀ (p : Point) v lo hi, p.x < d.grid.xLen → p.y < d.grid.yLen →
        c.grid.get ⟨r.x1 + p.x, r.y1 + p.y⟩ = .ok v → gmin.get p = .ok lo → gmax.get p = .ok hi →
        d.grid.get p = .ok (descaleSeries lo hi (sliceSeries v ti)) := by
  have hwf : (c.bothSlice r ti).WF := Cube.intervalSlice_wf (Cube.regionSlice_wf hc r) ti
  have hok : (Stack.scaled (.plain (c.bothSlice r ti)) (.plain gmin) (.plain gmax)).OK := by
    refine ⟨hwf, ⟨hmin, hmax⟩, ?_⟩
    intro p v hv
    have hr := (Grid.get_eq_ok_iff _ _ _).1 (show (c.bothSlice r ti).grid.get p = .ok v from hv)
    have h1 : p.x < min r.x2 c.grid.xLen - r.x1 := hr.1
    have h2 : p.y < min r.y2 c.grid.yLen - r.y1 := hr.2.1
    exact ⟨gmin.exists_get hmin (by omega) (by omega), gmax.exists_get hmax (by omega) (by omega)⟩
  obtain ⟨g, a1, a2, a3, a4, a5, _⟩ := descale_scaled_ok hok
  refine ⟨_, a1, a4, rfl, a2, a3, ?_⟩
  intro p v lo hi hx hy hv hlo hhi
  refine a5 p _ lo hi ?_ hlo hhi
  show (c.bothSlice r ti).grid.get p = _
  unfold Cube.bothSlice
  rw [Cube.get_intervalSlice]
  have h1 : p.x < min r.x2 c.grid.xLen - r.x1 := by simp only at hx; rw [a2] at hx; exact hx
  have h2 : p.y < min r.y2 c.grid.yLen - r.y1 := by simp only at hy; rw [a3] at hy; exact hy
  rw [show (c.regionSlice r).grid.get p = (c.grid.slice r).get p from rfl,
    Grid.get_slice _ hc.1 r h1 h2, hv]
  rfl

/-- **C20** (combined subsets, partial). For a rectangle that starts at the origin, descaling the
combined subset of a scaled region is the same as taking the combined subset of the descaled
region. Missing: rectangles elsewhere, where the claim fails (next theorem). -/
theorem C20_descale_commutes_with_subset_partial (c : Cube (Option K)) (gmin gmax : Grid (Option K))
    (hc : c.WF) (hmin : gmin.WF) (hmax : gmax.WF)
    (hx1 : gmin.xLen = c.grid.xLen) (hy1 : gmin.yLen = c.grid.yLen)
    (hx2 : gmax.xLen = c.grid.xLen) (hy2 : gmax.yLen = c.grid.yLen)
    (r : Region) (hr1 : r.x1 = 0) (hr2 : r.y1 = 0) (ti : TimeInterval) :
    ∃ d, (Stack.scaled (.plain c) (.plain gmin) (.plain gmax)).descale = .ok d ∧
      ((Stack.scaled (.plain c) (.plain gmin) (.plain gmax)).subset r ti).descale =
        .ok (d.subset r ti) := by
  have hok : (Stack.scaled (.plain c) (.plain gmin) (.plain gmax)).OK := by
    refine ⟨hc, ⟨hmin, hmax⟩, ?_⟩
    intro p v hv
    have hr := (Grid.get_eq_ok_iff _ _ _).1 (show c.grid.get p = .ok v from hv)
    exact ⟨gmin.exists_get hmin (by omega) (by omega), gmax.exists_get hmax (by omega) (by omega)⟩
  obtain ⟨g, a1, a2, a3, a4, a5, _⟩ := descale_scaled_ok hok
  obtain ⟨d, b1, b2, b3, b4, b5, b6⟩ :=
    descale_subset_ok c gmin gmax hc hmin hmax hx1 hy1 hx2 hy2 r ti
  refine ⟨_, a1, ?_⟩
  rw [b1]
  show Except.ok (Stack.plain d) = Except.ok (Stack.plain _)
  have hwf := Cube.intervalSlice_wf (Cube.regionSlice_wf a4 r) ti
  have ea2 : g.xLen = c.grid.xLen := a2
  have ea3 : g.yLen = c.grid.yLen := a3
  congr 2
  cases d with
  | mk dt dg =>
  simp only at b3 b4 b5 b6
  simp only [Stack.data, Cube.bothSlice]
  subst b3
  simp only [Stack.new, Stack.data]
  rw [show ((⟨c.tLen, g⟩ : Cube (Option K)).regionSlice r).intervalSlice ti =
    ⟨min ti.t2 c.tLen - ti.t1,
      (((⟨c.tLen, g⟩ : Cube (Option K)).regionSlice r).intervalSlice ti).grid⟩ from rfl]
  congr 1
  apply Grid.ext_get b2.1 hwf.1
  · rw [b4, ← ea2]; rfl
  · rw [b5, ← ea3]; rfl
  · intro p hx hy
    rw [b4, hr1] at hx
    rw [b5, hr2] at hy
    obtain ⟨v, hv⟩ := c.grid.exists_get hc.1 (p := p) (by omega) (by omega)
    obtain ⟨lo, hlo⟩ := gmin.exists_get hmin (p := p) (by omega) (by omega)
    obtain ⟨hi, hhi⟩ := gmax.exists_get hmax (p := p) (by omega) (by omega)
    have hv0 : c.grid.get ⟨r.x1 + p.x, r.y1 + p.y⟩ = .ok v := by
      rw [hr1, hr2]; simpa using hv
    rw [b6 p v lo hi (by rw [b4, hr1]; exact hx) (by rw [b5, hr2]; exact hy) hv0 hlo hhi]
    rw [Cube.get_intervalSlice]
    rw [show ((⟨(Stack.plain c).data.tLen, g⟩ : Cube (Option K)).regionSlice r).grid.get p =
      (g.slice r).get p from rfl]
    rw [Grid.get_slice _ a4.1 r (by rw [ea2, hr1]; exact hx) (by rw [ea3, hr2]; exact hy)]
    rw [show (⟨r.x1 + p.x, r.y1 + p.y⟩ : Point) = p by rw [hr1, hr2]; simp]
    rw [a5 p v lo hi hv hlo hhi, descaleSeries_slice]
    rfl

/-- A 1 by 2 region with series `[0, 10]` and `[5, 6]`. -/
def scalingExample : Cube (Option ℚ) := ⟨2, ⟨1, 2, [[some 0, some 10], [some 5, some 6]]⟩⟩

/-- **C20 refuted** for combined subsets away from the origin: descaling the combined subset that
keeps only the second point of `scalingExample` yields the units of the *first* point, `[0, 10]`,
while the subset of the descaled region is `[5, 6]`. -/
theorem C20_descale_commutes_with_subset_refuted :
    ∃ (c : Cube (Option ℚ)) (r : Region) (ti : TimeInterval) (s d d' : Stack ℚ), c.WF ∧
      r.x1 < r.x2 ∧ r.x2 ≤ c.grid.xLen ∧ r.y1 < r.y2 ∧ r.y2 ≤ c.grid.yLen ∧
      ti.t1 < ti.t2 ∧ ti.t2 ≤ c.tLen ∧
      scaleApply (.plain c) c.tLen = .ok s ∧ s.descale = .ok d ∧ (s.subset r ti).descale = .ok d' ∧
      (d.subset r ti).data = ⟨2, ⟨1, 1, [[some 5, some 6]]⟩⟩ ∧
      d'.data = ⟨2, ⟨1, 1, [[some 0, some 10]]⟩⟩ := by
  refine ⟨scalingExample, ⟨0, 1, 1, 2⟩, ⟨0, 2⟩,
    .scaled (.plain ⟨2, ⟨1, 2, [[some 0, some 1], [some 0, some 1]]⟩⟩)
      (.plain ⟨1, 2, [some 0, some 5]⟩) (.plain ⟨1, 2, [some 10, some 6]⟩),
    .plain scalingExample, .plain ⟨2, ⟨1, 1, [[some 0, some 10]]⟩⟩,
    by decide, by decide, by decide, by decide, by decide, by decide, by decide,
    by decide +kernel, by decide +kernel, by decide +kernel, by decide +kernel,
    by decide +kernel⟩

/-! ### C21 -/

/-- **C21 refuted.** For a cluster of a scaled region, `descale()` puts the scaling layer back:
whenever it succeeds, the result still reports `has_scaling() == True`. -/
theorem C21_descaled_cluster_still_scaled_refuted (inner : Stack K) (part : Partition) (i : Nat)
    (h : inner.hasScaling = true) (d : Stack K)
    (hd : (Stack.cluster inner part i).descale = .ok d) : d.hasScaling = true := by
  simp only [Stack.descale] at hd
  split at hd
  · cases hd
  · cases hd
    rw [Stack.hasScaling_new]; exact h

/-- **C21 refuted** (consequence): the result of descaling a cluster of a scaled region can be
descaled again, which takes the data out of its original units. -/
theorem C21_double_descale_refuted :
    ∃ (c : Cube (Option ℚ)) (part : Partition) (s d d' : Stack ℚ), c.WF ∧
      scaleApply (.plain c) c.tLen = .ok s ∧ (Stack.cluster s part 0).OK ∧
      (Stack.cluster s part 0).descale = .ok d ∧ d.data = c ∧ d.hasScaling = true ∧
      d.descale = .ok d' ∧ d'.data ≠ c := by
  refine ⟨⟨2, ⟨1, 1, [[some 1, some 3]]⟩⟩, ⟨⟨1, 1, [0]⟩, 1, 0⟩,
    .scaled (.plain ⟨2, ⟨1, 1, [[some 0, some 1]]⟩⟩)
      (.plain ⟨1, 1, [some 1]⟩) (.plain ⟨1, 1, [some 3]⟩),
    .cluster (.scaled (.plain ⟨2, ⟨1, 1, [[some 1, some 3]]⟩⟩)
      (.plain ⟨1, 1, [some 1]⟩) (.plain ⟨1, 1, [some 3]⟩)) ⟨⟨1, 1, [0]⟩, 1, 0⟩ 0,
    .cluster (.scaled (.plain ⟨2, ⟨1, 1, [[some 3, some 7]]⟩⟩)
      (.plain ⟨1, 1, [some 1]⟩) (.plain ⟨1, 1, [some 3]⟩)) ⟨⟨1, 1, [0]⟩, 1, 0⟩ 0,
    by decide, by decide +kernel, ?_, by decide +kernel, by decide, rfl, by decide +kernel,
    by decide +kernel⟩
  have hget : ∀ (p : Point) (l : Nat), (⟨1, 1, [l]⟩ : Grid Nat).get p = .ok l → p = ⟨0, 0⟩ := by
    intro p l h
    have := (Grid.get_eq_ok_iff _ _ _).1 h
    simp only at this
    cases p; simp_all
  refine ⟨⟨?_, ⟨rfl, rfl⟩, ?_⟩, by decide, rfl, rfl, ?_⟩
  · show (⟨2, ⟨1, 1, [[some 0, some 1]]⟩⟩ : Cube (Option ℚ)).WF
    decide
  · intro p v hv
    have := (Grid.get_eq_ok_iff _ _ _).1
      (show (⟨1, 1, [[some 0, some 1]]⟩ : Grid (List (Option ℚ))).get p = .ok v from hv)
    have hp : p = ⟨0, 0⟩ := by cases p; simp_all
    subst hp
    exact ⟨⟨some 1, rfl⟩, ⟨some 3, rfl⟩⟩
  · intro p hp
    rw [hget p 0 hp]
    exact ⟨[some 0, some 1], rfl⟩

/-- **C21** (partial): when the scaling layer is the outermost one (a scaled region or the scaling
of a cluster) and what it decorates is not scaled, the descaled region is not scaled and
descaling it again is an error. Missing: scaling layers below a cluster. -/
theorem C21_descaled_not_scaled_partial (inner : Stack K) (smin smax : SpStack (Option K))
    (h : inner.hasScaling = false) (d : Stack K)
    (hd : (Stack.scaled inner smin smax).descale = .ok d) :
    d.hasScaling = false ∧ d.descale = .error .notImplementedError := by
  simp only [Stack.descale] at hd
  split at hd
  · cases hd
  · rename_i descaled _
    cases hd
    refine ⟨by rw [Stack.hasScaling_new]; exact h, ?_⟩
    generalize descaled.data = c
    clear * - h
    induction inner with
    | plain _ => rfl
    | scaled _ _ _ _ => cases h
    | cluster inner part i ih => simp only [Stack.new, Stack.descale, ih h]

/-- **C21** (partial), exactly when a descaled region is no longer scaled: the scaling must be the outermost layer
and the only one. -/
theorem C21_exactly_partial (s d : Stack K) (hd : s.descale = .ok d) :
    d.hasScaling = false ↔
      ∃ inner smin smax, s = .scaled inner smin smax ∧ inner.hasScaling = false := by
  constructor
  · intro h
    cases s with
    | plain c => cases hd
    | scaled inner smin smax =>
      refine ⟨inner, smin, smax, rfl, ?_⟩
      simp only [Stack.descale] at hd
      split at hd
      · cases hd
      · cases hd
        rwa [Stack.hasScaling_new] at h
    | cluster inner part i =>
      exfalso
      have hin : inner.hasScaling = true := by
        cases hb : inner.hasScaling with
        | true => rfl
        | false =>
          exfalso
          have : inner.descale = .error .notImplementedError := by
            clear hd h
            induction inner with
            | plain _ => rfl
            | scaled _ _ _ _ => cases hb
            | cluster inner part i ih => simp only [Stack.descale, ih hb]
          simp only [Stack.descale, this] at hd
          cases hd
      rw [C21_descaled_cluster_still_scaled_refuted inner part i hin d hd] at h
      cases h
  · rintro ⟨inner, smin, smax, rfl, h⟩
    exact (C21_descaled_not_scaled_partial inner smin smax h d hd).1

example : ∃ s d : Stack ℚ, s.descale = .ok d ∧ d.hasScaling = false ∧ d.data = scalingExample :=
  ⟨.scaled (.plain ⟨2, ⟨1, 2, [[some 0, some 1], [some 0, some 1]]⟩⟩)
    (.plain ⟨1, 2, [some 0, some 5]⟩) (.plain ⟨1, 2, [some 10, some 6]⟩),
    .plain scalingExample, by decide +kernel, rfl, rfl⟩

/-- **C21** (data part, every stack): descaling a cluster of any region yields the data of the
descaled region. -/
theorem C21_cluster_descale_data (inner : Stack K) (part : Partition) (i : Nat) (d : Stack K)
    (hd : inner.descale = .ok d) :
    ∃ d', (Stack.cluster inner part i).descale = .ok d' ∧ d'.data = d.data :=
  ⟨(Stack.cluster inner part i).new d.data, by simp only [Stack.descale, hd], by simp⟩

/-! ### Examples -/

example : (Stack.plain scalingExample).OK := by
  show scalingExample.WF
  decide

example : 0 < (Stack.plain scalingExample).data.tLen := by decide

/-- A cluster with one of the two points, as an instance of the hypotheses of C18/C19. -/
example : (Stack.cluster (.plain scalingExample) ⟨⟨1, 2, [0, 1]⟩, 2, 0⟩ 1).OK := by
  refine ⟨by show scalingExample.WF; decide, by decide, rfl, rfl, ?_⟩
  intro p hp
  have := (Grid.get_eq_ok_iff _ _ _).1 hp
  exact Grid.exists_get scalingExample.grid (by decide) this.1 this.2.1

example : ∃ r, scaleApply (.cluster (.plain scalingExample) ⟨⟨1, 2, [0, 1]⟩, 2, 0⟩ 1) 2 = .ok r ∧
    r.data = ⟨2, ⟨1, 2, [[some 0, some 0], [some 0, some 1]]⟩⟩ ∧
    (∃ d, r.descale = .ok d ∧ d.hasScaling = false ∧
      d.data = ⟨2, ⟨1, 2, [[some 0, some 0], [some 5, some 6]]⟩⟩) :=
  ⟨.scaled (.cluster (.plain ⟨2, ⟨1, 2, [[some 0, some 0], [some 0, some 1]]⟩⟩)
      ⟨⟨1, 2, [0, 1]⟩, 2, 0⟩ 1)
      (.cluster (.plain ⟨1, 2, [some 0, some 5]⟩) ⟨⟨1, 2, [0, 1]⟩, 2, 0⟩ 1)
      (.cluster (.plain ⟨1, 2, [some 0, some 6]⟩) ⟨⟨1, 2, [0, 1]⟩, 2, 0⟩ 1),
    by decide +kernel, rfl,
    .cluster (.plain ⟨2, ⟨1, 2, [[some 0, some 0], [some 5, some 6]]⟩⟩) ⟨⟨1, 2, [0, 1]⟩, 2, 0⟩ 1,
    by decide +kernel, rfl, rfl⟩

/-- A NaN inside an otherwise constant series is the only content lost by scaling. -/
example : scaledOf [some (7 : ℚ), none] = [some 0, some 0] := by decide

example : ∃ s sub, scaleApply (.plain scalingExample) 2 = .ok s ∧
    s.regionSubset ⟨0, 1, 1, 2⟩ = .ok sub ∧
    sub.descale = .ok (.plain ⟨2, ⟨1, 1, [[some 5, some 6]]⟩⟩) :=
  ⟨.scaled (.plain ⟨2, ⟨1, 2, [[some 0, some 1], [some 0, some 1]]⟩⟩)
      (.plain ⟨1, 2, [some 0, some 5]⟩) (.plain ⟨1, 2, [some 10, some 6]⟩),
    .scaled (.plain ⟨2, ⟨1, 1, [[some 0, some 1]]⟩⟩)
      (.plain ⟨1, 1, [some 5]⟩) (.plain ⟨1, 1, [some 6]⟩),
    by decide +kernel, by decide +kernel, by decide +kernel⟩

end Spta
