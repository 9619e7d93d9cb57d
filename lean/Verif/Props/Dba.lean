import Verif.Lemmas.Dba
import Verif.Lemmas.Except

/-!
# C39, C40, C58-C60: squared DTW and DTW barycenter averaging
-/

set_option linter.unusedSectionVars false

namespace Spta

variable {K : Type} [Field K] [LinearOrder K] [IsStrictOrderedRing K]

/-! ### C39, C40 -/

/-- **C39**: for all non-empty series, and whatever the matrices contain, the value is the least cost
of a warping path. -/
theorem C39_least_path {s t : List K} (hs : s ≠ []) (ht : t ≠ []) {cost delta : Mat K}
    (hn : cost.n = delta.n) (hs' : s.length ≤ delta.n) (ht' : t.length ≤ delta.n) :
    ∃ v, (squaredDTW s t cost delta).1 = .ok v ∧ IsDTW s t v := by
  obtain ⟨c, d, h, _⟩ := squaredDTW_eq hs ht cost delta hn hs' ht'
  exact ⟨_, by rw [h], dpCost_isDTW s t⟩

/-- Series that do not fit in the matrices are rejected. -/
theorem C39_too_long (s t : List K) (cost delta : Mat K)
    (h : delta.n < s.length ∨ delta.n < t.length) :
    (squaredDTW s t cost delta).1 = .error .valueError := by
  rw [squaredDTW, fillDelta, if_pos h]

/-- An empty first series is not rejected: the index -1 reads a cell of the last row that the dynamic program has not
written, so the value is what the matrix contained before. -/
theorem C39_empty {t : List K} (ht : t ≠ []) {cost delta : Mat K} (hn : cost.n = delta.n) (h2 : 2 ≤ delta.n)
    (ht' : t.length ≤ delta.n) :
    (squaredDTW [] t cost delta).1 = .ok (cost.at_ (cost.n - 1) (t.length - 1)) := by
  have hrow : ∀ (l : List Nat) (d : Mat K) (c : Mat K), (l.foldl (fun s i => s.set 0 i (s.at_ 0 (i - 1) + d.at_ 0 i)) c).n = c.n ∧
      ∀ a b, a ≠ 0 → (l.foldl (fun s i => s.set 0 i (s.at_ 0 (i - 1) + d.at_ 0 i)) c).at_ a b = c.at_ a b := by
    intro l d
    induction l with
    | nil => exact fun c => ⟨rfl, fun _ _ _ => rfl⟩
    | cons i l ih =>
      intro c
      obtain ⟨h1, h2⟩ := ih (c.set 0 i (c.at_ 0 (i - 1) + d.at_ 0 i))
      refine ⟨h1, fun a b ha => ?_⟩
      rw [List.foldl_cons, h2 a b ha]
      simp [Mat.set, ha]
  have hl : 0 < t.length := List.length_pos_of_ne_nil ht
  rw [squaredDTW, fillDelta, if_neg (by simp; omega)]
  dsimp only
  rw [if_neg (by omega)]
  simp only [dtwFill, forRange, List.length_nil, Nat.zero_sub, List.range'_zero, List.foldl_nil]
  generalize hc0 : cost.set 0 0 _ = c0
  obtain ⟨r1, r2⟩ := hrow (List.range' 1 (t.length - 1)) ⟨delta.n, fun i j => if i < 0 ∧ j < t.length then
    (([] : List K).getD i 0 - t.getD j 0) * (([] : List K).getD i 0 - t.getD j 0) else delta.at_ i j⟩ c0
  have e0 : c0.n = cost.n := by rw [← hc0]; rfl
  rw [Mat.getInt, r1, e0]
  have i1 : pyIndex cost.n (((0 : Nat) : Int) - 1) = .ok (cost.n - 1) := by
    rw [pyIndex, if_neg (by omega), if_pos (by omega)]
    congr 1
    omega
  have i2 : pyIndex cost.n ((t.length : Int) - 1) = .ok (t.length - 1) := by
    rw [pyIndex, if_pos (by omega), if_pos (by omega)]
    congr 1
    omega
  rw [i1, i2]
  dsimp only
  rw [r2 _ _ (by omega), ← hc0]
  have : cost.n - 1 ≠ 0 := by omega
  simp [Mat.set, this]

/-- Two matrices give two values for the same series. -/
example : (squaredDTW [] [1, 2] ⟨2, fun _ _ => (7 : ℚ)⟩ ⟨2, fun _ _ => 0⟩).1 = .ok 7 ∧
    (squaredDTW [] [1, 2] ⟨2, fun _ _ => (8 : ℚ)⟩ ⟨2, fun _ _ => 0⟩).1 = .ok 8 :=
  ⟨C39_empty (by decide) rfl (by decide) (by decide), C39_empty (by decide) rfl (by decide) (by decide)⟩

theorem IsDTW.unique {s t : List K} {v v' : K} (h : IsDTW s t v) (h' : IsDTW s t v') : v = v' := by
  obtain ⟨⟨w, h1, rfl⟩, h2⟩ := h
  obtain ⟨⟨w', h1', rfl⟩, h2'⟩ := h'
  exact le_antisymm (h2 w' h1') (h2' w h1)

theorem pathCost_swap (s t : List K) (w : List (Nat × Nat)) :
    pathCost t s (w.map Prod.swap) = pathCost s t w := by
  unfold pathCost
  rw [List.map_map]
  congr 1
  apply List.map_congr_left
  intro p _
  simp only [Function.comp, Prod.fst_swap, Prod.snd_swap]
  ring

theorem IsDTW.symm {s t : List K} {v : K} (h : IsDTW s t v) : IsDTW t s v := by
  obtain ⟨⟨w, h1, rfl⟩, h2⟩ := h
  refine ⟨⟨w.map Prod.swap, h1.swap, pathCost_swap s t w⟩, ?_⟩
  intro w' hw'
  have := h2 _ hw'.swap
  rwa [pathCost_swap] at this

/-- **C40** (symmetry), with any matrices. -/
theorem C40_symmetric {s t : List K} (hs : s ≠ []) (ht : t ≠ []) {cost delta cost' delta' : Mat K}
    (hn : cost.n = delta.n) (hs1 : s.length ≤ delta.n) (ht1 : t.length ≤ delta.n)
    (hn' : cost'.n = delta'.n) (hs2 : s.length ≤ delta'.n) (ht2 : t.length ≤ delta'.n) :
    (squaredDTW s t cost delta).1 = (squaredDTW t s cost' delta').1 := by
  obtain ⟨v, h1, h2⟩ := C39_least_path hs ht hn hs1 ht1
  obtain ⟨v', h1', h2'⟩ := C39_least_path ht hs hn' ht2 hs2
  rw [h1, h1', h2.unique h2'.symm]

/-- **C40** (never negative). -/
theorem C40_nonneg {s t : List K} (hs : s ≠ []) (ht : t ≠ []) {cost delta : Mat K}
    (hn : cost.n = delta.n) (hs' : s.length ≤ delta.n) (ht' : t.length ≤ delta.n) :
    ∃ v, (squaredDTW s t cost delta).1 = .ok v ∧ 0 ≤ v := by
  obtain ⟨v, h1, ⟨w, _, rfl⟩, _⟩ := C39_least_path hs ht hn hs' ht'
  refine ⟨_, h1, List.sum_nonneg ?_⟩
  intro x hx
  obtain ⟨p, _, rfl⟩ := List.mem_map.1 hx
  exact sq_nonneg _

/-- **C40** (equal lengths): at most the sum of squared pointwise differences. -/
theorem C40_pointwise {s t : List K} (hs : s ≠ []) (hst : s.length = t.length) {cost delta : Mat K}
    (hn : cost.n = delta.n) (hs' : s.length ≤ delta.n) :
    ∃ v, (squaredDTW s t cost delta).1 = .ok v ∧
      v ≤ (List.zipWith (fun a b => (a - b) ^ 2) s t).sum := by
  have ht : t ≠ [] := by
    rintro rfl
    exact hs (List.length_eq_zero_iff.1 hst)
  obtain ⟨v, h1, _, h2⟩ := C39_least_path hs ht hn hs' (by omega)
  refine ⟨v, h1, ?_⟩
  have hs1 : 1 ≤ s.length := List.length_pos_iff.2 hs
  have hd := IsWarpingPath.diagonal (s.length - 1)
  have := h2 ((List.range (s.length - 1 + 1)).map fun i => (i, i)) (by rw [← hst]; exact hd)
  refine le_trans this (le_of_eq ?_)
  unfold pathCost
  congr 1
  rw [List.map_map, Nat.sub_add_cancel hs1]
  apply List.ext_getElem
  · simp [hst]
  · intro i h1 h2
    simp at h1 h2
    simp [h1, h2]

/-- **C40** (zero on equal series). -/
theorem C40_self {s : List K} (hs : s ≠ []) {cost delta : Mat K} (hn : cost.n = delta.n)
    (hs' : s.length ≤ delta.n) : (squaredDTW s s cost delta).1 = .ok 0 := by
  obtain ⟨v, h1, h2⟩ := C40_pointwise hs rfl hn hs'
  obtain ⟨v', h1', h2'⟩ := C40_nonneg hs hs hn hs' hs'
  rw [h1] at h1'
  cases h1'
  have hz : (List.zipWith (fun a b => (a - b) ^ 2) s s).sum = 0 := by
    rw [List.zipWith_self]
    simp
  rw [hz] at h2
  rw [h1, le_antisymm h2 h2']

/-- Two series of different lengths, with matrices full of sevens: aligning 1,1,3 with 1,3,4 costs 1. -/
example : (squaredDTW [1, 1, 3] [1, 3, 4] (⟨4, fun _ _ => 7⟩ : Mat ℚ) ⟨4, fun _ _ => 7⟩).1 = .ok 1 ∧
    (squaredDTW [1, 3, 4, 4] [1, 1, 3] (⟨4, fun _ _ => 7⟩ : Mat ℚ) ⟨4, fun _ _ => 7⟩).1 = .ok 2 := by
  decide +kernel

/-! ### C58: the update -/

/-- **C58**: `DBA_update` gives, at every position of the centre, the mean of the values that optimal
alignments of the centre with the series put at that position; there is always at least one. -/
theorem C58_update {center : List K} (hc : center ≠ []) {series : List (List K)} (hser : series ≠ [])
    (hne : ∀ s ∈ series, s ≠ []) {cost delta : Mat K} {path : Mat Int} (hn1 : cost.n = delta.n)
    (hn2 : path.n = delta.n) (hcn : center.length ≤ delta.n)
    (hlen : ∀ s ∈ series, s.length ≤ delta.n) :
    ∃ c' ws, (dbaUpdate center series cost path delta).1 = .ok c' ∧
      List.Forall₂ (fun s w => IsWarpingPath w (center.length - 1) (s.length - 1) ∧
        IsDTW center s (pathCost center s w)) series ws ∧
      c'.length = center.length ∧
      ∀ i, i < center.length → alignedAt series ws i ≠ [] ∧
        c'.getD i 0 = (alignedAt series ws i).sum / ((alignedAt series ws i).length : K) := by
  obtain ⟨acc', ws, cost', path', delta', r1, r2, r3, r4, r5, r6, r7, r8, r9⟩ :=
    dbaLoop_ok hc series hne cost path delta
      (List.replicate center.length 0, List.replicate center.length 0) hn1 hn2 hcn hlen
      (by simp) (by simp)
  have hal : ∀ i, i < center.length → alignedAt series ws i ≠ [] := by
    intro i hi
    obtain ⟨s, ss, rfl⟩ := List.exists_cons_of_ne_nil hser
    cases r5 with
    | cons h _ =>
      obtain ⟨j, hj⟩ := h.1.covers i (by omega)
      apply List.ne_nil_of_mem (a := s.getD j 0)
      unfold alignedAt alignedPairs
      simp only [List.zip_cons_cons, List.flatMap_cons, List.mem_map, List.mem_filter, List.mem_append]
      exact ⟨(i, s.getD j 0), ⟨Or.inl ⟨(i, j), hj, rfl⟩, by simp⟩, rfl⟩
  have hcount : 0 ∉ acc'.2 := by
    intro h0
    obtain ⟨i, hi, he⟩ := List.getElem_of_mem h0
    have hi' : i < center.length := by rw [r7] at hi; simpa using hi
    have := r9 i
    rw [List.getD_eq_getElem?_getD, List.getElem?_eq_getElem hi, he] at this
    have hp := List.length_pos_iff.2 (hal i hi')
    simp [hi'] at this
    omega
  have hl1 : acc'.1.length = center.length := by rw [r6]; simp
  have hl2 : acc'.2.length = center.length := by rw [r7]; simp
  refine ⟨List.zipWith (fun v (c : Nat) => v / (c : K)) acc'.1 acc'.2, ws, ?_, r5.imp ?_, ?_, ?_⟩
  · unfold dbaUpdate
    rw [r1]
    simp only
    rw [if_neg hcount]
  · intro s w h
    refine ⟨h.1, ?_⟩
    rw [h.2]
    exact dpCost_isDTW center s
  · simp [hl1, hl2]
  · intro i hi
    refine ⟨hal i hi, ?_⟩
    have h1 := r8 i
    have h2 := r9 i
    simp only [List.getD_eq_getElem?_getD] at h1 h2
    simp [hi, hl1, hl2] at h1 h2
    rw [← h1, ← h2]
    simp [List.getD_eq_getElem?_getD, hi, hl1, hl2]

/-! ### C59: the sum of squared distances does not grow -/

theorem dtwSum_exists (s : List K) (series : List (List K)) :
    IsDTWSum s series (series.map fun t => dpCost (sqDelta s t) (s.length - 1) (t.length - 1)).sum := by
  refine ⟨_, ?_, rfl⟩
  induction series with
  | nil => exact .nil
  | cons t ts ih => exact .cons (dpCost_isDTW s t) ih

theorem IsDTWSum.unique {s : List K} {series : List (List K)} {v v' : K} (h : IsDTWSum s series v)
    (h' : IsDTWSum s series v') : v = v' := by
  obtain ⟨vs, h1, rfl⟩ := h
  obtain ⟨vs', h1', rfl⟩ := h'
  congr 1
  induction h1 generalizing vs' with
  | nil => cases h1'; rfl
  | cons h _ ih =>
    cases h1' with
    | cons h' ht => rw [h.unique h', ih _ ht]

/-- The sum along given paths bounds the sum of the distances. -/
theorem dtwSum_le {c : List K} {series : List (List K)} {ws : List (List (Nat × Nat))} {v : K}
    (h : IsDTWSum c series v)
    (hw : List.Forall₂ (fun s w => IsWarpingPath w (c.length - 1) (s.length - 1)) series ws) :
    v ≤ (List.zipWith (pathCost c) series ws).sum := by
  obtain ⟨vs, h1, rfl⟩ := h
  induction hw generalizing vs with
  | nil => cases h1; simp
  | cons hw _ ih =>
    cases h1 with
    | cons h h1 =>
      rw [List.sum_cons, List.zipWith_cons_cons, List.sum_cons]
      exact add_le_add (h.2 _ hw) (ih _ h1)

/-- **C59**: an update never increases the sum of the squared DTW distances of the centre to the
series. -/
theorem C59_decreases {center : List K} (hc : center ≠ []) {series : List (List K)} (hser : series ≠ [])
    (hne : ∀ s ∈ series, s ≠ []) {cost delta : Mat K} {path : Mat Int} (hn1 : cost.n = delta.n)
    (hn2 : path.n = delta.n) (hcn : center.length ≤ delta.n)
    (hlen : ∀ s ∈ series, s.length ≤ delta.n) {v v' : K} {c' : List K}
    (hupd : (dbaUpdate center series cost path delta).1 = .ok c') (hv : IsDTWSum center series v)
    (hv' : IsDTWSum c' series v') : v' ≤ v := by
  obtain ⟨c'', ws, h1, h2, h3, h4⟩ := C58_update hc hser hne hn1 hn2 hcn hlen
  rw [hupd] at h1
  cases h1
  have hlen' : series.length = ws.length := h2.length_eq
  have hle := dtwSum_le hv' (ws := ws) (h2.imp fun s w h => by rw [h3]; exact h.1)
  have heq : (List.zipWith (pathCost center) series ws).sum = v := by
    refine (hv.unique ⟨_, ?_, rfl⟩).symm
    clear hle h4 hlen' hupd hv hv' hser hne hlen
    induction h2 with
    | nil => exact .nil
    | cons h _ ih => exact .cons h.2 ih
  rw [sum_pathCost _ hlen'] at hle heq
  have hT : ∀ p ∈ alignedPairs series ws, p.1 < center.length := by
    intro p hp
    have hc1 : 1 ≤ center.length := List.length_pos_iff.2 hc
    unfold alignedPairs at hp
    simp only [List.mem_flatMap, List.mem_map] at hp
    obtain ⟨⟨s, w⟩, hsw, q, hq, rfl⟩ := hp
    have hfor : IsWarpingPath w (center.length - 1) (s.length - 1) := by
      obtain ⟨n, hn, he⟩ := List.getElem_of_mem hsw
      rw [List.getElem_zip] at he
      have := List.Forall₂.get h2 (i := n) (by simp at hn; omega) (by simp at hn; omega)
      simp only [Prod.mk.injEq] at he
      simp only [List.get_eq_getElem, he.1, he.2] at this
      exact this.1
    have := (hfor.le q hq).1
    simp only
    omega
  rw [sum_by_position _ center.length _ hT] at hle heq
  rw [← heq]
  refine le_trans hle (Finset.sum_le_sum ?_)
  intro a ha
  have ha' := Finset.mem_range.1 ha
  obtain ⟨g1, g2⟩ := h4 a ha'
  have hfix : ∀ x : List K,
      (((alignedPairs series ws).filter fun p => p.1 = a).map fun p => (x.getD p.1 0 - p.2) ^ 2).sum =
      ((alignedAt series ws a).map fun u => (x.getD a 0 - u) ^ 2).sum := by
    intro x
    unfold alignedAt
    rw [List.map_map]
    congr 1
    apply List.map_congr_left
    intro p hp
    have := (List.mem_filter.1 hp).2
    simp only [decide_eq_true_eq] at this
    simp only [Function.comp, this]
  rw [hfix, hfix, g2]
  exact mean_minimises _ g1 _

/-! ### C60: the whole averaging -/

theorem dbaUpdate_state {center : List K} (hc : center ≠ []) {series : List (List K)}
    (hne : ∀ s ∈ series, s ≠ []) {cost delta : Mat K} {path : Mat Int} (hn1 : cost.n = delta.n)
    (hn2 : path.n = delta.n) (hcn : center.length ≤ delta.n)
    (hlen : ∀ s ∈ series, s.length ≤ delta.n) :
    (dbaUpdate center series cost path delta).2.1.n = delta.n ∧
    (dbaUpdate center series cost path delta).2.2.1.n = delta.n ∧
    (dbaUpdate center series cost path delta).2.2.2.n = delta.n := by
  obtain ⟨acc', ws, cost', path', delta', r1, r2, r3, r4, _⟩ :=
    dbaLoop_ok hc series hne cost path delta
      (List.replicate center.length 0, List.replicate center.length 0) hn1 hn2 hcn hlen
      (by simp) (by simp)
  unfold dbaUpdate
  rw [r1]
  simp only
  split <;> exact ⟨r2.trans hn1, r3.trans hn2, r4⟩

/-- Any number of updates never increases the sum of squared distances. -/
theorem C60_iterations (n : Nat) {center : List K} (hc : center ≠ []) {series : List (List K)}
    (hser : series ≠ []) (hne : ∀ s ∈ series, s ≠ []) {cost delta : Mat K} {path : Mat Int}
    (hn1 : cost.n = delta.n) (hn2 : path.n = delta.n) (hcn : center.length ≤ delta.n)
    (hlen : ∀ s ∈ series, s.length ≤ delta.n) :
    ∃ c', dbaIterate series n center cost path delta = .ok c' ∧ c'.length = center.length ∧
      ∀ v v', IsDTWSum center series v → IsDTWSum c' series v' → v' ≤ v := by
  induction n generalizing center cost path delta with
  | zero =>
    exact ⟨center, rfl, rfl, fun v v' h h' => le_of_eq (h'.unique h)⟩
  | succ n ih =>
    obtain ⟨c1, ws, h1, _, h3, _⟩ := C58_update hc hser hne hn1 hn2 hcn hlen
    obtain ⟨s1, s2, s3⟩ := dbaUpdate_state hc hne hn1 hn2 hcn hlen
    have hc1 : c1 ≠ [] := by
      rintro rfl
      exact hc (List.length_eq_zero_iff.1 h3.symm)
    obtain ⟨c', g1, g2, g3⟩ := ih (center := c1)
      (cost := (dbaUpdate center series cost path delta).2.1)
      (path := (dbaUpdate center series cost path delta).2.2.1)
      (delta := (dbaUpdate center series cost path delta).2.2.2) hc1 (by omega) (by omega) (by omega)
      (fun s hs => by rw [s3]; exact hlen s hs)
    refine ⟨c', ?_, by omega, ?_⟩
    · rw [dbaIterate]
      have : dbaUpdate center series cost path delta = (.ok c1,
          (dbaUpdate center series cost path delta).2.1,
          (dbaUpdate center series cost path delta).2.2.1,
          (dbaUpdate center series cost path delta).2.2.2) := by
        rw [← h1]
      rw [this]
      exact g1
    · intro v v' hv hv'
      exact le_trans (g3 _ v' (dtwSum_exists c1 series) hv')
        (C59_decreases hc hser hne hn1 hn2 hcn hlen h1 hv (dtwSum_exists c1 series))

/-- The candidate with the least sum of squared distances is chosen. -/
theorem medoidLoop_ok (series : List (List K)) (hne : ∀ s ∈ series, s ≠ []) :
    ∀ (is : List Nat), (∀ i ∈ is, i < series.length) → ∀ (best : Option (Nat × K)) (cost delta : Mat K),
      cost.n = delta.n → (∀ s ∈ series, s.length ≤ delta.n) →
      (∀ b, best = some b → ∃ s, series[b.1]? = some s ∧ IsDTWSum s series b.2) →
      ∃ best' cost' delta', medoidLoop series is best cost delta = (.ok best', cost', delta') ∧
        cost'.n = delta.n ∧ delta'.n = delta.n ∧
        (best = none → is = [] → best' = none) ∧ ((is ≠ [] ∨ best ≠ none) → best' ≠ none) ∧
        ∀ b', best' = some b' → (∃ s, series[b'.1]? = some s ∧ IsDTWSum s series b'.2) ∧
          (b'.1 ∈ is ∨ best = some b') ∧
          (∀ b, best = some b → b'.2 ≤ b.2) ∧
          ∀ (i : Nat) (s : List K) (v : K), i ∈ is → series[i]? = some s → IsDTWSum s series v → b'.2 ≤ v := by
  intro is
  induction is with
  | nil =>
    intro _ best cost delta hn hlen hb
    refine ⟨best, cost, delta, rfl, hn, rfl, fun h _ => h, fun h => by simpa using h, ?_⟩
    intro b' h
    refine ⟨hb b' h, Or.inr h, ?_, by simp⟩
    intro b h'
    rw [h] at h'
    cases h'
    exact le_refl _
  | cons i is ih =>
    intro his best cost delta hn hlen hb
    have hi := his i (by simp)
    have hs : series[i]? = some series[i] := by simp [hi]
    have hmem : series[i] ∈ series := List.getElem_mem hi
    obtain ⟨c1, d1, h1, h2, h3⟩ := sumOfSquares_eq (hne _ hmem) series hne cost delta hn
      (hlen _ hmem) hlen
    generalize hss : (series.map fun t =>
      dpCost (sqDelta series[i] t) (series[i].length - 1) (t.length - 1)).sum = ss at h1
    have hsum : IsDTWSum series[i] series ss := hss ▸ dtwSum_exists series[i] series
    have hstep : medoidLoop series (i :: is) best cost delta =
        medoidLoop series is (if ssBetter best ss then some (i, ss) else best) c1 d1 := by
      rw [medoidLoop, listAt, hs]
      simp only
      rw [h1]
    have hfirst : ∀ (b : Option (Nat × K)), b = (if ssBetter best ss then some (i, ss) else best) →
        (∃ b0, b = some b0 ∧ (∃ s, series[b0.1]? = some s ∧ IsDTWSum s series b0.2) ∧
          (b0.1 = i ∨ best = some b0) ∧ b0.2 ≤ ss ∧ ∀ b', best = some b' → b0.2 ≤ b'.2) := by
      intro b hbe
      cases hbest : best with
      | none =>
        rw [hbest] at hbe
        exact ⟨(i, ss), by simpa [ssBetter] using hbe, ⟨_, hs, hsum⟩, Or.inl rfl, le_refl _, by simp⟩
      | some bb =>
        obtain ⟨bi, bv⟩ := bb
        rw [hbest] at hbe
        by_cases hlt : ss < bv
        · refine ⟨(i, ss), by simpa [ssBetter, hlt] using hbe, ⟨_, hs, hsum⟩, Or.inl rfl, le_refl _, ?_⟩
          intro b' h'
          cases h'
          exact le_of_lt hlt
        · refine ⟨(bi, bv), by simpa [ssBetter, hlt] using hbe, hb _ hbest, Or.inr rfl, not_lt.1 hlt, ?_⟩
          intro b' h'
          cases h'
          exact le_refl _
    obtain ⟨b0, hb0, hb1, hb2, hb3, hb4⟩ := hfirst _ rfl
    rw [hb0] at hstep
    obtain ⟨best', cost', delta', g1, g2, g3, g4, g5, g6⟩ := ih (fun j hj => his j (by simp [hj]))
      (some b0) c1 d1 (by omega) (fun s hs => by rw [h3]; exact hlen s hs)
      (by intro b hb'; cases hb'; exact hb1)
    refine ⟨best', cost', delta', by rw [hstep, g1], by omega, by omega, by simp,
      fun _ => g5 (Or.inr (by simp)), ?_⟩
    intro b' hb'
    obtain ⟨k1, k2, k3, k4⟩ := g6 b' hb'
    have hb0' := k3 b0 rfl
    refine ⟨k1, ?_, ?_, ?_⟩
    · rcases k2 with k2 | k2
      · exact Or.inl (by simp [k2])
      · cases k2
        rcases hb2 with h | h
        · exact Or.inl (by simp [h])
        · exact Or.inr h
    · intro b hb''
      exact le_trans hb0' (hb4 b hb'')
    · intro j s v hj hjs hv
      rcases List.mem_cons.1 hj with rfl | hj
      · rw [hs] at hjs
        cases hjs
        rw [hv.unique hsum]
        exact le_trans hb0' hb3
      · exact k4 j s v hj hjs hv

/-- **C60**: averaging gives a series whose sum of squared distances to all series is at most that of
every candidate series (all of them when there are at most 50, otherwise the sampled ones), of the
length of one of the series. -/
theorem C60_average {series : List (List K)} (hser : series ≠ []) (hne : ∀ s ∈ series, s ≠ [])
    (sample : List Nat) (hsample : ∀ i ∈ sample, i < series.length) (hsne : sample ≠ [])
    (iterations : Nat) :
    ∃ c, performDBA series sample iterations = .ok c ∧ (∃ s ∈ series, c.length = s.length) ∧
      ∀ (i : Nat) (s : List K) (v v' : K), (series.length ≤ 50 ∨ i ∈ sample) → series[i]? = some s →
        IsDTWSum s series v → IsDTWSum c series v' → v' ≤ v := by
  have hsize : ∀ (l : List Nat) (a : Nat), a ≤ l.foldl max a ∧ ∀ x ∈ l, x ≤ l.foldl max a := by
    intro l
    induction l with
    | nil => intro a; simp
    | cons y l ih =>
      intro a
      obtain ⟨h1, h2⟩ := ih (max a y)
      refine ⟨le_trans (le_max_left _ _) h1, ?_⟩
      intro x hx
      rcases List.mem_cons.1 hx with rfl | hx
      · exact le_trans (le_max_right _ _) h1
      · exact h2 x hx
  set size := (series.map List.length).foldl max 0 with hsz
  have hlen : ∀ s ∈ series, s.length ≤ size := by
    intro s hs
    exact (hsize _ 0).2 _ (List.mem_map.2 ⟨s, hs, rfl⟩)
  set idx := if series.length ≤ 50 then List.range series.length else sample with hidx
  have hidx1 : ∀ i ∈ idx, i < series.length := by
    intro i hi
    by_cases h : series.length ≤ 50
    · rw [hidx, if_pos h] at hi; exact List.mem_range.1 hi
    · rw [hidx, if_neg h] at hi; exact hsample i hi
  have hidx2 : idx ≠ [] := by
    by_cases h : series.length ≤ 50
    · rw [hidx, if_pos h]
      simpa using hser
    · rw [hidx, if_neg h]; exact hsne
  obtain ⟨best, cost, delta, h1, h2, h3, _, h5, h6⟩ := medoidLoop_ok series hne idx hidx1 none
    (⟨size, fun _ _ => 0⟩ : Mat K) ⟨size, fun _ _ => 0⟩ rfl hlen (by simp)
  simp only at h2 h3
  obtain ⟨b, rfl⟩ := Option.ne_none_iff_exists'.1 (h5 (Or.inl hidx2))
  obtain ⟨⟨center, hcen, hsum⟩, _, _, hbest⟩ := h6 b rfl
  have hcm : center ∈ series := List.mem_of_getElem? hcen
  obtain ⟨c', g1, g2, g3⟩ := C60_iterations iterations (hne _ hcm) hser hne
    (cost := cost) (delta := delta) (path := ⟨size, fun _ _ => 0⟩) (by omega) (by simp only; omega)
    (by rw [h3]; exact hlen _ hcm) (fun s hs => by rw [h3]; exact hlen s hs)
  refine ⟨c', ?_, ⟨center, hcm, g2⟩, ?_⟩
  · obtain ⟨s0, ss, hs0⟩ := List.exists_cons_of_ne_nil hser
    have hunf : performDBA series sample iterations =
        match approximateMedoid series sample (⟨size, fun _ _ => 0⟩ : Mat K) ⟨size, fun _ _ => 0⟩ with
        | (.error e, _) => .error e
        | (.ok best, cost, delta) =>
          match listAtInt series (match best with | none => -1 | some (i, _) => i) with
          | .error e => .error e
          | .ok center => dbaIterate series iterations center cost ⟨size, fun _ _ => 0⟩ delta := by
      rw [hsz, hs0]
      rfl
    rw [hunf, approximateMedoid, ← hidx, h1]
    obtain ⟨bi, bv⟩ := b
    simp only at hcen ⊢
    rw [listAtInt_nat hcen]
    exact g1
  · intro i s v v' hi his hv hv'
    have hii : i ∈ idx := by
      by_cases h : series.length ≤ 50
      · rw [hidx, if_pos h]
        exact List.mem_range.2 (List.getElem?_eq_some_iff.1 his).1
      · rw [hidx, if_neg h]
        exact hi.resolve_left h
    exact le_trans (g3 _ v' hsum hv') (hbest i s v hii his hv)

/-- Averaging two series of different lengths once: the longer one is the better start. -/
example : performDBA [[0, 4, 4], [2, 6]] [0] 1 = (.ok [1, 3, 5] : Except PyErr (List ℚ)) := by
  decide +kernel

end Spta
