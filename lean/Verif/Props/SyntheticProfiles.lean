import Verif.Spec.SyntheticProfiles
import Verif.Lemmas.Except
import Verif.Props.Iteration
import Verif.Props.Synthetic

/-!
# C138: the synthetic series of the k-medoids examples
-/

namespace Spta

variable {K : Type} [Field K] [LinearOrder K]

omit [LinearOrder K] in
theorem padZeros_getElem? (a : List K) (left right j : Nat) : (padZeros a left right)[j]? =
    if j < left then some 0 else if j < left + a.length then a[j - left]?
      else if j < left + a.length + right then some 0 else none := by
  unfold padZeros
  rw [List.append_assoc, List.getElem?_append]
  simp only [List.length_replicate, List.getElem?_replicate]
  by_cases h1 : j < left
  · simp [h1]
  · rw [if_neg h1, if_neg h1, List.getElem?_append]
    by_cases h2 : j < left + a.length
    · rw [if_pos h2, if_pos (by omega)]
    · rw [if_neg h2, if_neg (by omega), List.getElem?_replicate]
      congr 1
      exact propext ⟨fun h => by omega, fun h => by omega⟩

/-- **C138**: from 7 samples on, the series shows the profile after a delay, and there is room for the delay: 1 to 30
samples, at most 15 percent of the series. Shorter series are a ValueError. The last sample never shows the
profile. -/
theorem C138_delayed (profile : Profile K) (seriesLen draw : Nat) (z : Nat → K) :
    (seriesLen < 7 → delayedFunction profile seriesLen draw z = .error .valueError) ∧
    (7 ≤ seriesLen → ∃ s padding delay, delayedFunction profile seriesLen draw z = .ok s ∧
      IsDelayed profile seriesLen padding delay z s ∧ delay < padding ∧ padding ≤ 30 ∧ 20 * padding ≤ 3 * seriesLen ∧
      (∀ m, m ≤ 30 → 20 * m ≤ 3 * seriesLen → m ≤ padding) ∧
      s[seriesLen - 1]? = some (2 / 100 * z (seriesLen - 1))) := by
  constructor
  · intro h
    unfold delayedFunction
    rw [if_pos (by unfold paddingLength; omega)]
  · intro h
    have hp0 : paddingLength seriesLen ≠ 0 := by unfold paddingLength; omega
    have hle : 20 * paddingLength seriesLen ≤ 3 * seriesLen := by unfold paddingLength; omega
    have h30 : paddingLength seriesLen ≤ 30 := by unfold paddingLength; omega
    have hmax : ∀ m, m ≤ 30 → 20 * m ≤ 3 * seriesLen → m ≤ paddingLength seriesLen := by
      intro m h1 h2; unfold paddingLength; omega
    have hd : draw % paddingLength seriesLen < paddingLength seriesLen := Nat.mod_lt _ (Nat.pos_of_ne_zero hp0)
    unfold delayedFunction
    simp only [if_neg hp0]
    generalize paddingLength seriesLen = pad at *
    generalize draw % pad = left at *
    have hget : ∀ j, ((padZeros ((List.range (seriesLen - pad)).map fun j => profile j (seriesLen - pad)) left
        (pad - left)).zipIdx.map fun v => normalAt (2 / 100) v.1 (z v.2))[j]? =
        if j < left then some (2 / 100 * z j) else if j < left + (seriesLen - pad) then
          some (profile (j - left) (seriesLen - pad) + 2 / 100 * z j) else if j < seriesLen then
          some (2 / 100 * z j) else none := by
      intro j
      rw [List.getElem?_map, List.getElem?_zipIdx, padZeros_getElem?, List.length_map, List.length_range]
      by_cases h1 : j < left
      · simp [h1, normalAt]
      · rw [if_neg h1, if_neg h1]
        by_cases h2 : j < left + (seriesLen - pad)
        · rw [if_pos h2, if_pos h2, List.getElem?_map, List.getElem?_range (by omega)]
          simp [normalAt]
        · rw [if_neg h2, if_neg h2]
          by_cases h3 : j < seriesLen
          · rw [if_pos h3, if_pos (by omega)]
            simp [normalAt]
          · rw [if_neg h3, if_neg (by omega)]
            rfl
    refine ⟨_, pad, left, rfl, ⟨?_, fun j hj => ?_, fun j hj => ?_, fun j h1 h2 => ?_⟩, hd, h30, hle, hmax, ?_⟩
    · simp only [padZeros, List.length_map, List.length_zipIdx, List.length_append, List.length_replicate,
        List.length_range]
      omega
    · rw [hget, if_pos hj]
    · rw [hget, if_neg (by omega), if_pos (by omega), Nat.add_sub_cancel_left]
    · rw [hget, if_neg (by omega), if_neg (by omega), if_pos h2]
    · rw [hget, if_neg (by omega), if_neg (by omega), if_pos (by omega)]

omit [Field K] [LinearOrder K] in
theorem optionAt_ok {options : List (Profile K)} (h : options ≠ []) (i : Nat) :
    ∃ f, options[i % options.length]? = some f ∧ optionAt options i = .ok (i % options.length, f) := by
  have hlt := Nat.mod_lt i (List.length_pos_iff.2 h)
  refine ⟨_, List.getElem?_eq_getElem hlt, ?_⟩
  unfold optionAt
  rw [List.getElem?_eq_getElem hlt]

/-- **C138** (group): series `i` shows the function at position `i` modulo the number of functions. -/
theorem C138_group (count seriesLen : Nat) (options : List (Profile K)) (draw : Nat → Nat) (z : Nat → Nat → K)
    (ho : options ≠ []) (hs : 7 ≤ seriesLen) :
    ∃ group, alternating1d count seriesLen options draw z = .ok group ∧ group.length = count ∧
      ∀ (i : Nat) s, group[i]? = some s → ∃ f padding delay, options[i % options.length]? = some f ∧
        IsDelayed f seriesLen padding delay (z i) s ∧ delay < padding ∧ 20 * padding ≤ 3 * seriesLen := by
  have hcell : ∀ i : Nat, ∃ s, (match optionAt options i with
      | .error e => .error e
      | .ok (_, f) => delayedFunction f seriesLen (draw i) (z i)) = Except.ok s ∧
      ∃ f padding delay, options[i % options.length]? = some f ∧
        IsDelayed f seriesLen padding delay (z i) s ∧ delay < padding ∧ 20 * padding ≤ 3 * seriesLen := by
    intro i
    obtain ⟨f, h1, h2⟩ := optionAt_ok ho i
    obtain ⟨s, padding, delay, h3, h4, h5, _, h6, _⟩ := (C138_delayed f seriesLen (draw i) (z i)).2 hs
    exact ⟨s, by rw [h2]; exact h3, f, padding, delay, h1, h4, h5, h6⟩
  choose g hg1 hg2 using hcell
  refine ⟨(List.range count).map g, mapM_ok _ g _ fun i _ => hg1 i, by simp, fun i s h => ?_⟩
  rw [List.getElem?_map] at h
  obtain ⟨i', hi, rfl⟩ := Option.map_eq_some_iff.1 h
  obtain ⟨h1, h2⟩ := List.getElem?_eq_some_iff.1 hi
  rw [List.getElem_range] at h2
  subst h2
  exact hg2 i

/-- **C138** (region, partial): the series of the point (x, y) shows the function at position x * y modulo the number
of functions, and the mask tells which. Missing: the documentation says that every function is shown by about the
same number of points, which is refuted below. -/
theorem C138_region_partial (xLen yLen seriesLen : Nat) (options : List (Profile K)) (draw : Nat → Nat)
    (z : Nat → Nat → K) (ho : options ≠ []) (hs : 7 ≤ seriesLen) :
    ∃ series mask, alternating2d xLen yLen seriesLen options draw z = .ok (series, mask) ∧ series.WF ∧ mask.WF ∧
      series.xLen = xLen ∧ series.yLen = yLen ∧ mask.xLen = xLen ∧ mask.yLen = yLen ∧
      ∀ p : Point, p.x < xLen → p.y < yLen → ∃ s f padding delay, series.get p = .ok s ∧
        mask.get p = .ok (p.x * p.y % options.length) ∧ options[p.x * p.y % options.length]? = some f ∧
        IsDelayed f seriesLen padding delay (z (p.x * yLen + p.y)) s ∧ delay < padding := by
  have hcell : ∀ i j : Nat, ∃ s, alternatingCell yLen seriesLen options draw z i j =
      .ok (s, i * j % options.length) ∧ ∃ f padding delay, options[i * j % options.length]? = some f ∧
        IsDelayed f seriesLen padding delay (z (i * yLen + j)) s ∧ delay < padding := by
    intro i j
    obtain ⟨f, h1, h2⟩ := optionAt_ok ho (i * j)
    obtain ⟨s, padding, delay, h3, h4, h5, _, _, _⟩ :=
      (C138_delayed f seriesLen (draw (i * yLen + j)) (z (i * yLen + j))).2 hs
    refine ⟨s, ?_, f, padding, delay, h1, h4, h5⟩
    unfold alternatingCell
    rw [h2]
    simp only
    rw [h3]
  choose g hg1 hg2 using hcell
  have hrows : ((List.range xLen).mapM fun i => (List.range yLen).mapM fun j =>
      alternatingCell yLen seriesLen options draw z i j) =
      .ok ((List.range xLen).map fun i => (List.range yLen).map fun j => (g i j, i * j % options.length)) :=
    mapM_ok _ _ _ fun i _ => mapM_ok _ _ _ fun j _ => hg1 i j
  have hflat : ((List.range xLen).map fun i => (List.range yLen).map fun j =>
      (g i j, i * j % options.length)).flatten =
      (rowMajor xLen yLen).map fun p => (g p.x p.y, p.x * p.y % options.length) := by
    unfold rowMajor
    rw [List.map_flatMap, List.flatMap_def]
    simp only [List.map_map]
    rfl
  refine ⟨⟨xLen, yLen, (rowMajor xLen yLen).map fun p => g p.x p.y⟩,
    ⟨xLen, yLen, (rowMajor xLen yLen).map fun p => p.x * p.y % options.length⟩, ?_, ?_, ?_, rfl, rfl, rfl, rfl, ?_⟩
  · unfold alternating2d
    rw [hrows]
    simp only
    rw [hflat, List.map_map, List.map_map]
    rfl
  · simp [Grid.WF, rowMajor_length]
  · simp [Grid.WF, rowMajor_length]
  · intro p hx hy
    have hp : (rowMajor xLen yLen)[p.x * yLen + p.y]? = some p := by
      rw [rowMajor_eq_map, List.getElem?_map, List.getElem?_range (idx_lt hx hy), Option.map_some, idx_div hy,
        idx_mod hy]
    obtain ⟨f, padding, delay, h1, h2, h3⟩ := hg2 p.x p.y
    refine ⟨g p.x p.y, f, padding, delay, ?_, ?_, h1, h2, h3⟩
    · rw [Grid.get_eq_ok_iff]
      exact ⟨hx, hy, by rw [List.getElem?_map, hp]; rfl⟩
    · rw [Grid.get_eq_ok_iff]
      exact ⟨hx, hy, by rw [List.getElem?_map, hp]; rfl⟩

/-- **C138**: without functions there are no series (unless none is wanted). -/
theorem C138_no_functions (count seriesLen xLen yLen : Nat) (draw : Nat → Nat) (z : Nat → Nat → K) :
    (0 < count → alternating1d count seriesLen [] draw z = .error .zeroDivisionError) ∧
    (0 < xLen → 0 < yLen → alternating2d xLen yLen seriesLen [] draw z = .error .zeroDivisionError) := by
  constructor
  · intro h
    obtain ⟨n, rfl⟩ : ∃ n, count = n + 1 := ⟨count - 1, by omega⟩
    unfold alternating1d
    rw [List.range_succ_eq_map, List.mapM_cons]
    rfl
  · intro hx hy
    obtain ⟨n, rfl⟩ : ∃ n, xLen = n + 1 := ⟨xLen - 1, by omega⟩
    obtain ⟨m, rfl⟩ : ∃ n, yLen = n + 1 := ⟨yLen - 1, by omega⟩
    unfold alternating2d
    simp only [List.range_succ_eq_map, List.mapM_cons]
    rfl

/-- **C138 refuted**: in the region of 8 by 8 points of the example with its three functions, the first function is
shown by 39 points, the others by 13 and 12. -/
theorem C138_fill_refuted (draw : Nat → Nat) (z : Nat → Nat → ℚ) (f0 f1 f2 : Profile ℚ) :
    ∃ series mask, alternating2d 8 8 200 [f0, f1, f2] draw z = .ok (series, mask) ∧
      mask.data.count 0 = 39 ∧ mask.data.count 1 = 13 ∧ mask.data.count 2 = 12 := by
  obtain ⟨series, mask, h1, _, h2, _, _, h3, h4, h5⟩ :=
    C138_region_partial 8 8 200 [f0, f1, f2] draw z (by simp) (by decide)
  have hm : mask.data = (rowMajor 8 8).map fun p => p.x * p.y % 3 := by
    refine List.ext_getElem? fun n => ?_
    by_cases hn : n < 64
    · obtain ⟨_, _, _, _, _, h6, _⟩ := h5 ⟨n / 8, n % 8⟩ (by simp only; omega) (by simp only; omega)
      have h7 := ((Grid.get_eq_ok_iff _ _ _).1 h6).2.2
      simp only [h4] at h7
      have h8 : n / 8 * 8 + n % 8 = n := by omega
      rw [h8] at h7
      rw [h7, rowMajor_eq_map, List.map_map, List.getElem?_map, List.getElem?_range (by omega)]
      rfl
    · rw [List.getElem?_eq_none, List.getElem?_eq_none]
      · simp [rowMajor_length]; omega
      · have : mask.data.length = mask.xLen * mask.yLen := h2
        rw [this, h3, h4]; omega
  exact ⟨series, mask, h1, by rw [hm]; decide, by rw [hm]; decide, by rw [hm]; decide⟩

/-! ### How often each function is shown -/

theorem countP_range_mul {m : Nat} {q : Nat → Bool} (hq : ∀ y, q (y + m) = q y) (b : Nat) :
    (List.range (b * m)).countP q = b * (List.range m).countP q := by
  have hq' : ∀ b y, q (b * m + y) = q y := by
    intro b
    induction b with
    | zero => intro y; simp
    | succ b ih => intro y; rw [show (b + 1) * m + y = b * m + y + m by ring, hq, ih]
  induction b with
  | zero => simp
  | succ b ih =>
    rw [Nat.succ_mul, List.range_add, List.countP_append, ih, List.countP_map, Nat.succ_mul]
    congr 1
    exact List.countP_congr fun y _ => by simp only [Function.comp_apply, hq']

theorem sum_range_mul {m : Nat} {g : Nat → Nat} (hg : ∀ x, g (x + m) = g x) (a : Nat) :
    ((List.range (a * m)).map g).sum = a * ((List.range m).map g).sum := by
  have hg' : ∀ a x, g (a * m + x) = g x := by
    intro a
    induction a with
    | zero => intro y; simp
    | succ a ih => intro y; rw [show (a + 1) * m + y = a * m + y + m by ring, hg, ih]
  induction a with
  | zero => simp
  | succ a ih =>
    rw [Nat.succ_mul, List.range_add, List.map_append, List.sum_append, ih, List.map_map, Nat.succ_mul]
    congr 2
    exact List.map_congr_left fun x _ => by simp only [Function.comp_apply, hg']

/-- The multiples of a number coprime to `m` have each remainder once. -/
theorem countP_coprime {m x c : Nat} (hx : Nat.Coprime m x) (hc : c < m) :
    (List.range m).countP (fun y => decide (x * y % m = c)) = 1 := by
  have hnd : ((List.range m).map fun y => x * y % m).Nodup := by
    refine List.Nodup.map_on ?_ List.nodup_range
    intro y hy z hz h
    have := Nat.ModEq.cancel_left_of_coprime (hx : Nat.gcd m x = 1) (h : x * y ≡ x * z [MOD m])
    exact Nat.ModEq.eq_of_lt_of_lt this (List.mem_range.1 hy) (List.mem_range.1 hz)
  have hperm : ((List.range m).map fun y => x * y % m).Perm (List.range m) := by
    refine (List.subperm_of_subset hnd ?_).perm_of_length_le (by simp)
    intro v hv
    obtain ⟨y, _, rfl⟩ := List.mem_map.1 hv
    exact List.mem_range.2 (Nat.mod_lt _ (by omega))
  have h1 := hperm.count_eq c
  rw [List.count_eq_one_of_mem List.nodup_range (List.mem_range.2 hc), List.count, List.countP_map] at h1
  rw [← h1]
  exact List.countP_congr fun y _ => by simp

/-- **C138**, how the functions are shared out, for every prime number `m` of functions and all regions of a·m by b·m
points: of every m² points, 2m - 1 show the first function, and m - 1 each of the others. The documentation would
have m for each. -/
theorem C138_shares_partial {m : Nat} (hm : m.Prime) (a b seriesLen : Nat) (options : List (Profile K))
    (draw : Nat → Nat) (z : Nat → Nat → K) (ho : options.length = m) (hs : 7 ≤ seriesLen) :
    ∃ series mask, alternating2d (a * m) (b * m) seriesLen options draw z = .ok (series, mask) ∧
      mask.data.count 0 = a * b * (2 * m - 1) ∧ ∀ c, 0 < c → c < m → mask.data.count c = a * b * (m - 1) := by
  have hpos := hm.pos
  obtain ⟨series, mask, h1, -, h2, -, -, h3, h4, h5⟩ := C138_region_partial (a * m) (b * m) seriesLen options draw z
    (by intro h; rw [h] at ho; simp at ho; omega) hs
  rw [ho] at h5
  have hdata : mask.data = (rowMajor (a * m) (b * m)).map fun p => p.x * p.y % m := by
    have hwf : mask.data.length = a * m * (b * m) := by rw [← h3, ← h4]; exact h2
    refine List.ext_getElem? fun n => ?_
    by_cases hn : n < a * m * (b * m)
    · have hy : 0 < b * m := Nat.pos_of_ne_zero fun h => by rw [h] at hn; simp at hn
      have hx1 : n / (b * m) < a * m := Nat.div_lt_of_lt_mul (by rwa [Nat.mul_comm (b * m)])
      obtain ⟨_, _, _, _, _, h6, _⟩ := h5 ⟨n / (b * m), n % (b * m)⟩ hx1 (Nat.mod_lt _ hy)
      have h7 := ((Grid.get_eq_ok_iff _ _ _).1 h6).2.2
      simp only [h4, Nat.div_add_mod'] at h7
      rw [h7, rowMajor_eq_map, List.map_map, List.getElem?_map, List.getElem?_range hn]
      rfl
    · rw [List.getElem?_eq_none (by omega), List.getElem?_eq_none]
      rw [List.length_map, rowMajor_length]; omega
  have hcount : ∀ c, mask.data.count c =
      a * ((List.range m).map fun x => b * (List.range m).countP fun y => decide (x * y % m = c)).sum := by
    intro c
    have hin : ∀ x, (List.range (b * m)).countP (fun y => decide (x * y % m = c)) =
        b * (List.range m).countP fun y => decide (x * y % m = c) := fun x =>
      countP_range_mul (fun y => by rw [Nat.mul_add, Nat.add_mul_mod_self_right]) b
    rw [← sum_range_mul (g := fun x => b * (List.range m).countP fun y => decide (x * y % m = c)) (fun x => by
      simp only [Nat.add_mul, Nat.add_mul_mod_self_left])]
    rw [hdata, List.count, List.countP_map]
    unfold rowMajor
    rw [List.countP_flatMap]
    congr 1
    refine List.map_congr_left fun x _ => ?_
    rw [← hin x]
    simp only [Function.comp_apply, List.countP_map]
    exact List.countP_congr fun y _ => by simp
  obtain ⟨k, rfl⟩ : ∃ k, m = k + 1 := ⟨m - 1, by omega⟩
  have hrest : ∀ c, c < k + 1 → (((List.range k).map Nat.succ).map fun x =>
      b * (List.range (k + 1)).countP fun y => decide (x * y % (k + 1) = c)) = List.replicate k b := by
    intro c hc
    rw [List.eq_replicate_iff]
    refine ⟨by simp, fun v hv => ?_⟩
    obtain ⟨x, hx, rfl⟩ := List.mem_map.1 hv
    obtain ⟨x', hx', rfl⟩ := List.mem_map.1 hx
    rw [countP_coprime ?_ hc, Nat.mul_one]
    rw [Nat.Prime.coprime_iff_not_dvd hm]
    intro hd
    have := Nat.le_of_dvd (Nat.succ_pos _) hd
    have := List.mem_range.1 hx'
    omega
  refine ⟨series, mask, h1, ?_, fun c hc0 hc => ?_⟩
  · rw [hcount, List.range_succ_eq_map, List.map_cons, List.sum_cons, ← List.range_succ_eq_map, hrest 0 (by omega)]
    simp only [Nat.zero_mul, Nat.zero_mod, decide_true, List.countP_true, List.length_range, List.sum_replicate,
      smul_eq_mul]
    rw [show 2 * (k + 1) - 1 = k + 1 + k by omega]
    ring
  · rw [hcount, List.range_succ_eq_map, List.map_cons, List.sum_cons, ← List.range_succ_eq_map, hrest c hc]
    have : ¬ 0 = c := by omega
    simp only [Nat.zero_mul, Nat.zero_mod, this, decide_false, List.countP_false, Nat.mul_zero, List.sum_replicate,
      smul_eq_mul, Nat.zero_add, Nat.add_sub_cancel, Function.const_apply]
    ring

/-- A region of 3 by 6 points with three functions: 10 points show the first, 4 each of the others. -/
example (draw : Nat → Nat) (z : Nat → Nat → ℚ) (f0 f1 f2 : Profile ℚ) :
    ∃ series mask, alternating2d 3 6 7 [f0, f1, f2] draw z = .ok (series, mask) ∧
      mask.data.count 0 = 10 ∧ mask.data.count 2 = 4 := by
  obtain ⟨series, mask, h1, h2, h3⟩ := C138_shares_partial (by decide : Nat.Prime 3) 1 2 7 [f0, f1, f2] draw z rfl
    (by decide)
  exact ⟨series, mask, h1, h2, h3 2 (by decide) (by decide)⟩

/-- A series of 20 samples: the line 1, 2, ... with a delay of two samples; the noise of sample j is j. -/
example : delayedFunction (K := ℚ) (fun j _ => j + 1) 20 5 (fun j => 50 * j) =
    .ok [0, 1, 3, 5, 7, 9, 11, 13, 15, 17, 19, 21, 23, 25, 27, 29, 31, 33, 35, 19] := by decide +kernel

/-- Two functions for a group of three series and for a region of 2 by 2 points. -/
example : (alternating1d (K := ℚ) 3 7 [fun _ _ => 1, fun j _ => j] (fun _ => 0) (fun _ _ => 0) =
      .ok [[1, 1, 1, 1, 1, 1, 0], [0, 1, 2, 3, 4, 5, 0], [1, 1, 1, 1, 1, 1, 0]]) ∧
    (alternating2d (K := ℚ) 2 2 7 [fun _ _ => 1, fun j _ => j] (fun _ => 0) (fun _ _ => 0)).map (·.2.data) =
      .ok [0, 0, 0, 1] := ⟨by decide +kernel, by decide +kernel⟩

end Spta
