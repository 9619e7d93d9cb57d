import Mathlib.Tactic.FieldSimp
import Mathlib.Data.Int.Interval
import Mathlib.Data.List.Perm.Basic
import Verif.Lemmas.Util

/-!
# C41 – C44: sliding windows, calendar, error measures, random integers
-/

set_option linter.unusedSectionVars false

namespace Spta

/-! ### C41 -/

/-- **C41**: the k-th window is the slice that starts at `k * stride`, for every `k` for which that
slice fits into the series. -/
theorem C41_windows {A : Type} (a : List A) (windowLen stride : Nat) (hs : 0 < stride) :
    ∃ ws, slidingWindow a windowLen stride = .ok ws ∧
      ∀ (k : Nat) (w : List A), ws[k]? = some w ↔ IsSlice w a (k * stride) windowLen := by
  refine ⟨_, by rw [slidingWindow, if_neg (by omega)], fun k w => ?_⟩
  rw [List.getElem?_map, rangeStep_getElem? _ _ hs, isSlice_iff]
  rw [Nat.zero_add]
  by_cases h : k * stride + windowLen ≤ a.length
  · rw [if_pos (by omega), Option.map_some, pySlice_window _ _ _ h]
    simp [h, eq_comm]
  · rw [if_neg (by omega)]
    simp [h]

/-- **C41**: number of windows with stride 1, and in general. -/
theorem C41_count {A : Type} (a : List A) (windowLen stride : Nat) (hs : 0 < stride) :
    ∃ ws, slidingWindow a windowLen stride = .ok ws ∧
      (stride = 1 → ws.length = a.length + 1 - windowLen) ∧
      (windowLen ≤ a.length → ws.length = (a.length - windowLen) / stride + 1) ∧
      (a.length < windowLen → ws = []) := by
  obtain ⟨ws, h1, h2⟩ := C41_windows a windowLen stride hs
  have h3 : ∀ k, k < ws.length ↔ k * stride + windowLen ≤ a.length := by
    intro k
    constructor
    · intro hk
      exact ((h2 k _).1 (List.getElem?_eq_getElem hk)).1
    · intro hk
      have := (h2 k ((a.drop (k * stride)).take windowLen)).2 ((isSlice_iff _ _ _ _).2 ⟨hk, rfl⟩)
      exact (List.getElem?_eq_some_iff.1 this).1
  have hgen : windowLen ≤ a.length → ws.length = (a.length - windowLen) / stride + 1 := by
    intro hle
    apply le_antisymm
    · by_contra hc
      have := (h3 ((a.length - windowLen) / stride + 1)).1 (by omega)
      have h4 := Nat.lt_div_mul_add (a := a.length - windowLen) hs
      have h5 : ((a.length - windowLen) / stride + 1) * stride =
        (a.length - windowLen) / stride * stride + stride := by ring
      omega
    · have h4 := Nat.div_mul_le_self (a.length - windowLen) stride
      have := (h3 ((a.length - windowLen) / stride)).2 (by omega)
      omega
  have hnil : a.length < windowLen → ws = [] := by
    intro hlt
    by_contra hc
    have := (h3 0).1 (List.length_pos_iff.2 hc)
    omega
  refine ⟨ws, h1, ?_, hgen, hnil⟩
  rintro rfl
  rcases Nat.lt_or_ge a.length windowLen with h | h
  · rw [hnil h]; simp; omega
  · rw [hgen h]; omega

example : slidingWindow [5, 6, 7, 8, 9] 3 2 = .ok [[5, 6, 7], [7, 8, 9]] ∧
    IsSlice [7, 8, 9] [5, 6, 7, 8, 9] (1 * 2) 3 := by
  refine ⟨?_, by decide, by decide, by decide⟩
  simp [slidingWindow, rangeStep, pySlice, pyBound]

/-- **C41**, labelled: for a series without NaN and a window that fits, the row number k holds the label,
the slice that starts at k, and the offset k; there are no other rows. -/
theorem C41_labeled {L K : Type} (label : L) (s : List K) (n : Nat) (hn : 0 < n)
    (hs : n ≤ s.length + 1) :
    ∃ rows, extractWindows label (s.map some) n = .ok rows ∧
      rows.length = s.length + 1 - n ∧
      ∀ (k : Nat) (l : L) (w : List (Option K)) (o : Nat), rows[k]? = some (l, w, o) ↔
        l = label ∧ o = k ∧ ∃ v : List K, w = v.map some ∧ IsSlice v s k n := by
  have hcalls : rollingCalls (s.map some) n =
      (List.range (s.length + 1 - n)).map fun k => ((s.drop k).take n).map some := by
    rw [rollingCalls_eq _ _ hn, List.length_map, List.filter_eq_self.2]
    · apply List.map_congr_left
      intro k _
      rw [← List.map_drop, ← List.map_take]
    · intro w hw
      obtain ⟨k, _, rfl⟩ := List.mem_map.1 hw
      rw [← List.map_drop, ← List.map_take, List.all_map]
      simp
  have hdrop : ((List.replicate (n - 1) (none : Option (List (Option K))) ++
      (rollingCalls (s.map some) n).map some).drop (n - 1)).filterMap id =
      rollingCalls (s.map some) n := by
    rw [List.drop_left' (by simp)]
    simp
  have hnum : ((((s.map some).length : Nat) : Int) - n + 1).toNat = s.length + 1 - n := by
    rw [List.length_map]; omega
  have hzip : ((rollingCalls (s.map some) n).zip (List.range (s.length + 1 - n))).map
      (fun w => (label, w.1, w.2)) =
      (List.range (s.length + 1 - n)).map fun k => (label, ((s.drop k).take n).map some, k) := by
    rw [hcalls]
    apply List.ext_getElem (by simp)
    intro i h1 h2
    simp
  refine ⟨(List.range (s.length + 1 - n)).map fun k => (label, ((s.drop k).take n).map some, k),
    ?_, by simp, ?_⟩
  · rw [extractWindows, if_neg (by omega)]
    simp only
    rw [if_neg, hdrop, hnum, if_neg, hzip]
    · rw [hcalls]; simp
    · rw [hcalls]; simp; omega
  · intro k l w o
    rw [List.getElem?_map]
    by_cases h : k < s.length + 1 - n
    · rw [List.getElem?_range h]
      simp only [Option.map_some, Option.some.injEq, Prod.mk.injEq]
      constructor
      · rintro ⟨rfl, rfl, rfl⟩
        exact ⟨rfl, rfl, _, rfl, (isSlice_iff _ _ _ _).2 ⟨by omega, rfl⟩⟩
      · rintro ⟨rfl, rfl, v, rfl, hv⟩
        exact ⟨rfl, by rw [((isSlice_iff _ _ _ _).1 hv).2], rfl⟩
    · rw [List.getElem?_eq_none (by simp; omega)]
      constructor
      · intro h; simp at h
      · rintro ⟨_, _, v, _, hv⟩
        exact absurd hv.1 (by omega)

/-- **C41**, labelled: the rows of all tuples follow each other in the order of the tuples, each with its
own label and offsets that start at 0. -/
theorem C41_labeled_all {L K : Type} (tuples : List (L × List K)) (n : Nat) (h0 : tuples ≠ [])
    (hn : 0 < n) (hs : ∀ t ∈ tuples, n ≤ t.2.length + 1) :
    ∃ rows : List (List (L × List (Option K) × Nat)),
      labeledWindows (tuples.map fun t => (t.1, t.2.map some)) n = .ok rows.flatten ∧
      List.Forall₂ (fun t r => r.length = t.2.length + 1 - n ∧
        ∀ (k : Nat) (l : L) (w : List (Option K)) (o : Nat), r[k]? = some (l, w, o) ↔
          l = t.1 ∧ o = k ∧ ∃ v : List K, w = v.map some ∧ IsSlice v t.2 k n) tuples rows := by
  have h : ∃ rows, (tuples.map fun t => (t.1, t.2.map some)).mapM
      (fun t => extractWindows t.1 t.2 n) = .ok rows ∧
      List.Forall₂ (fun t r => r.length = t.2.length + 1 - n ∧
        ∀ (k : Nat) (l : L) (w : List (Option K)) (o : Nat), r[k]? = some (l, w, o) ↔
          l = t.1 ∧ o = k ∧ ∃ v : List K, w = v.map some ∧ IsSlice v t.2 k n) tuples rows := by
    clear h0
    induction tuples with
    | nil => exact ⟨[], rfl, .nil⟩
    | cons t ts ih =>
      obtain ⟨rows, h1, h2⟩ := ih fun t ht => hs t (List.mem_cons_of_mem _ ht)
      obtain ⟨r, h3, h4⟩ := C41_labeled t.1 t.2 n hn (hs t (List.mem_cons_self ..))
      refine ⟨r :: rows, ?_, .cons h4 h2⟩
      rw [List.map_cons, List.mapM_cons, h3, h1]; rfl
  obtain ⟨rows, h1, h2⟩ := h
  refine ⟨rows, ?_, h2⟩
  have h3 : rows ≠ [] := by
    rintro rfl
    cases h2
    exact h0 rfl
  have h4 : labeledWindows (tuples.map fun t => (t.1, t.2.map some)) n =
      (match (tuples.map fun t => (t.1, t.2.map some)).mapM (fun t => extractWindows t.1 t.2 n) with
       | .ok p => if p = [] then .error .valueError else .ok p.flatten
       | .error e => .error e) := by
    rw [labeledWindows]
    cases (tuples.map fun t => (t.1, t.2.map some)).mapM (fun t => extractWindows t.1 t.2 n) <;> rfl
  rw [h4, h1]
  simp [h3]

example : labeledWindows [('a', [some 0, some 1, some 2]), ('b', [some 10, some 11, some 12])] 2 =
    .ok [('a', [some 0, some 1], 0), ('a', [some 1, some 2], 1), ('b', [some 10, some 11], 0),
      ('b', [some 11, some 12], 1)] := by decide +kernel

/-- **C41**, labelled, when it fails: window size 0, a window at least two longer than the series, or
NaN in a series that holds at least one window. -/
theorem C41_labeled_error {L K : Type} (label : L) (s : List (Option K)) (n : Nat) :
    (∃ rows, extractWindows label s n = .ok rows) ↔
      0 < n ∧ (n = s.length + 1 ∨ n ≤ s.length ∧ none ∉ s) := by
  rcases Nat.eq_zero_or_pos n with rfl | hn
  · simp [extractWindows]
  have hdrop : ((List.replicate (n - 1) (none : Option (List (Option K))) ++
      (rollingCalls s n).map some).drop (n - 1)).filterMap id = rollingCalls s n := by
    rw [List.drop_left' (by simp)]
    simp
  have hlen : (List.replicate (n - 1) (none : Option (List (Option K))) ++
      (rollingCalls s n).map some).length = n - 1 + (rollingCalls s n).length := by simp
  have hle : (rollingCalls s n).length ≤ s.length + 1 - n := by
    rw [rollingCalls_eq _ _ hn]
    exact (List.length_filter_le _ _).trans (by simp)
  have hall : (rollingCalls s n).length = s.length + 1 - n ↔
      ∀ k < s.length + 1 - n, none ∉ (s.drop k).take n := by
    rw [rollingCalls_eq _ _ hn]
    have h1 := List.length_filter_eq_length_iff (p := fun w : List (Option K) => w.all (·.isSome))
      (l := (List.range (s.length + 1 - n)).map fun k => (s.drop k).take n)
    rw [List.length_map, List.length_range] at h1
    rw [h1]
    simp only [List.mem_map, List.mem_range, forall_exists_index, and_imp,
      forall_apply_eq_imp_iff₂, List.all_eq_true]
    refine forall₂_congr fun k _ => ⟨fun h hm => by simpa using h _ hm, fun h x hx => ?_⟩
    cases x with
    | none => exact absurd hx h
    | some v => rfl
  have hnone : n ≤ s.length → ((∀ k < s.length + 1 - n, none ∉ (s.drop k).take n) ↔ none ∉ s) := by
    intro hns
    constructor
    · intro h hm
      obtain ⟨i, hi, he⟩ := List.getElem_of_mem hm
      refine h (min i (s.length - n)) (by omega) ?_
      apply List.mem_of_getElem? (i := i - min i (s.length - n))
      rw [List.getElem?_take_of_lt (by omega), List.getElem?_drop,
        show min i (s.length - n) + (i - min i (s.length - n)) = i by omega,
        List.getElem?_eq_getElem hi, he]
    · intro h k _ hm
      exact h (List.mem_of_mem_drop (List.mem_of_mem_take hm))
  rw [extractWindows, if_neg (by omega)]
  simp only
  rw [hdrop, hlen]
  constructor
  · rintro ⟨rows, hr⟩
    refine ⟨hn, ?_⟩
    by_cases h1 : n - 1 + (rollingCalls s n).length ≠ s.length
    · rw [if_pos h1] at hr; exact absurd hr (by simp)
    · push Not at h1
      rcases Nat.lt_or_ge s.length n with h | h
      · left; omega
      · exact .inr ⟨h, (hnone h).1 (hall.1 (by omega))⟩
  · rintro ⟨_, h⟩
    have h1 : (rollingCalls s n).length = s.length + 1 - n := by
      rcases h with h | ⟨h, h'⟩
      · omega
      · exact hall.2 ((hnone h).2 h')
    rw [if_neg (by omega), if_neg (by omega)]
    exact ⟨_, rfl⟩

example : (∃ rows, extractWindows 'a' [some (1 : Int), none, some 2] 2 = .ok rows) ↔ False := by
  rw [C41_labeled_error]; decide

/-! ### C42 -/

/-- **C42**: the interval of the years `yearStart .. yearStart + n - 1` starts after the days of the
years from the first one on, and its length is the number of days of these years, times the samples per
day. -/
theorem C42_interval (firstYear spd : Int) (m n : Nat) (h1 : 1 ≤ firstYear)
    (h2 : firstYear + m + n ≤ 9999) :
    ∃ a b, yearsToSeriesInterval (firstYear + m) (firstYear + m + n - 1) firstYear spd = .ok (a, b) ∧
      a = daysOfYears firstYear m * spd ∧ b - a = daysOfYears (firstYear + m) n * spd := by
  refine ⟨(ordinal (firstYear + m) - ordinal firstYear) * spd,
    (ordinal (firstYear + m + n - 1 + 1) - ordinal firstYear) * spd, ?_, ?_, ?_⟩
  · rw [yearsToSeriesInterval, januaryFirst_ok (y := firstYear) (by omega),
      januaryFirst_ok (by omega), januaryFirst_ok (by omega)]
    rfl
  · rw [ordinal_add]; ring
  · rw [sub_add_cancel, ordinal_add (firstYear + m) n]; ring

/-- **C42**: the first year of the sample starts at 0. -/
theorem C42_first (firstYear yearEnd spd : Int) (h : 1 ≤ firstYear ∧ firstYear ≤ 9999)
    (h2 : 0 ≤ yearEnd ∧ yearEnd ≤ 9998) :
    ∃ b, yearsToSeriesInterval firstYear yearEnd firstYear spd = .ok (0, b) := by
  refine ⟨(ordinal (yearEnd + 1) - ordinal firstYear) * spd, ?_⟩
  rw [yearsToSeriesInterval, januaryFirst_ok h, januaryFirst_ok (by omega)]
  show Except.ok ((ordinal firstYear - ordinal firstYear) * spd, _) = _
  rw [sub_self, zero_mul]

/-- **C42**: consecutive ranges of years give adjacent intervals. -/
theorem C42_adjacent (firstYear y1 y2 y3 spd : Int) {a b c d : Int}
    (h1 : yearsToSeriesInterval y1 y2 firstYear spd = .ok (a, b))
    (h2 : yearsToSeriesInterval (y2 + 1) y3 firstYear spd = .ok (c, d)) : b = c := by
  rw [yearsToSeriesInterval] at h1 h2
  cases h3 : januaryFirst firstYear with
  | error e => rw [h3] at h1; cases h1
  | ok f =>
    cases h4 : januaryFirst (y2 + 1) with
    | error e => rw [h3, h4] at h2; cases h2
    | ok x =>
      rw [h3, h4] at h1 h2
      cases h5 : januaryFirst y1 with
      | error e => rw [h5] at h1; cases h1
      | ok y =>
        rw [h5] at h1
        cases h6 : januaryFirst (y3 + 1) with
        | error e => rw [h6] at h2; cases h2
        | ok z =>
          rw [h6] at h2
          cases h1; cases h2; rfl

/-- **C42**: it fails, with ValueError, exactly for years outside the calendar of python. -/
theorem C42_error (firstYear y1 y2 spd : Int) :
    yearsToSeriesInterval y1 y2 firstYear spd = .error .valueError ↔
      ¬ ((1 ≤ firstYear ∧ firstYear ≤ 9999) ∧ (1 ≤ y1 ∧ y1 ≤ 9999) ∧ (0 ≤ y2 ∧ y2 ≤ 9998)) := by
  rw [yearsToSeriesInterval]
  by_cases h3 : 1 ≤ firstYear ∧ firstYear ≤ 9999
  · rw [januaryFirst_ok h3]
    by_cases h4 : 1 ≤ y1 ∧ y1 ≤ 9999
    · rw [januaryFirst_ok h4]
      by_cases h5 : 0 ≤ y2 ∧ y2 ≤ 9998
      · rw [januaryFirst_ok (by omega)]
        constructor
        · intro h; cases h
        · intro h; exact absurd ⟨h3, h4, h5⟩ h
      · rw [januaryFirst_error (y := y2 + 1) (by omega)]
        exact ⟨fun _ h => h5 h.2.2, fun _ => rfl⟩
    · rw [januaryFirst_error h4]
      exact ⟨fun _ h => h4 h.2.1, fun _ => rfl⟩
  · rw [januaryFirst_error h3]
    exact ⟨fun _ h => h3 h.1, fun _ => rfl⟩

/-- The three examples of the documentation. -/
example : yearsToSeriesInterval 1979 1979 1979 4 = .ok (0, 1460) ∧
    yearsToSeriesInterval 1980 1980 1979 4 = .ok (1460, 2924) ∧
    yearsToSeriesInterval 2014 2015 1979 4 = .ok (51136, 54056) := by decide +kernel

example : daysOfYears 1979 35 * 4 = 51136 ∧ daysOfYears 1900 1 = 365 ∧ daysOfYears 2000 1 = 366 := by
  decide +kernel

/-! ### C43 -/

section

variable {K : Type} [Field K] [LinearOrder K] [IsStrictOrderedRing K]

/-- The differences between two series at the positions where both are numbers. -/
def bothDiffs : List (Option K) → List (Option K) → List K
  | some x :: f, some y :: o => (x - y) :: bothDiffs f o
  | _ :: f, _ :: o => bothDiffs f o
  | _, _ => []

theorem mse_ok (f o : List (Option K)) (hlen : f.length = o.length) (h : bothDiffs f o ≠ []) :
    mse f o = .ok (some (((bothDiffs f o).map fun d => d * d).sum / (bothDiffs f o).length)) := by
  have key : ∀ f o : List (Option K), f.length = o.length →
      (squared (List.zipWith (liftOp (· - ·)) f o)).filter (·.isSome) =
        ((bothDiffs f o).map fun d => d * d).map some := by
    intro f
    induction f with
    | nil => intro o _; cases o <;> rfl
    | cons a f ih =>
      intro o ho
      cases o with
      | nil => simp at ho
      | cons b o =>
        have := ih o (by simpa using ho)
        rw [squared] at this
        rw [List.zipWith_cons_cons, squared, List.map_cons]
        cases a with
        | none => rw [bothDiffs, ← this, List.filter_cons_of_neg (by simp [liftOp])]; simp
        | some x =>
          cases b with
          | none => rw [bothDiffs, ← this, List.filter_cons_of_neg (by simp [liftOp])]; simp
          | some y =>
            rw [bothDiffs, List.map_cons, List.map_cons, ← this,
              List.filter_cons_of_pos (by simp [liftOp])]
            rfl
  rw [mse, broadcastOp_eq _ hlen]
  simp only
  rw [meanSquared, nanMean, key f o hlen, floatMean_some (by simpa using h), List.length_map]

/-- **C43** (MSE): the mean of the squared differences at the positions where both series are numbers;
it is not negative, and 0 exactly when the series agree at these positions. -/
theorem C43_mse (f o : List (Option K)) (hlen : f.length = o.length)
    (h : ∃ (i : Nat) (x y : K), f[i]? = some (some x) ∧ o[i]? = some (some y)) :
    ∃ v, mse f o = .ok (some v) ∧ 0 ≤ v ∧
      (v = 0 ↔ ∀ (i : Nat) (x y : K), f[i]? = some (some x) → o[i]? = some (some y) → x = y) := by
  have hmem : ∀ (f o : List (Option K)) (d : K), d ∈ bothDiffs f o ↔
      ∃ (i : Nat) (x y : K), f[i]? = some (some x) ∧ o[i]? = some (some y) ∧ d = x - y := by
    intro f
    induction f with
    | nil => intro o d; cases o <;> simp [bothDiffs]
    | cons a f ih =>
      intro o d
      cases o with
      | nil => cases a <;> simp [bothDiffs]
      | cons b o =>
        have hex : (∃ (i : Nat) (x y : K), (a :: f)[i]? = some (some x) ∧ (b :: o)[i]? = some (some y) ∧ d = x - y) ↔
            (∃ x y, a = some x ∧ b = some y ∧ d = x - y) ∨
              ∃ (i : Nat) (x y : K), f[i]? = some (some x) ∧ o[i]? = some (some y) ∧ d = x - y := by
          constructor
          · rintro ⟨i, x, y, h1, h2, h3⟩
            cases i with
            | zero => exact .inl ⟨x, y, by simpa using h1, by simpa using h2, h3⟩
            | succ i => exact .inr ⟨i, x, y, by simpa using h1, by simpa using h2, h3⟩
          · rintro (⟨x, y, rfl, rfl, h⟩ | ⟨i, x, y, h1, h2, h3⟩)
            · exact ⟨0, x, y, rfl, rfl, h⟩
            · exact ⟨i + 1, x, y, by simpa using h1, by simpa using h2, h3⟩
        rw [hex, ← ih]
        cases a <;> cases b <;> simp [bothDiffs]
  have hne : bothDiffs f o ≠ [] := by
    obtain ⟨i, x, y, h1, h2⟩ := h
    exact List.ne_nil_of_mem ((hmem f o (x - y)).2 ⟨i, x, y, h1, h2, rfl⟩)
  have hpos : (0 : K) < (bothDiffs f o).length := by
    have := List.length_pos_iff.2 hne; exact_mod_cast this
  have hs := sum_nonneg_zero (l := (bothDiffs f o).map fun d => d * d)
    (by intro x hx; obtain ⟨d, _, rfl⟩ := List.mem_map.1 hx; exact mul_self_nonneg d)
  refine ⟨_, mse_ok f o hlen hne, div_nonneg hs.1 hpos.le, ?_⟩
  rw [div_eq_zero_iff, or_iff_left hpos.ne', hs.2]
  constructor
  · intro h0 i x y h1 h2
    have := h0 ((x - y) * (x - y)) (List.mem_map.2 ⟨x - y, (hmem f o _).2 ⟨i, x, y, h1, h2, rfl⟩, rfl⟩)
    exact sub_eq_zero.1 (mul_self_eq_zero.1 this)
  · intro h0 v hv
    obtain ⟨d, hd, rfl⟩ := List.mem_map.1 hv
    obtain ⟨i, x, y, h1, h2, rfl⟩ := (hmem f o d).1 hd
    rw [h0 i x y h1 h2]; ring

example : mse [some (1 : ℚ), none, some 5] [some 3, some 2, some 5] = .ok (some 2) := by decide +kernel

/-- **C43** (sMAPE), for data without NaN where the sums of forecast and observation are positive (as for
non-negative data that are not both 0): between 0 and 200 for non-negative data, 0 exactly when forecast
and observation coincide, symmetric. -/
theorem C43_smape_partial (f o : List K) (hlen : f.length = o.length) (h0 : f ≠ [])
    (hpos : ∀ (i : Nat) (x y : K), f[i]? = some x → o[i]? = some y → 0 < x + y) :
    ∃ v, smape (f.map some) (o.map some) = .ok (some v) ∧ smape (o.map some) (f.map some) = .ok (some v) ∧
      0 ≤ v ∧ (v = 0 ↔ f = o) ∧
      ((∀ x ∈ f, 0 ≤ x) → (∀ y ∈ o, 0 ≤ y) → v ≤ 200) := by
  have hn : (0 : K) < f.length := by
    have := List.length_pos_iff.2 h0; exact_mod_cast this
  have hmem : ∀ v ∈ List.zipWith (fun x y => 200 * (|x - y| / (x + y))) f o,
      ∃ (i : Nat) (x y : K), f[i]? = some x ∧ o[i]? = some y ∧ v = 200 * (|x - y| / (x + y)) := by
    intro v hv
    obtain ⟨i, hi, he⟩ := List.getElem_of_mem hv
    rw [List.length_zipWith] at hi
    rw [List.getElem_zipWith] at he
    exact ⟨i, f[i], o[i], List.getElem?_eq_getElem (by omega), List.getElem?_eq_getElem (by omega),
      he.symm⟩
  have hs := sum_nonneg_zero (l := List.zipWith (fun x y => 200 * (|x - y| / (x + y))) f o) (by
    intro v hv
    obtain ⟨i, x, y, h1, h2, rfl⟩ := hmem v hv
    have := hpos i x y h1 h2
    positivity)
  refine ⟨_, smape_ok f o hlen h0 fun i x y h1 h2 => (hpos i x y h1 h2).ne', ?_, div_nonneg hs.1 hn.le,
    ?_, ?_⟩
  · have hcomm : List.zipWith (fun x y => 200 * (|x - y| / (x + y))) f o =
        List.zipWith (fun x y => 200 * (|x - y| / (x + y))) o f := by
      rw [List.zipWith_comm]
      congr 1
      funext x y
      rw [abs_sub_comm, add_comm]
    rw [hcomm, hlen]
    refine smape_ok o f hlen.symm (by rintro rfl; simp at hlen; exact h0 hlen) fun i x y h1 h2 => ?_
    have := hpos i y x h2 h1
    rw [add_comm]; exact this.ne'
  · rw [div_eq_zero_iff, or_iff_left hn.ne', hs.2]
    refine zipWith_all_zero _ f o hlen fun i x y h1 h2 => ?_
    have := hpos i x y h1 h2
    rw [mul_eq_zero, or_iff_right (by norm_num), div_eq_zero_iff, or_iff_left this.ne', abs_eq_zero,
      sub_eq_zero]
  · intro hf ho
    rw [div_le_iff₀ hn]
    have hb : ∀ v ∈ List.zipWith (fun x y => 200 * (|x - y| / (x + y))) f o, v ≤ 200 := by
      intro v hv
      obtain ⟨i, x, y, h1, h2, rfl⟩ := hmem v hv
      have hx := hf x (List.mem_of_getElem? h1)
      have hy := ho y (List.mem_of_getElem? h2)
      have hp := hpos i x y h1 h2
      have : |x - y| / (x + y) ≤ 1 := by
        rw [div_le_one hp, abs_le]; constructor <;> linarith
      linarith
    have := List.sum_le_card_nsmul _ _ hb
    rw [List.length_zipWith, ← hlen, min_self, nsmul_eq_mul] at this
    linarith

example : smape [some (1 : ℚ), some 3] [some 3, some 3] = .ok (some 50) := by decide +kernel

theorem broadcastOp_swap (g g' : Option K → Option K → Option K) (h : ∀ x y, g x y = g' y x)
    (a b : List (Option K)) : broadcastOp g a b = broadcastOp g' b a := by
  have hz : ∀ a b : List (Option K), List.zipWith g a b = List.zipWith g' b a := by
    intro a
    induction a with
    | nil => intro b; simp
    | cons x a ih => intro b; cases b with
      | nil => simp
      | cons y b => simp [h x y, ih]
  unfold broadcastOp
  by_cases hl : a.length = b.length
  · rw [if_pos hl, if_pos hl.symm, hz]
  · rw [if_neg hl, if_neg (Ne.symm hl)]
    match a, b with
    | [], [] => simp at hl
    | [], [y] => rfl
    | [], _ :: _ :: _ => rfl
    | [x], [] => rfl
    | [x], [y] => simp at hl
    | [x], y :: z :: b => simp [h]
    | x :: y :: a, [] => rfl
    | x :: y :: a, [z] => simp [h]
    | x :: y :: a, z :: w :: b => rfl

/-- **C43** (sMAPE): symmetric in forecast and observation for all series, also with NaN, negative values or
different lengths. -/
theorem C43_smape_symmetric (f o : List (Option K)) : smape f o = smape o f := by
  have hadd : broadcastOp (liftOp (· + ·)) f o = broadcastOp (liftOp (· + ·)) o f :=
    broadcastOp_swap _ _ (by
      intro x y
      cases x <;> cases y <;> simp [liftOp, add_comm]) f o
  have hsub : broadcastOp (fun x y => floatAbs (liftOp (· - ·) x y)) f o =
      broadcastOp (fun x y => floatAbs (liftOp (· - ·) x y)) o f :=
    broadcastOp_swap _ _ (by
      intro x y
      cases x with
      | none => cases y <;> rfl
      | some a =>
        cases y with
        | none => rfl
        | some b =>
          simp only [liftOp, floatAbs, Option.map_some]
          congr 1
          split_ifs <;> linarith) f o
  have hmap : ∀ a b : List (Option K), broadcastOp (fun x y => floatAbs (liftOp (· - ·) x y)) a b =
      (broadcastOp (liftOp (· - ·)) a b).map (List.map floatAbs) := by
    intro a b
    unfold broadcastOp
    split_ifs
    · simp [Except.map, List.map_zipWith]
    · match a, b with
      | [], [] => rfl
      | [], [y] => rfl
      | [], _ :: _ :: _ => rfl
      | [x], [] => rfl
      | [x], y :: b => simp [Except.map]
      | x :: y :: a, [] => rfl
      | x :: y :: a, [z] => simp [Except.map]
      | x :: y :: a, z :: w :: b => rfl
  rw [hmap, hmap] at hsub
  unfold smape
  rw [hadd]
  cases h1 : broadcastOp (liftOp (· - ·)) f o with
  | error e =>
    rw [h1] at hsub
    cases h2 : broadcastOp (liftOp (· - ·)) o f with
    | error e' => rw [h2] at hsub; cases hsub; rfl
    | ok v => rw [h2] at hsub; cases hsub
  | ok u =>
    rw [h1] at hsub
    cases h2 : broadcastOp (liftOp (· - ·)) o f with
    | error e' => rw [h2] at hsub; cases hsub
    | ok v =>
      rw [h2] at hsub
      have : u.map floatAbs = v.map floatAbs := Except.ok.inj hsub
      cases broadcastOp (liftOp (· + ·)) o f with
      | error e => rfl
      | ok total => simp only [this]

example : smape [some (-3 : ℚ), none] [some (-1), some 2] = smape [some (-1), some 2] [some (-3), none] ∧
    smape [some (3 : ℚ)] [some 1, some 2] = .ok (some 70) ∧ smape [some 1, some 2] [some (3 : ℚ)] = .ok (some 70) := by
  decide +kernel

/-- **C43** is not true of sMAPE with negative data: different series may have error 0, and the error may
be negative. -/
theorem C43_smape_refuted :
    smape [some (1 : ℚ), some (-1)] [some 0, some 0] = .ok (some 0) ∧
    smape [some (-3 : ℚ)] [some (-1)] = .ok (some (-100)) := by decide +kernel

/-- **C43** (sMAPE, any signs): for data without NaN whose sums are not 0, the value is the mean of the percentages
`200 |x - y| / (x + y)`, where only the denominator has a sign; if both series change their signs, so does the error. -/
theorem C43_smape_signs_partial (f o : List K) (hlen : f.length = o.length) (h0 : f ≠ [])
    (hsum : ∀ (i : Nat) (x y : K), f[i]? = some x → o[i]? = some y → x + y ≠ 0) :
    ∃ v, smape (f.map some) (o.map some) = .ok (some v) ∧
      v * f.length = ((f.zip o).map fun q => 200 * |q.1 - q.2| / (q.1 + q.2)).sum ∧
      smape ((f.map Neg.neg).map some) ((o.map Neg.neg).map some) = .ok (some (-v)) := by
  have hn : (0 : K) < f.length := by
    have := List.length_pos_iff.2 h0; exact_mod_cast this
  have hz : List.zipWith (fun x y => 200 * (|x - y| / (x + y))) f o =
      (f.zip o).map fun q => 200 * |q.1 - q.2| / (q.1 + q.2) := by
    rw [List.zip, List.map_zipWith]
    congr 1
    funext x y
    rw [mul_div_assoc]
  have hneg : List.zipWith (fun x y => 200 * (|x - y| / (x + y))) (f.map Neg.neg) (o.map Neg.neg) =
      (List.zipWith (fun x y => 200 * (|x - y| / (x + y))) f o).map Neg.neg := by
    rw [List.zipWith_map, List.map_zipWith]
    congr 1
    funext x y
    rw [show -x - -y = -(x - y) by ring, abs_neg, show -x + -y = -(x + y) by ring, div_neg, mul_neg]
  have hsumneg : ∀ l : List K, (l.map Neg.neg).sum = -l.sum := by
    intro l
    induction l with
    | nil => simp
    | cons a l ih => rw [List.map_cons, List.sum_cons, List.sum_cons, ih]; ring
  refine ⟨_, smape_ok f o hlen h0 hsum, ?_, ?_⟩
  · rw [div_mul_cancel₀ _ hn.ne', hz]
  · rw [smape_ok (f.map Neg.neg) (o.map Neg.neg) (by simpa using hlen) (by simpa using h0), hneg, hsumneg,
      List.length_map, neg_div]
    intro i x y h1 h2
    rw [List.getElem?_map, Option.map_eq_some_iff] at h1 h2
    obtain ⟨a, ha, rfl⟩ := h1
    obtain ⟨b, hb, rfl⟩ := h2
    have := hsum i a b ha hb
    intro e
    apply this
    have e' : -(a + b) = 0 := by rw [← e]; ring
    exact neg_eq_zero.1 e'

/-- The hypotheses are met by series of different signs. -/
example : smape [some (3 : ℚ), some (-3)] [some 1, some 1] = .ok (some (-150)) ∧
    smape [some (-3 : ℚ), some 3] [some (-1), some (-1)] = .ok (some 150) := by decide +kernel

theorem broadcastOp_single (g : Option K → Option K → Option K) (x : Option K) (l : List (Option K)) :
    broadcastOp g [x] l = broadcastOp g (List.replicate l.length x) l ∧
    broadcastOp g l [x] = broadcastOp g l (List.replicate l.length x) := by
  have h1 : ∀ l : List (Option K), List.zipWith g (List.replicate l.length x) l = l.map (g x) := by
    intro l
    induction l with
    | nil => rfl
    | cons a l ih => simp [List.replicate_succ, ih]
  have h2 : ∀ l : List (Option K), List.zipWith g l (List.replicate l.length x) = l.map (g · x) := by
    intro l
    induction l with
    | nil => rfl
    | cons a l ih => simp [List.replicate_succ, ih]
  rw [broadcastOp_eq g (a := List.replicate l.length x) (by simp),
    broadcastOp_eq g (b := List.replicate l.length x) (by simp), h1, h2]
  unfold broadcastOp
  match l with
  | [] => simp
  | [a] => simp
  | a :: b :: l => simp

/-- **C43** (different lengths): numpy compares a forecast of one sample with every observation, and a forecast with a
single observation for all; any other difference of the lengths is a ValueError. -/
theorem C43_lengths (f o t : List (Option K)) :
    (f.length ≠ o.length → f.length ≠ 1 → o.length ≠ 1 →
      mse f o = .error .valueError ∧ smape f o = .error .valueError ∧ mase f o t = .error .valueError) ∧
    (∀ x, mse [x] o = mse (List.replicate o.length x) o ∧ smape [x] o = smape (List.replicate o.length x) o ∧
      mase [x] o t = mase (List.replicate o.length x) o t) ∧
    (∀ y, mse f [y] = mse f (List.replicate f.length y) ∧ smape f [y] = smape f (List.replicate f.length y) ∧
      mase f [y] t = mase f (List.replicate f.length y) t) := by
  refine ⟨fun h1 h2 h3 => ?_, fun x => ?_, fun y => ?_⟩
  · have : ∀ g : Option K → Option K → Option K, broadcastOp g f o = .error .valueError := by
      intro g
      unfold broadcastOp
      rw [if_neg h1]
      match f, o with
      | [], [] => exact absurd rfl h1
      | [], [_] => exact absurd rfl h3
      | [], _ :: _ :: _ => rfl
      | [_], _ => exact absurd rfl h2
      | _ :: _ :: _, [] => rfl
      | _ :: _ :: _, [_] => exact absurd rfl h3
      | _ :: _ :: _, _ :: _ :: _ => rfl
    simp only [mse, smape, mase, this, and_self]
  · simp only [mse, smape, mase, (broadcastOp_single _ x o).1, and_self]
  · simp only [mse, smape, mase, (broadcastOp_single _ y f).2, and_self]

/-- A forecast of one sample, and one of two samples for three observations. -/
example : mse [some (2 : ℚ)] [some 1, some 3, none] = .ok (some 1) ∧
    mse [some (2 : ℚ), some 2] [some 1, some 3, none] = .error .valueError := by decide +kernel

/-- sMAPE is not a number if forecast and observation add up to 0 somewhere. -/
theorem C43_smape_undefined (f o : List K) (hlen : f.length = o.length)
    (h : ∃ (i : Nat) (x y : K), f[i]? = some x ∧ o[i]? = some y ∧ x + y = 0) :
    smape (f.map some) (o.map some) = .ok none := by
  unfold smape
  rw [broadcastOp_eq _ (by simpa using hlen), broadcastOp_eq _ (by simpa using hlen)]
  simp only
  rw [broadcastOp_eq _ (by simp)]
  simp only
  rw [floatMean_none]
  obtain ⟨i, x, y, h1, h2, h3⟩ := h
  apply List.mem_of_getElem? (i := i)
  simp [List.getElem?_zipWith, h1, h2, liftOp, floatAbs_some, floatDiv, h3]

/-- **C43** (MASE): for a training series which is not constant, not negative, 0 exactly when forecast and
observation coincide. -/
theorem C43_mase (f o t : List K) (hlen : f.length = o.length) (h0 : f ≠ [])
    (ht : ∃ (i : Nat) (x y : K), t[i]? = some x ∧ t[i + 1]? = some y ∧ x ≠ y) :
    ∃ v, mase (f.map some) (o.map some) (t.map some) = .ok (some v) ∧ 0 ≤ v ∧ (v = 0 ↔ f = o) := by
  obtain ⟨i, a, b, ha, hb, hab⟩ := ht
  have hi := (List.getElem?_eq_some_iff.1 hb).1
  have hn : (0 : K) < f.length := by
    have := List.length_pos_iff.2 h0; exact_mod_cast this
  have ht1 : (0 : K) < (t.length : K) - 1 := by
    have : 1 < t.length := by omega
    have : ((1 : Nat) : K) < t.length := by exact_mod_cast this
    rw [Nat.cast_one] at this; linarith
  have hS := sum_nonneg_zero (l := List.zipWith (fun x y => |x - y|) t.tail t) (by
    intro v hv
    obtain ⟨j, hj, rfl⟩ := List.getElem_of_mem hv
    rw [List.getElem_zipWith]; exact abs_nonneg _)
  have hS0 : 0 < (List.zipWith (fun x y => |x - y|) t.tail t).sum := by
    refine lt_of_le_of_ne hS.1 fun e => hab ?_
    have := hS.2.1 e.symm |b - a| (List.mem_of_getElem? (i := i) (by
      rw [List.getElem?_zipWith, List.getElem?_tail, ha, hb]))
    exact (sub_eq_zero.1 (abs_eq_zero.1 this)).symm
  have hd := div_pos hS0 ht1
  rw [mase_eq f o t hlen (by omega)]
  have hlist : ((List.zipWith (fun x y => x - y) f o).map fun e => floatAbs (floatDiv (some e)
      (some ((List.zipWith (fun x y => |x - y|) t.tail t).sum / ((t.length : K) - 1))))) =
      (List.zipWith (fun x y => |(x - y) /
        ((List.zipWith (fun x y => |x - y|) t.tail t).sum / ((t.length : K) - 1))|) f o).map some := by
    rw [List.map_zipWith, List.map_zipWith]
    congr 1
    funext x y
    rw [floatDiv_ne hd.ne', floatAbs_some]
  rw [hlist, floatMean_some]
  · have hs := sum_nonneg_zero (l := List.zipWith (fun x y => |(x - y) /
        ((List.zipWith (fun x y => |x - y|) t.tail t).sum / ((t.length : K) - 1))|) f o) (by
      intro v hv
      obtain ⟨j, hj, rfl⟩ := List.getElem_of_mem hv
      rw [List.getElem_zipWith]; exact abs_nonneg _)
    refine ⟨_, rfl, div_nonneg hs.1 (Nat.cast_nonneg _), ?_⟩
    rw [div_eq_zero_iff, or_iff_left, hs.2]
    · refine zipWith_all_zero _ f o hlen fun j x y _ _ => ?_
      rw [abs_eq_zero, div_eq_zero_iff, or_iff_left hd.ne', sub_eq_zero]
    · rw [List.length_zipWith, ← hlen, min_self]; exact hn.ne'
  · intro e
    have := congrArg List.length e
    rw [List.length_zipWith, ← hlen, min_self] at this
    exact h0 (List.length_eq_zero_iff.1 this)

/-- **C43** (MASE): multiplying all series by the same positive factor changes nothing. -/
theorem C43_mase_scale (f o t : List K) (c : K) (hc : 0 < c) (hlen : f.length = o.length) :
    mase ((f.map (c * ·)).map some) ((o.map (c * ·)).map some) ((t.map (c * ·)).map some) =
      mase (f.map some) (o.map some) (t.map some) := by
  by_cases ht : t.length = 1
  · unfold mase
    rw [broadcastOp_eq _ (by simpa using hlen), broadcastOp_eq _ (by simpa using hlen)]
    simp [ht]
  · rw [mase_eq _ _ _ (by simpa using hlen) (by simpa using ht), mase_eq _ _ _ hlen ht]
    have h1 : (List.zipWith (fun x y => |x - y|) (t.map (c * ·)).tail (t.map (c * ·))).sum =
        c * (List.zipWith (fun x y => |x - y|) t.tail t).sum := by
      have e : List.zipWith (fun x y => |x - y|) (t.map (c * ·)).tail (t.map (c * ·)) =
          (List.zipWith (fun x y => |x - y|) t.tail t).map (c * ·) := by
        rw [← List.map_tail, List.zipWith_map, List.map_zipWith]
        congr 1
        funext x y
        rw [← mul_sub, abs_mul, abs_of_pos hc]
      rw [e]
      induction (List.zipWith (fun x y => |x - y|) t.tail t) with
      | nil => simp
      | cons a l ih => rw [List.map_cons, List.sum_cons, List.sum_cons, ih, mul_add]
    have h2 : List.zipWith (fun x y => x - y) (f.map (c * ·)) (o.map (c * ·)) =
        (List.zipWith (fun x y => x - y) f o).map (c * ·) := by
      rw [List.zipWith_map, List.map_zipWith]
      congr 1
      funext x y
      rw [mul_sub]
    rw [h1, h2, List.length_map, List.map_map]
    congr 3
    funext e
    simp only [Function.comp_apply]
    rw [mul_div_assoc, floatDiv_scale hc.ne']

/-- MASE is not defined for a constant training series, and raises for a single training value. -/
theorem C43_mase_undefined (f o t : List K) (hlen : f.length = o.length) (h0 : f ≠ []) :
    (t.length = 1 → mase (f.map some) (o.map some) (t.map some) = .error .zeroDivisionError) ∧
    (t.length ≠ 1 → (∀ (i : Nat) (x y : K), t[i]? = some x → t[i + 1]? = some y → x = y) →
      mase (f.map some) (o.map some) (t.map some) = .ok none) := by
  constructor
  · intro ht
    unfold mase
    rw [broadcastOp_eq _ (by simpa using hlen)]
    simp [ht]
  · intro ht hc
    rw [mase_eq f o t hlen ht]
    have hS : (List.zipWith (fun x y => |x - y|) t.tail t).sum = 0 := by
      apply List.sum_eq_zero
      intro v hv
      obtain ⟨j, hj, rfl⟩ := List.getElem_of_mem hv
      rw [List.length_zipWith, List.length_tail] at hj
      rw [List.getElem_zipWith, List.getElem_tail,
        hc j t[j] t[j + 1] (List.getElem?_eq_getElem (by omega)) (List.getElem?_eq_getElem (by omega))]
      simp
    rw [hS, zero_div, floatMean_none]
    cases f with
    | nil => exact absurd rfl h0
    | cons x f =>
      cases o with
      | nil => simp at hlen
      | cons y o => simp [floatDiv, floatAbs]

example : mase [some (4 : ℚ), some 2] [some 1, some 2] [some 0, some 3, some 2] = .ok (some (3/4)) ∧
    mase [some (8 : ℚ), some 4] [some 2, some 4] [some 0, some 6, some 4] = .ok (some (3/4)) := by
  decide +kernel

end

/-! ### C44 -/

/-- The list of admissible integers of the model. -/
theorem allowed_spec (minValue maxValue : Int) (blacklist : List Int) :
    let allowed := allowedIntegers minValue maxValue blacklist
    allowed.Nodup ∧ (∀ v, v ∈ allowed ↔ minValue ≤ v ∧ v ≤ maxValue ∧ v ∉ blacklist) ∧
      allowed.length = (Finset.Icc minValue maxValue \ blacklist.toFinset).card := by
  intro allowed
  have h1 : allowed.Nodup := by
    refine List.Nodup.filter _ (List.Nodup.map (fun a b h => ?_) List.nodup_range)
    have : minValue + (a : Int) = minValue + (b : Int) := h
    omega
  have h2 : ∀ v, v ∈ allowed ↔ minValue ≤ v ∧ v ≤ maxValue ∧ v ∉ blacklist := by
    intro v
    show v ∈ allowedIntegers minValue maxValue blacklist ↔ _
    rw [allowedIntegers, List.mem_filter, List.mem_map]
    simp only [List.mem_range, pySet, Bool.not_eq_true', List.contains_eq_mem, decide_eq_false_iff_not,
      List.mem_eraseDups]
    constructor
    · rintro ⟨⟨i, hi, rfl⟩, h⟩; exact ⟨by omega, by omega, h⟩
    · rintro ⟨ha, hb, h⟩
      exact ⟨⟨(v - minValue).toNat, by omega, by omega⟩, h⟩
  refine ⟨h1, h2, ?_⟩
  rw [← List.toFinset_card_of_nodup h1]
  congr 1
  ext v
  rw [List.mem_toFinset, h2, Finset.mem_sdiff, Finset.mem_Icc, List.mem_toFinset]
  tauto

theorem randomChoice_ok {A : Type} (d : A) (allowed : List A) (n : Nat) (perm : List Nat)
    (hp : perm.Perm (List.range allowed.length)) (hn : n ≤ allowed.length) :
    randomChoice allowed n perm = .ok ((perm.take n).map fun i => allowed[i]?.getD d) := by
  rw [randomChoice, if_neg (by omega)]
  refine mapM_ok _ _ _ fun i hi => ?_
  have : i < allowed.length := List.mem_range.1 (hp.subset (List.mem_of_mem_take hi))
  rw [List.getElem?_eq_getElem this]; rfl

/-- **C44**: whatever the random outcome, the result consists of `n` different integers of the range which
are not blacklisted; it fails, with ValueError, exactly if there are fewer than `n` of them. -/
theorem C44_sound (n : Nat) (minValue maxValue : Int) (blacklist : List Int) (perm : List Nat)
    (hp : perm.Perm (List.range (Finset.Icc minValue maxValue \ blacklist.toFinset).card)) :
    ((Finset.Icc minValue maxValue \ blacklist.toFinset).card < n →
      randomIntegersWithBlacklist n minValue maxValue blacklist perm = .error .valueError) ∧
    (n ≤ (Finset.Icc minValue maxValue \ blacklist.toFinset).card →
      ∃ r, randomIntegersWithBlacklist n minValue maxValue blacklist perm = .ok r ∧
        r.length = n ∧ r.Nodup ∧ ∀ v ∈ r, minValue ≤ v ∧ v ≤ maxValue ∧ v ∉ blacklist) := by
  obtain ⟨h1, h2, h3⟩ := allowed_spec minValue maxValue blacklist
  constructor
  · intro hn
    rw [randomIntegersWithBlacklist, randomChoice, if_pos (by omega)]
  · intro hn
    rw [← h3] at hp hn
    refine ⟨_, randomChoice_ok 0 _ n perm hp hn, ?_, ?_, ?_⟩
    · rw [List.length_map, List.length_take, hp.length_eq, List.length_range]; omega
    · refine List.Nodup.map_on ?_ ((List.take_sublist _ _).nodup (hp.nodup_iff.2 List.nodup_range))
      intro i hi j hj hij
      have hi' := List.mem_range.1 (hp.subset (List.mem_of_mem_take hi))
      have hj' := List.mem_range.1 (hp.subset (List.mem_of_mem_take hj))
      rw [List.getElem?_eq_getElem hi', List.getElem?_eq_getElem hj'] at hij
      exact (List.Nodup.getElem_inj_iff h1).1 hij
    · intro v hv
      obtain ⟨i, hi, rfl⟩ := List.mem_map.1 hv
      have hi' := List.mem_range.1 (hp.subset (List.mem_of_mem_take hi))
      rw [List.getElem?_eq_getElem hi']
      exact (h2 _).1 (List.getElem_mem hi')

/-- Every selection of `n` different admissible integers is the result for some random outcome. -/
theorem C44_complete (minValue maxValue : Int) (blacklist r : List Int) (hr : r.Nodup)
    (h : ∀ v ∈ r, minValue ≤ v ∧ v ≤ maxValue ∧ v ∉ blacklist) :
    ∃ perm : List Nat,
      perm.Perm (List.range (Finset.Icc minValue maxValue \ blacklist.toFinset).card) ∧
      randomIntegersWithBlacklist r.length minValue maxValue blacklist perm = .ok r := by
  obtain ⟨h1, h2, h3⟩ := allowed_spec minValue maxValue blacklist
  simp only [randomIntegersWithBlacklist]
  rw [← h3]
  generalize allowedIntegers minValue maxValue blacklist = al at *
  have hsub : ∀ v ∈ r, v ∈ al := fun v hv => (h2 v).2 (h v hv)
  let idx := r.map fun v => al.idxOf v
  have hidx : idx.Nodup := by
    refine List.Nodup.map_on ?_ hr
    intro a ha b hb hab
    exact (List.idxOf_inj (hsub a ha)).1 hab
  have hlt : ∀ i ∈ idx, i < al.length := by
    intro i hi
    obtain ⟨v, hv, rfl⟩ := List.mem_map.1 hi
    exact List.idxOf_lt_length_iff.2 (hsub v hv)
  have hperm : (idx ++ (List.range al.length).filter (· ∉ idx)).Perm (List.range al.length) := by
    rw [List.perm_ext_iff_of_nodup]
    · intro i
      simp only [List.mem_append, List.mem_filter, List.mem_range, decide_eq_true_eq]
      constructor
      · rintro (h | h)
        · exact hlt i h
        · exact h.1
      · intro h
        by_cases hi : i ∈ idx
        · exact .inl hi
        · exact .inr ⟨h, hi⟩
    · rw [List.nodup_append]
      refine ⟨hidx, List.nodup_range.filter _, ?_⟩
      intro a ha b hb hab
      have := (List.mem_filter.1 hb).2
      simp only [decide_eq_true_eq] at this
      exact this (hab ▸ ha)
    · exact List.nodup_range
  refine ⟨_, hperm, ?_⟩
  have hle : r.length ≤ al.length := by
    have := hperm.length_eq
    simp only [List.length_append, List.length_range] at this
    have hl : idx.length = r.length := List.length_map _
    omega
  rw [randomChoice_ok 0 al r.length _ hperm hle, List.take_left' (List.length_map _), List.map_map]
  congr 1
  conv_rhs => rw [← List.map_id r]
  apply List.map_congr_left
  intro v hv
  have := List.idxOf_lt_length_iff.2 (hsub v hv)
  simp only [Function.comp_apply, id]
  rw [List.getElem?_eq_getElem this]
  simp

example : randomIntegersWithBlacklist 2 3 7 [4, 9] [2, 0, 3, 1] = .ok [6, 3] := by decide +kernel

end Spta
