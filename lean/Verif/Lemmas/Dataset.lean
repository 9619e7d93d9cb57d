import Mathlib.Tactic.Ring
import Mathlib.Tactic.FieldSimp
import Mathlib.Tactic.NormNum
import Mathlib.Algebra.Order.Field.Basic
import Verif.Spec.Dataset
import Verif.Lemmas.Scaling
import Verif.Lemmas.Util
import Verif.Lemmas.Clustering

/-!
# Lemmas about the dataset files
-/

set_option linter.unusedSectionVars false

namespace Spta

variable {K : Type} [Field K] [LinearOrder K] [IsStrictOrderedRing K]

/-! ### Daily means -/

theorem drop_take4 {α : Type} {l : List α} {n : Nat} {a b c e : α} (h0 : l[n]? = some a)
    (h1 : l[n + 1]? = some b) (h2 : l[n + 2]? = some c) (h3 : l[n + 3]? = some e) :
    (l.drop n).take 4 = [a, b, c, e] := by
  apply List.ext_getElem?
  intro i
  rw [List.getElem?_take]
  match i with
  | 0 => simpa using h0
  | 1 => simpa using h1
  | 2 => simpa using h2
  | 3 => simpa using h3
  | i + 4 => simp

theorem exists_four {α : Type} {l : List α} {n : Nat} (h : n + 3 < l.length) :
    ∃ a b c e, l[n]? = some a ∧ l[n + 1]? = some b ∧ l[n + 2]? = some c ∧ l[n + 3]? = some e :=
  ⟨l[n], l[n + 1], l[n + 2], l[n + 3], by simp, by simp, by simp, by simp⟩

theorem floatMean_four (a b c e : K) :
    floatMean [some a, some b, some c, some e] = some ((a + b + c + e) / 4) := by
  have h := floatMean_some (l := [a, b, c, e]) (by simp)
  simp only [List.map_cons, List.map_nil] at h
  rw [h]
  simp
  ring

theorem averagePoint_ok {n : Nat} {s : List (Option K)} (h : s.length = n * 4) :
    ∃ out, averagePoint n s = .ok out ∧ out.length = n ∧ DailyMeans s out := by
  refine ⟨_, by rw [averagePoint, if_pos h], by simp, ⟨by simp [h], ?_, ?_⟩⟩
  · intro day a b c e h0 h1 h2 h3
    have hd : day < n := by
      have := (List.getElem?_eq_some_iff.1 h0).1
      omega
    rw [List.getElem?_map, List.getElem?_range hd, Option.map_some, Nat.mul_comm,
      drop_take4 h0 h1 h2 h3, floatMean_four]
  · intro day k hk h0
    have hd : day < n := by
      have := (List.getElem?_eq_some_iff.1 h0).1
      omega
    rw [List.getElem?_map, List.getElem?_range hd, Option.map_some, Nat.mul_comm]
    refine congrArg some (floatMean_none ?_)
    rw [List.mem_iff_getElem?]
    exact ⟨k, by rw [List.getElem?_take, if_pos hk, List.getElem?_drop]; exact h0⟩

theorem averagePoint_error {n : Nat} {s : List (Option K)} (h : s.length ≠ n * 4) :
    averagePoint n s = .error .valueError := if_neg h

theorem DailyMeans.sum {l : List K} {out : List (Option K)} (h : DailyMeans (l.map some) out) :
    ∃ m : List K, out = m.map some ∧ m.sum * 4 = l.sum := by
  induction hn : out.length generalizing l out with
  | zero =>
    have h1 := h.len
    rw [hn, List.length_map] at h1
    have hl : l = [] := List.eq_nil_of_length_eq_zero (by omega)
    have ho : out = [] := List.eq_nil_of_length_eq_zero hn
    exact ⟨[], by simp [ho], by simp [hl]⟩
  | succ n ih =>
    have h1 := h.len
    rw [hn, List.length_map] at h1
    match l, h, h1 with
    | [_], _, h1 => simp at h1
    | [_, _], _, h1 => simp at h1; omega
    | [_, _, _], _, h1 => simp at h1; omega
    | a :: b :: c :: e :: rest, h, h1 =>
      match out, h, hn with
      | x :: out', h, hn =>
        have hx := h.mean 0 a b c e rfl rfl rfl rfl
        simp only [List.getElem?_cons_zero, Option.some.injEq] at hx
        have hr : DailyMeans (rest.map some) out' := by
          refine ⟨?_, ?_, ?_⟩
          · have := h.len
            simp only [List.length_cons, List.length_map] at this ⊢
            omega
          · intro day a b c e h0 h1 h2 h3
            have := h.mean (day + 1) a b c e (by
              rw [show 4 * (day + 1) = 4 * day + 4 from by ring]; exact h0) (by
              rw [show 4 * (day + 1) + 1 = 4 * day + 1 + 4 from by ring]; exact h1) (by
              rw [show 4 * (day + 1) + 2 = 4 * day + 2 + 4 from by ring]; exact h2) (by
              rw [show 4 * (day + 1) + 3 = 4 * day + 3 + 4 from by ring]; exact h3)
            simpa using this
          · intro day k hk h0
            have := h.nan (day + 1) k hk (by
              rw [show 4 * (day + 1) + k = 4 * day + k + 4 from by ring]; exact h0)
            simpa using this
        obtain ⟨m, hm, hs⟩ := ih hr (by simpa using hn)
        refine ⟨(a + b + c + e) / 4 :: m, by rw [hx, hm]; rfl, ?_⟩
        simp only [List.sum_cons]
        rw [add_mul, hs]
        field_simp
        ring

theorem DailyMeans.floatMean_eq {l : List K} {out : List (Option K)} (h0 : l ≠ [])
    (h : DailyMeans (l.map some) out) : floatMean out = floatMean (l.map some) := by
  obtain ⟨m, hm, hs⟩ := h.sum
  have hl := h.len
  rw [hm, List.length_map, List.length_map] at hl
  have hm0 : m ≠ [] := by
    intro e; rw [e] at hl; exact h0 (List.eq_nil_of_length_eq_zero (by simpa using hl.symm))
  rw [hm, floatMean_some hm0, floatMean_some h0, ← hs, ← hl]
  have : (m.length : K) ≠ 0 := by
    exact_mod_cast fun e => hm0 (List.eq_nil_of_length_eq_zero e)
  push_cast
  field_simp

/-- Daily means of a dataset. -/
theorem averageDaily_ok {c : Cube (Option K)} (hc : c.WF) (h4 : 4 ∣ c.tLen) :
    ∃ d, averageDaily c = .ok d ∧ d.WF ∧ d.tLen * 4 = c.tLen ∧ d.grid.xLen = c.grid.xLen ∧
      d.grid.yLen = c.grid.yLen ∧
      ∀ p s, c.grid.get p = .ok s → ∃ out, d.grid.get p = .ok out ∧ DailyMeans s out := by
  have hlen : ∀ p s, c.grid.get p = .ok s → s.length = c.tLen / 4 * 4 := by
    intro p s hs
    rw [Nat.div_mul_cancel h4]; exact Cube.get_length hc hs
  obtain ⟨items, h1, h2, h3⟩ := itemsAt_ok c.grid.get (rowMajor c.grid.xLen c.grid.yLen)
    (fun p hp => c.grid.exists_get hc.1 (mem_rowMajor.1 hp).1 (mem_rowMajor.1 hp).2)
  have hmem : ∀ it ∈ items, it.1 ∈ rowMajor c.grid.xLen c.grid.yLen := fun it hit =>
    h2 ▸ List.mem_map_of_mem hit
  obtain ⟨g, g1, g2, g3, g4, g5, g6⟩ := applyWith_ok (fun _ s => averagePoint (c.tLen / 4) s) items
    (Grid.const c.grid.xLen c.grid.yLen (List.replicate (c.tLen / 4) none)) (by
      simp [Grid.WF, Grid.const]) (h2 ▸ rowMajor_nodup _ _) (fun it hit => mem_rowMajor.1 (hmem it hit))
    (fun it hit => by
      obtain ⟨out, ho, _⟩ := averagePoint_ok (hlen it.1 it.2 (h3 it hit))
      exact ⟨out, ho⟩)
  have hget : ∀ p s, c.grid.get p = .ok s → g.get p = averagePoint (c.tLen / 4) s := by
    intro p s hs
    have hr := (Grid.get_eq_ok_iff _ _ _).1 hs
    have hp : p ∈ items.map Prod.fst := by rw [h2]; exact mem_rowMajor.2 ⟨hr.1, hr.2.1⟩
    obtain ⟨it, hit, rfl⟩ := List.mem_map.1 hp
    have h5 := h3 it hit
    rw [hs] at h5
    rw [g5 it hit, ← Except.ok.inj h5]
  refine ⟨⟨c.tLen / 4, g⟩, ?_, ?_, Nat.div_mul_cancel h4, g2, g3, ?_⟩
  · simp only [averageDaily]
    rw [allPoints_eq, h1]
    simp only [g1]
  · refine Cube.wf_of_get g4 ?_
    intro p v hv
    have hr := (Grid.get_eq_ok_iff _ _ _).1 hv
    obtain ⟨s, hs⟩ := c.grid.exists_get hc.1 (p := p) (lt_of_lt_of_eq hr.1 g2)
      (lt_of_lt_of_eq hr.2.1 g3)
    have h6 := hget p s hs
    obtain ⟨out, ho, hl, _⟩ := averagePoint_ok (hlen p s hs)
    rw [ho] at h6
    have h7 : g.get p = .ok v := hv
    rw [h6] at h7
    rw [← Except.ok.inj h7]; exact hl
  · intro p s hs
    obtain ⟨out, ho, _, hd⟩ := averagePoint_ok (hlen p s hs)
    exact ⟨out, by rw [← ho]; exact hget p s hs, hd⟩

theorem averageDaily_error {c : Cube (Option K)} (hc : c.WF) (h4 : ¬ 4 ∣ c.tLen)
    (hx : 0 < c.grid.xLen) (hy : 0 < c.grid.yLen) : averageDaily c = .error .valueError := by
  obtain ⟨items, h1, h2, h3⟩ := itemsAt_ok c.grid.get (rowMajor c.grid.xLen c.grid.yLen)
    (fun p hp => c.grid.exists_get hc.1 (mem_rowMajor.1 hp).1 (mem_rowMajor.1 hp).2)
  have hp : (⟨0, 0⟩ : Point) ∈ items.map Prod.fst := by rw [h2]; exact mem_rowMajor.2 ⟨hx, hy⟩
  simp only [averageDaily]
  rw [allPoints_eq, h1]
  cases items with
  | nil => simp at hp
  | cons it rest =>
    have hl := Cube.get_length hc (h3 it (by simp))
    have he : averagePoint (c.tLen / 4) it.2 = .error .valueError := by
      apply averagePoint_error
      rw [hl]
      intro e
      exact h4 ⟨c.tLen / 4, by omega⟩
    simp only [applyWith, he]

/-! ### Years -/

theorem daysOfYears_nonneg (y : Int) (n : Nat) : 0 ≤ daysOfYears y n := by
  induction n with
  | zero => simp [daysOfYears]
  | succ n ih =>
    rw [daysOfYears_succ]
    have : 0 ≤ daysInYear (y + n) := by unfold daysInYear; split <;> omega
    omega

theorem daysOfYears_add (y : Int) (m n : Nat) :
    daysOfYears y (m + n) = daysOfYears y m + daysOfYears (y + m) n := by
  have h1 := ordinal_add y (m + n)
  have h2 := ordinal_add y m
  have h3 := ordinal_add (y + m) n
  push_cast at h1
  rw [add_assoc] at h3
  omega

theorem pyBound_nat (n a : Nat) (h : a ≤ n) : pyBound n a = a := by
  unfold pyBound
  rw [if_neg (by omega)]
  simp [h]

theorem pySlice_nat {α : Type} (s : List α) (a b : Nat) (h : b ≤ s.length) (hab : a ≤ b) :
    pySlice s a b = (s.take b).drop a := by
  rw [pySlice, pyBound_nat _ _ h, pyBound_nat _ _ (le_trans hab h)]

/-- Reading valid years. -/
theorem readHdf5ByYear_ok {raw : Cube (Option K)} (hraw : CoversAllYears raw) {ys ye : Int}
    (h1 : 1979 ≤ ys) (h2 : ys ≤ ye) (h3 : ye ≤ 2015) :
    ∃ c, readHdf5ByYear (some raw) ys ye = .ok c ∧ c.WF ∧ 4 ∣ c.tLen ∧ 0 < c.tLen ∧
      c.grid.xLen = raw.grid.xLen ∧ c.grid.yLen = raw.grid.yLen ∧
      ∀ p s, raw.grid.get p = .ok s →
        ∃ out, c.grid.get p = .ok out ∧ YearSamples 1979 ys ye 4 s out := by
  obtain ⟨m, hm⟩ : ∃ m : Nat, ys = 1979 + m := ⟨(ys - 1979).toNat, by omega⟩
  obtain ⟨n, hn⟩ : ∃ n : Nat, ye = 1979 + m + n - 1 ∧ 1 ≤ n := ⟨(ye + 1 - ys).toNat, by omega⟩
  obtain ⟨hn, hn1⟩ := hn
  obtain ⟨k, hk⟩ : ∃ k : Nat, 37 = m + n + k := ⟨37 - (m + n), by omega⟩
  have hA := daysOfYears_nonneg 1979 m
  have hB := daysOfYears_nonneg (1979 + m) n
  have hC := daysOfYears_nonneg (1979 + (m + n : Nat)) k
  have hpos : 0 < daysOfYears (1979 + m) n := by
    obtain ⟨j, rfl⟩ : ∃ j, n = j + 1 := ⟨n - 1, by omega⟩
    rw [daysOfYears_succ]
    have := daysOfYears_nonneg (1979 + m) j
    have : 0 < daysInYear (1979 + m + j) := by unfold daysInYear; split <;> omega
    omega
  have hT := hraw.2
  rw [hk, daysOfYears_add, daysOfYears_add] at hT
  obtain ⟨A, hA'⟩ : ∃ A : Nat, daysOfYears 1979 m = A := ⟨_, (Int.toNat_of_nonneg hA).symm⟩
  obtain ⟨B, hB'⟩ : ∃ B : Nat, daysOfYears (1979 + m) n = B := ⟨_, (Int.toNat_of_nonneg hB).symm⟩
  rw [hA', hB'] at hT
  have hint : yearsToSeriesInterval ys ye datasetYearStart datasetSpd =
      .ok (((A * 4 : Nat) : Int), ((A * 4 + B * 4 : Nat) : Int)) := by
    show yearsToSeriesInterval ys ye 1979 4 = _
    rw [yearsToSeriesInterval, januaryFirst_ok (y := 1979) (by omega), januaryFirst_ok (by omega),
      januaryFirst_ok (by omega)]
    show Except.ok ((ordinal ys - ordinal 1979) * 4, (ordinal (ye + 1) - ordinal 1979) * 4) = _
    have e1 := ordinal_add 1979 m
    have e2 := ordinal_add (1979 + m) n
    rw [← hm] at e1
    rw [hn, sub_add_cancel, e2, ← hm, e1, hA', hm, hB']
    push_cast
    congr 2
    · ring
    · ring
  have hbT : A * 4 + B * 4 ≤ raw.tLen := by omega
  have hlen : ∀ s ∈ raw.grid.data, (pySlice s ((A * 4 : Nat) : Int) ((A * 4 + B * 4 : Nat) : Int)) =
      (s.take (A * 4 + B * 4)).drop (A * 4) := by
    intro s hs
    exact pySlice_nat s _ _ (by rw [hraw.1.2 s hs]; exact hbT) (by omega)
  refine ⟨raw.timeSlice ((A * 4 : Nat) : Int) ((A * 4 + B * 4 : Nat) : Int), ?_, ⟨?_, ?_⟩, ?_, ?_, rfl,
    rfl, ?_⟩
  · have hy : ¬ (ye < ys ∨ ys < datasetYearStart ∨ datasetYearEnd < ye) := by
      unfold datasetYearStart datasetYearEnd; omega
    rw [readHdf5ByYear, if_neg hy, hint]
    rfl
  · have := hraw.1.1
    simpa [Cube.timeSlice, Grid.WF] using this
  · intro s hs
    simp only [Cube.timeSlice, List.mem_map] at hs
    obtain ⟨s', hs', rfl⟩ := hs
    rw [hlen s' hs']
    have := hraw.1.2 s' hs'
    simp only [Cube.timeSlice, List.length_drop, List.length_take, pyBound_nat _ _ hbT,
      pyBound_nat raw.tLen (A * 4) (by omega)]
    omega
  · simp only [Cube.timeSlice, pyBound_nat _ _ hbT, pyBound_nat raw.tLen (A * 4) (by omega)]
    exact ⟨B, by omega⟩
  · simp only [Cube.timeSlice, pyBound_nat _ _ hbT, pyBound_nat raw.tLen (A * 4) (by omega)]
    omega
  · intro p s hs
    have hsm : s ∈ raw.grid.data := List.mem_of_getElem? ((Grid.get_eq_ok_iff _ _ _).1 hs).2.2
    refine ⟨(s.take (A * 4 + B * 4)).drop (A * 4), ?_, ?_, ?_⟩
    · rw [← hlen s hsm]
      have := Grid.get_map raw.grid (fun s => pySlice s ((A * 4 : Nat) : Int) ((A * 4 + B * 4 : Nat) : Int)) p
      rw [hs] at this
      exact this
    · have hsl := hraw.1.2 s hsm
      rw [show (ye + 1 - ys).toNat = n from by omega, hm, hB']
      simp only [List.length_drop, List.length_take]
      push_cast
      omega
    · intro t ht
      simp only [List.length_drop, List.length_take] at ht
      rw [show (ys - 1979).toNat = m from by omega, hA']
      rw [List.getElem?_drop, List.getElem?_take, if_pos (by omega)]
      rfl

theorem readHdf5ByYear_invalid (raw : Option (Cube (Option K))) {ys ye : Int}
    (h : ¬ (1979 ≤ ys ∧ ys ≤ ye ∧ ye ≤ 2015)) : readHdf5ByYear raw ys ye = .error .valueError := by
  rw [readHdf5ByYear, if_pos]
  unfold datasetYearStart datasetYearEnd
  omega

/-! ### File names -/

theorem formatByYear_eq (name : Str) (ys ye spd : Int) (r : Region) :
    formatByYear name ys ye spd = (⟨⟨name, r, ys, ye, spd, false⟩, sRaw⟩ : DirMeta).datasetFile := by
  simp [formatByYear, DirMeta.datasetFile, RegionMeta.repr]

theorem append_slash_inj {a b x y : Str} (hx : '/' ∉ x) (hy : '/' ∉ y)
    (h : a ++ '/' :: x = b ++ '/' :: y) : a = b ∧ x = y := by
  have h1 := congrArg (pySplit '/') h
  rw [pySplit_append, pySplit_append, pySplit_of_not_mem hx, pySplit_of_not_mem hy] at h1
  have h2 := List.append_inj' h1 rfl
  exact ⟨pySplit_inj h2.1, by simpa using h2.2⟩

theorem repr_slash {m : RegionMeta} : '/' ∈ m.repr ↔ '/' ∈ m.name := by
  have h1 := intStr_no_slash m.yearStart
  have h2 := intStr_no_slash m.yearEnd
  have h3 := intStr_no_slash m.spd
  have h4 : '/' ∉ sScaled := by decide
  unfold RegionMeta.repr
  cases m.scaled <;> simp [h1, h2, h3, h4]

end Spta
