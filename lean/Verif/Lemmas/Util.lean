import Mathlib.Tactic.Ring
import Mathlib.Tactic.Linarith
import Mathlib.Algebra.BigOperators.Intervals
import Mathlib.Algebra.Order.BigOperators.Group.List
import Verif.Model.Util
import Verif.Spec.Util
import Verif.Lemmas.Except

/-!
# Lemmas about the utilities
-/

set_option linter.unusedSectionVars false

namespace Spta

/-! ### Windows -/

theorem rangeStep_getElem? (stop : Int) (stride : Nat) (hs : 0 < stride) (k : Nat) :
    ∀ i : Nat, (rangeStep stop stride i)[k]? =
      if ((i + k * stride : Nat) : Int) < stop then some (i + k * stride) else none := by
  induction k with
  | zero =>
    intro i
    rw [rangeStep]
    by_cases h : (i : Int) < stop
    · simp [h, hs]
    · simp [h]
  | succ k ih =>
    intro i
    rw [rangeStep]
    have e : i + stride + k * stride = i + (k + 1) * stride := by ring
    by_cases h : (i : Int) < stop
    · rw [dif_pos ⟨h, hs⟩, List.getElem?_cons_succ, ih, e]
    · rw [dif_neg (by tauto), List.getElem?_nil, if_neg]
      have : 0 ≤ (k + 1) * stride := Nat.zero_le _
      push_cast at *
      have h2 : (0 : Int) ≤ ((k : Int) + 1) * (stride : Int) := by positivity
      omega

theorem isSlice_iff {A : Type} (w l : List A) (start len : Nat) :
    IsSlice w l start len ↔ start + len ≤ l.length ∧ w = (l.drop start).take len := by
  constructor
  · rintro ⟨h1, h2, h3⟩
    refine ⟨h1, List.ext_getElem? fun j => ?_⟩
    by_cases hj : j < len
    · rw [h3 j hj, List.getElem?_take_of_lt hj, List.getElem?_drop]
    · rw [List.getElem?_eq_none (by omega), List.getElem?_eq_none]
      simp; omega
  · rintro ⟨h1, rfl⟩
    refine ⟨h1, by simp; omega, fun j hj => ?_⟩
    rw [List.getElem?_take_of_lt hj, List.getElem?_drop]

theorem pySlice_window {A : Type} (l : List A) (i len : Nat) (h : i + len ≤ l.length) :
    pySlice l i (i + len) = (l.drop i).take len := by
  have h1 : pyBound l.length (i : Int) = i := by simp only [pyBound]; split <;> omega
  have h2 : pyBound l.length ((i : Int) + (len : Int)) = i + len := by
    simp only [pyBound]; split <;> omega
  rw [pySlice, h1, h2, List.drop_take, Nat.add_sub_cancel_left]

theorem rollingCalls_eq {K : Type} (values : List (Option K)) (n : Nat) (hn : 0 < n) :
    rollingCalls values n =
      ((List.range (values.length + 1 - n)).map fun k => (values.drop k).take n).filter
        fun w => w.all (·.isSome) := by
  have h : ∀ m : Nat, ((List.range m).map fun i =>
      if n ≤ i + 1 then some ((values.drop (i + 1 - n)).take n) else none).filterMap id =
      (List.range (m + 1 - n)).map fun k => (values.drop k).take n := by
    intro m
    induction m with
    | zero =>
      have : 0 + 1 - n = 0 := by omega
      rw [this]; rfl
    | succ m ih =>
      rw [List.range_succ, List.map_append, List.filterMap_append, ih]
      by_cases h : n ≤ m + 1
      · have e : m + 1 + 1 - n = (m + 1 - n) + 1 := by omega
        rw [e, List.range_succ, List.map_append]
        simp [h]
      · have e : m + 1 + 1 - n = m + 1 - n := by omega
        rw [e]; simp [h]
  rw [rollingCalls, h]

/-! ### Calendar -/

theorem daysOfYears_succ (y : Int) (n : Nat) :
    daysOfYears y (n + 1) = daysOfYears y n + daysInYear (y + n) := by
  rw [daysOfYears, Finset.sum_range_succ]; rfl

/-- Ordinal of 1 January without the check of the range. -/
def ordinal (year : Int) : Int :=
  (year - 1) * 365 + (year - 1) / 4 - (year - 1) / 100 + (year - 1) / 400 + 1

theorem ordinal_succ (y : Int) : ordinal (y + 1) = ordinal y + daysInYear y := by
  by_cases h : IsLeapYear y
  · rw [daysInYear, if_pos h]; unfold ordinal; unfold IsLeapYear at h; omega
  · rw [daysInYear, if_neg h]; unfold ordinal; unfold IsLeapYear at h; omega

theorem ordinal_add (y : Int) (n : Nat) : ordinal (y + n) = ordinal y + daysOfYears y n := by
  induction n with
  | zero => simp [daysOfYears]
  | succ n ih =>
    rw [daysOfYears_succ]
    have := ordinal_succ (y + n)
    push_cast
    rw [← add_assoc, this, ih, add_assoc]

theorem januaryFirst_ok {y : Int} (h : 1 ≤ y ∧ y ≤ 9999) : januaryFirst y = .ok (ordinal y) := by
  rw [januaryFirst, if_pos h]; rfl

theorem januaryFirst_error {y : Int} (h : ¬ (1 ≤ y ∧ y ≤ 9999)) :
    januaryFirst y = .error .valueError := by
  rw [januaryFirst, if_neg h]

/-! ### Errors -/

section

variable {K : Type} [Field K] [LinearOrder K] [IsStrictOrderedRing K]

theorem floatAbs_some (x : K) : floatAbs (some x) = some |x| := by
  simp only [floatAbs, Option.map_some, Option.some.injEq]
  split
  · rename_i h; rw [abs_of_neg h]
  · rename_i h; rw [abs_of_nonneg (not_lt.1 h)]

theorem floatSum_some (l : List K) : floatSum (l.map some) = some l.sum := by
  induction l with
  | nil => rfl
  | cons a l ih => simp only [List.map_cons, floatSum, ih, liftOp, List.sum_cons]

theorem floatSum_none {l : List (Option K)} (h : none ∈ l) : floatSum l = none := by
  induction l with
  | nil => simp at h
  | cons a l ih =>
    rw [floatSum]
    rcases List.mem_cons.1 h with h | h
    · rw [← h]; rfl
    · rw [ih h]; cases a <;> rfl

theorem floatMean_some {l : List K} (h : l ≠ []) :
    floatMean (l.map some) = some (l.sum / l.length) := by
  rw [floatMean, floatSum_some, List.length_map, floatDiv, if_neg]
  simpa using h

theorem floatMean_none {l : List (Option K)} (h : none ∈ l) : floatMean l = none := by
  rw [floatMean, floatSum_none h]; rfl

theorem zipWith_map_some (f : Option K → Option K → Option K) (g : K → K → K)
    (h : ∀ x y, f (some x) (some y) = some (g x y)) (a b : List K) :
    List.zipWith f (a.map some) (b.map some) = (List.zipWith g a b).map some := by
  induction a generalizing b with
  | nil => simp
  | cons x a ih =>
    cases b with
    | nil => simp
    | cons y b => simp [ih, h]

theorem sum_nonneg_zero {l : List K} (h : ∀ x ∈ l, 0 ≤ x) :
    0 ≤ l.sum ∧ (l.sum = 0 ↔ ∀ x ∈ l, x = 0) := by
  induction l with
  | nil => simp
  | cons a l ih =>
    have h1 := ih fun x hx => h x (List.mem_cons_of_mem _ hx)
    have ha := h a (List.mem_cons_self ..)
    refine ⟨by rw [List.sum_cons]; linarith [h1.1], ?_⟩
    rw [List.sum_cons]
    constructor
    · intro e
      have e1 : a = 0 := by linarith [h1.1]
      have e2 : l.sum = 0 := by linarith
      intro x hx
      rcases List.mem_cons.1 hx with rfl | hx
      · exact e1
      · exact h1.2.1 e2 x hx
    · intro e
      rw [e a (List.mem_cons_self ..), h1.2.2 fun x hx => e x (List.mem_cons_of_mem _ hx), add_zero]

theorem zipWith_all_zero (g : K → K → K) : ∀ (a b : List K), a.length = b.length →
    (∀ (i : Nat) (x y : K), a[i]? = some x → b[i]? = some y → (g x y = 0 ↔ x = y)) →
    ((∀ v ∈ List.zipWith g a b, v = 0) ↔ a = b)
  | [], [], _, _ => by simp
  | x :: a, y :: b, h, hg => by
    have ih := zipWith_all_zero g a b (by simpa using h)
      fun i u v h1 h2 => hg (i + 1) u v (by simpa using h1) (by simpa using h2)
    have h0 := hg 0 x y rfl rfl
    simp only [List.zipWith_cons_cons, List.forall_mem_cons, ih, h0, List.cons.injEq]

/-- Sum of the absolute steps of a series. -/
theorem sumSteps_some (t : List K) : sumSteps (t.map some) =
    some (List.zipWith (fun x y => |x - y|) t.tail t).sum := by
  rw [sumSteps, ← floatSum_some]
  congr 1
  apply List.ext_getElem?
  intro i
  rw [List.getElem?_map, List.getElem?_map, List.getElem?_zipWith, List.length_map]
  by_cases h : i < t.length - 1
  · rw [List.getElem?_range' h]
    have h1 : 1 + 1 * i = i + 1 := by ring
    have h2 : (t.map some)[i + 1]?.join = t[i + 1]? := by
      rw [List.getElem?_map]; cases t[i + 1]? <;> rfl
    have h3 : (t.map some)[i]?.join = t[i]? := by
      rw [List.getElem?_map]; cases t[i]? <;> rfl
    rw [h1, Option.map_some, Nat.add_sub_cancel, h2, h3, List.getElem?_tail,
      List.getElem?_eq_getElem (by omega : i + 1 < t.length),
      List.getElem?_eq_getElem (by omega : i < t.length)]
    simp only [liftOp, floatAbs_some, Option.map_some]
  · rw [List.getElem?_eq_none (l := List.range' ..) (by simp; omega),
      List.getElem?_eq_none (l := t.tail) (by simp; omega)]
    rfl

theorem broadcastOp_eq (f : Option K → Option K → Option K) {a b : List (Option K)}
    (h : a.length = b.length) : broadcastOp f a b = .ok (List.zipWith f a b) := by
  unfold broadcastOp
  rw [if_pos h]

theorem smape_list : ∀ (f o : List K), (∀ (i : Nat) (x y : K), f[i]? = some x → o[i]? = some y → x + y ≠ 0) →
    (List.zipWith floatDiv ((List.zipWith (liftOp (· - ·)) (f.map some) (o.map some)).map floatAbs)
      (List.zipWith (liftOp (· + ·)) (f.map some) (o.map some))).map (liftOp (· * ·) (some 200)) =
      (List.zipWith (fun x y => 200 * (|x - y| / (x + y))) f o).map some
  | [], o, _ => by simp
  | x :: f, [], _ => by simp
  | x :: f, y :: o, h => by
    have ih := smape_list f o fun i u v h1 h2 => h (i + 1) u v (by simpa using h1) (by simpa using h2)
    have h0 := h 0 x y rfl rfl
    simp only [List.map_cons, List.zipWith_cons_cons, ih]
    congr 1
    simp only [liftOp, floatAbs_some, floatDiv, if_neg h0]

theorem smape_ok (f o : List K) (hlen : f.length = o.length) (h0 : f ≠ [])
    (h : ∀ (i : Nat) (x y : K), f[i]? = some x → o[i]? = some y → x + y ≠ 0) :
    smape (f.map some) (o.map some) =
      .ok (some ((List.zipWith (fun x y => 200 * (|x - y| / (x + y))) f o).sum / f.length)) := by
  unfold smape
  rw [broadcastOp_eq _ (by simpa using hlen), broadcastOp_eq _ (by simpa using hlen)]
  simp only
  rw [broadcastOp_eq _ (by simp)]
  simp only
  rw [smape_list f o h, floatMean_some]
  · simp [hlen]
  · intro e
    have := congrArg List.length e
    simp [hlen] at this
    exact h0 (List.length_eq_zero_iff.1 (by rw [hlen, this]; rfl))

theorem floatDiv_ne {x y : K} (h : y ≠ 0) : floatDiv (some x) (some y) = some (x / y) := by
  simp only [floatDiv, if_neg h]

theorem floatDiv_scale {c : K} (hc : c ≠ 0) (x y : K) :
    floatDiv (some (c * x)) (some (c * y)) = floatDiv (some x) (some y) := by
  simp only [floatDiv]
  by_cases h : y = 0
  · simp [h]
  · rw [if_neg (mul_ne_zero hc h), if_neg h, mul_div_mul_left _ _ hc]

theorem cast_sub_one_ne {n : Nat} (h : n ≠ 1) : ((n : K) - 1) ≠ 0 := by
  intro e
  apply h
  have : (n : K) = ((1 : Nat) : K) := by rw [Nat.cast_one]; exact sub_eq_zero.1 e
  exact Nat.cast_injective this

theorem mase_eq (f o t : List K) (hlen : f.length = o.length) (ht : t.length ≠ 1) :
    mase (f.map some) (o.map some) (t.map some) = .ok (floatMean
      ((List.zipWith (fun x y => x - y) f o).map fun e => floatAbs (floatDiv (some e)
        (some ((List.zipWith (fun x y => |x - y|) t.tail t).sum / ((t.length : K) - 1)))))) := by
  unfold mase
  rw [broadcastOp_eq _ (by simpa using hlen)]
  simp only
  rw [if_neg (by simpa using ht), sumSteps_some, List.length_map, floatDiv_ne (cast_sub_one_ne ht),
    zipWith_map_some _ (fun x y => x - y) (fun _ _ => rfl), List.map_map, List.map_map]
  rfl

end

end Spta
