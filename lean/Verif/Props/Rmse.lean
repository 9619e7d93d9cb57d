import Verif.Spec.Rmse
import Verif.Lemmas.Util
import Verif.Props.Util
import Verif.Props.Result
import Mathlib.Tactic.Ring
import Mathlib.Tactic.Linarith
import Mathlib.Tactic.LinearCombination
import Mathlib.Tactic.Positivity
import Mathlib.Tactic.FieldSimp
import Mathlib.Tactic.NormNum
import Mathlib.Analysis.Real.Sqrt

/-!
# C137: the root mean squared error as a distance between series
-/

namespace Spta

variable {K : Type} [Field K] [LinearOrder K] [IsStrictOrderedRing K]

/-- The sum of the squares of the differences. -/
def squaresOfDiffs : List K → List K → K
  | x :: f, y :: o => (x - y) * (x - y) + squaresOfDiffs f o
  | _, _ => 0

/-- The sum of the products of the differences between the first and the second and the second and the third series. -/
def crossOfDiffs : List K → List K → List K → K
  | x :: f, y :: g, z :: h => (x - y) * (y - z) + crossOfDiffs f g h
  | _, _, _ => 0

omit [LinearOrder K] [IsStrictOrderedRing K] in
theorem squaresOfDiffs_comm (f o : List K) : squaresOfDiffs f o = squaresOfDiffs o f := by
  induction f generalizing o with
  | nil => cases o <;> rfl
  | cons x f ih =>
    cases o with
    | nil => rfl
    | cons y o => simp only [squaresOfDiffs, ih o]; ring

theorem squaresOfDiffs_nonneg (f o : List K) : 0 ≤ squaresOfDiffs f o := by
  induction f generalizing o with
  | nil => cases o <;> exact le_refl _
  | cons x f ih =>
    cases o with
    | nil => exact le_refl _
    | cons y o => exact add_nonneg (mul_self_nonneg _) (ih o)

theorem squaresOfDiffs_zero {f o : List K} (h : f.length = o.length) : squaresOfDiffs f o = 0 ↔ f = o := by
  induction f generalizing o with
  | nil => cases o with
    | nil => exact ⟨fun _ => rfl, fun _ => rfl⟩
    | cons y o => cases h
  | cons x f ih =>
    cases o with
    | nil => cases h
    | cons y o =>
      have h' : f.length = o.length := by simpa using h
      simp only [squaresOfDiffs, List.cons.injEq]
      rw [add_eq_zero_iff_of_nonneg (mul_self_nonneg _) (squaresOfDiffs_nonneg f o), ih h', mul_self_eq_zero,
        sub_eq_zero]

omit [LinearOrder K] [IsStrictOrderedRing K] in
theorem squaresOfDiffs_split {f g h : List K} (h1 : f.length = g.length) (h2 : g.length = h.length) :
    squaresOfDiffs f h = squaresOfDiffs f g + 2 * crossOfDiffs f g h + squaresOfDiffs g h := by
  induction f generalizing g h with
  | nil =>
    cases g with
    | nil => cases h with
      | nil => simp [squaresOfDiffs, crossOfDiffs]
      | cons z h => cases h2
    | cons y g => cases h1
  | cons x f ih =>
    cases g with
    | nil => cases h1
    | cons y g =>
      cases h with
      | nil => cases h2
      | cons z h =>
        simp only [squaresOfDiffs, crossOfDiffs, ih (g := g) (h := h) (by simpa using h1) (by simpa using h2)]
        ring

/-- The inequality of Cauchy and Schwarz for the differences. -/
theorem crossOfDiffs_sq (f g h : List K) :
    crossOfDiffs f g h * crossOfDiffs f g h ≤ squaresOfDiffs f g * squaresOfDiffs g h := by
  induction f generalizing g h with
  | nil =>
    have : crossOfDiffs ([] : List K) g h = 0 := by simp [crossOfDiffs]
    rw [this, zero_mul]
    exact mul_nonneg (squaresOfDiffs_nonneg _ _) (squaresOfDiffs_nonneg _ _)
  | cons x f ih =>
    cases g with
    | nil => simp [crossOfDiffs, squaresOfDiffs]
    | cons y g =>
      cases h with
      | nil => simp [crossOfDiffs, squaresOfDiffs]
      | cons z h =>
        have hA := squaresOfDiffs_nonneg f g
        have hB := squaresOfDiffs_nonneg g h
        have hi := ih g h
        simp only [squaresOfDiffs, crossOfDiffs]
        generalize squaresOfDiffs f g = A at *
        generalize squaresOfDiffs g h = B at *
        generalize crossOfDiffs f g h = P at *
        generalize x - y = a
        generalize y - z = b
        have key : 2 * P * (a * b) ≤ A * (b * b) + B * (a * a) := by
          refine le_of_abs_le (abs_le_of_sq_le_sq (a := 2 * P * (a * b)) (b := A * (b * b) + B * (a * a)) ?_
            (add_nonneg (mul_nonneg hA (mul_self_nonneg _)) (mul_nonneg hB (mul_self_nonneg _))))
          have h1 : (2 * P * (a * b)) ^ 2 = 4 * (P * P) * ((a * b) * (a * b)) := by ring
          have h2 : 4 * (P * P) * ((a * b) * (a * b)) ≤ 4 * (A * B) * ((a * b) * (a * b)) := by
            have := mul_self_nonneg (a * b)
            nlinarith
          have h3 : 4 * (A * B) * ((a * b) * (a * b)) ≤ (A * (b * b) + B * (a * a)) ^ 2 := by
            have := mul_self_nonneg (A * (b * b) - B * (a * a))
            nlinarith
          linarith
        nlinarith

omit [LinearOrder K] [IsStrictOrderedRing K] in
theorem squaresOfDiffs_append {f o f' o' : List K} (h : f.length = o.length) :
    squaresOfDiffs (f ++ f') (o ++ o') = squaresOfDiffs f o + squaresOfDiffs f' o' := by
  induction f generalizing o with
  | nil => cases o with
    | nil => simp [squaresOfDiffs]
    | cons y o => cases h
  | cons x f ih =>
    cases o with
    | nil => cases h
    | cons y o =>
      simp only [List.cons_append, squaresOfDiffs, ih (o := o) (by simpa using h)]
      ring

omit [Field K] [LinearOrder K] [IsStrictOrderedRing K] in
theorem exists_map_some {l : List (Option K)} (h : none ∉ l) : ∃ v : List K, l = v.map some := by
  induction l with
  | nil => exact ⟨[], rfl⟩
  | cons a l ih =>
    obtain ⟨v, hv⟩ := ih fun hm => h (List.mem_cons_of_mem _ hm)
    cases a with
    | none => exact absurd (List.mem_cons_self ..) h
    | some x => exact ⟨x :: v, by rw [hv]; rfl⟩

/-- The distance of two series of numbers with the same length. -/
theorem rmseMeasure_some (root : K → K) {f o : List K} (h : f.length = o.length) (h0 : f ≠ []) :
    rmseMeasure root (f.map some) (o.map some) = .ok (some (root (squaresOfDiffs f o / (f.length : K)))) := by
  have hz : squared (List.zipWith (liftOp (· - ·)) (f.map some) (o.map some)) =
      (List.zipWith (fun x y : K => (x - y) * (x - y)) f o).map some := by
    clear h h0
    induction f generalizing o with
    | nil => cases o <;> rfl
    | cons x f ih =>
      cases o with
      | nil => rfl
      | cons y o =>
        have := ih (o := o)
        simp only [squared] at this
        simp only [List.map_cons, List.zipWith_cons_cons, squared, this]
        rfl
  have hs : ∀ f o : List K, (List.zipWith (fun x y : K => (x - y) * (x - y)) f o).sum = squaresOfDiffs f o := by
    intro f
    induction f with
    | nil => intro o; cases o <;> rfl
    | cons x f ih => intro o; cases o with
      | nil => rfl
      | cons y o => simp only [List.zipWith_cons_cons, List.sum_cons, squaresOfDiffs, ih o]
  unfold rmseMeasure
  rw [if_neg (by simp), broadcastOp_eq _ (by simpa using h)]
  simp only
  rw [hz, floatMean_some, hs, List.length_zipWith, h, min_self]
  · rfl
  · intro e
    have := congrArg List.length e
    rw [List.length_zipWith, h, min_self] at this
    exact h0 (List.length_eq_zero_iff.1 (h.trans this))

/-- **C137**: for series of numbers with the same positive length, the RMSE is a distance: the square is the mean of
the squares of the differences, it is not negative, zero exactly for equal series, symmetric, and satisfies the
triangle inequality. -/
theorem C137_metric (root : K → K) (hr : IsRoot root) {f g h : List K} (h1 : f.length = g.length)
    (h2 : g.length = h.length) (h0 : f ≠ []) :
    ∃ fg gh fh : K, rmseMeasure root (f.map some) (g.map some) = .ok (some fg) ∧
      rmseMeasure root (g.map some) (h.map some) = .ok (some gh) ∧
      rmseMeasure root (f.map some) (h.map some) = .ok (some fh) ∧
      rmseMeasure root (g.map some) (f.map some) = .ok (some fg) ∧
      0 ≤ fg ∧ fg * fg * (f.length : K) = (List.zipWith (fun x y => (x - y) ^ 2) f g).sum ∧
      (fg = 0 ↔ f = g) ∧ fh ≤ fg + gh := by
  have hg0 : g ≠ [] := by rintro rfl; exact h0 (List.length_eq_zero_iff.1 h1)
  have hn : (0 : K) < (f.length : K) := by exact_mod_cast List.length_pos_iff.2 h0
  have hq : ∀ a b : List K, 0 ≤ squaresOfDiffs a b / (f.length : K) := fun a b =>
    div_nonneg (squaresOfDiffs_nonneg a b) hn.le
  obtain ⟨p1, q1⟩ := hr _ (hq f g)
  obtain ⟨p2, q2⟩ := hr _ (hq g h)
  obtain ⟨p3, q3⟩ := hr _ (hq f h)
  refine ⟨_, _, _, rmseMeasure_some root h1 h0, rmseMeasure_some root h2 hg0, rmseMeasure_some root (h1.trans h2) h0,
    ?_, p1, ?_, ?_, ?_⟩
  · rw [rmseMeasure_some root h1.symm hg0, squaresOfDiffs_comm, h1]
  · rw [q1, div_mul_cancel₀ _ hn.ne']
    clear h0 h2 hg0 hn hq p1 q1 p2 q2 p3 q3
    induction f generalizing g with
    | nil => cases g <;> rfl
    | cons x f ih =>
      cases g with
      | nil => rfl
      | cons y g =>
        simp only [squaresOfDiffs, List.zipWith_cons_cons, List.sum_cons, ih (g := g) (by simpa using h1)]
        ring
  · rw [← mul_self_eq_zero, q1, div_eq_zero_iff, squaresOfDiffs_zero h1]
    exact ⟨fun h => h.resolve_right hn.ne', .inl⟩
  · rw [← h1]
    refine le_of_abs_le (abs_le_of_sq_le_sq (a := root (squaresOfDiffs f h / (f.length : K))) ?_ (add_nonneg p1 p2))
    have hc : crossOfDiffs f g h / (f.length : K) ≤
        root (squaresOfDiffs f g / (f.length : K)) * root (squaresOfDiffs g h / (f.length : K)) := by
      refine le_of_abs_le (abs_le_of_sq_le_sq (a := crossOfDiffs f g h / (f.length : K)) ?_ (mul_nonneg p1 p2))
      have e1 : (root (squaresOfDiffs f g / (f.length : K)) * root (squaresOfDiffs g h / (f.length : K))) ^ 2 =
          (squaresOfDiffs f g / (f.length : K)) * (squaresOfDiffs g h / (f.length : K)) := by
        rw [sq, mul_mul_mul_comm, q1, q2]
      rw [e1, div_mul_div_comm, sq, div_mul_div_comm]
      exact div_le_div_of_nonneg_right (crossOfDiffs_sq f g h) (mul_nonneg hn.le hn.le)
    rw [sq, sq, q3, squaresOfDiffs_split h1 h2]
    have e2 : (root (squaresOfDiffs f g / (f.length : K)) + root (squaresOfDiffs g h / (f.length : K))) *
        (root (squaresOfDiffs f g / (f.length : K)) + root (squaresOfDiffs g h / (f.length : K))) =
        squaresOfDiffs f g / (f.length : K) + squaresOfDiffs g h / (f.length : K) +
          2 * (root (squaresOfDiffs f g / (f.length : K)) * root (squaresOfDiffs g h / (f.length : K))) := by
      linear_combination q1 + q2
    rw [e2, add_div, add_div, mul_div_assoc]
    linarith

/-- **C137** (NaN): the RMSE is NaN exactly if one of the series has a NaN or both are empty; series of different
lengths (neither of a single sample) without NaN are a ValueError. -/
theorem C137_nan (root : K → K) (f g : List (Option K)) :
    (f.length = g.length →
      (rmseMeasure root f g = .ok none ↔ none ∈ f ∨ none ∈ g ∨ f = [])) ∧
    (f.length ≠ g.length → f.length ≠ 1 → g.length ≠ 1 →
      rmseMeasure root f g = if none ∈ f ∨ none ∈ g then .ok none else .error .valueError) := by
  constructor
  · intro h
    constructor
    · intro hm
      by_contra hc
      push Not at hc
      obtain ⟨h1, h2, h3⟩ := hc
      obtain ⟨f', rfl⟩ := exists_map_some h1
      obtain ⟨g', rfl⟩ := exists_map_some h2
      rw [rmseMeasure_some root (by simpa using h) (by simpa using h3)] at hm
      cases hm
    · intro hc
      unfold rmseMeasure
      by_cases hn : none ∈ f ∨ none ∈ g
      · rw [if_pos hn]
      · rw [if_neg hn, broadcastOp_eq _ h]
        have hf : f = [] := (hc.resolve_left fun x => hn (.inl x)).resolve_left fun x => hn (.inr x)
        subst hf
        simp [squared, floatMean, floatSum, floatDiv]
  · intro h h1 h2
    unfold rmseMeasure
    split
    · rfl
    · unfold broadcastOp
      rw [if_neg h]
      match f, g with
      | [], [] => exact absurd rfl h
      | [x], g => exact absurd rfl h1
      | [], [y] => exact absurd rfl h2
      | x :: x' :: f, [y] => exact absurd rfl h2
      | [], y :: y' :: g => rfl
      | x :: x' :: f, [] => rfl
      | x :: x' :: f, y :: y' :: g => rfl

/-- **C137** (combination): combining the distances of several pairs of series of the same length gives the distance
of all pairs without NaN put one after another; NaN if there is no such pair. -/
theorem C137_combine (root : K → K) (hr : IsRoot root) {n : Nat} (hn : 0 < n)
    (pairs : List (List (Option K) × List (Option K))) (hlen : ∀ p ∈ pairs, p.1.length = n ∧ p.2.length = n) :
    ∃ distances, pairs.mapM (fun p => rmseMeasure root p.1 p.2) = .ok distances ∧
      rmseMeasure root ((pairs.filter fun p => none ∉ p.1 ∧ none ∉ p.2).flatMap (·.1))
        ((pairs.filter fun p => none ∉ p.1 ∧ none ∉ p.2).flatMap (·.2)) = .ok (rmseCombine root distances) := by
  have hnK : (0 : K) < (n : K) := by exact_mod_cast hn
  -- the pairs without NaN as numbers, their distances and the concatenations
  have key : ∃ (distances : List (Option K)) (good : List (List K × List K)),
      pairs.mapM (fun p => rmseMeasure root p.1 p.2) = .ok distances ∧
      (∀ p ∈ good, p.1.length = n ∧ p.2.length = n) ∧
      (pairs.filter fun p => none ∉ p.1 ∧ none ∉ p.2) = good.map (fun p => (p.1.map some, p.2.map some)) ∧
      distances.filterMap id = good.map fun p => root (squaresOfDiffs p.1 p.2 / (n : K)) := by
    induction pairs with
    | nil => exact ⟨[], [], rfl, by simp, rfl, rfl⟩
    | cons p pairs ih =>
      obtain ⟨ds, good, e1, e2, e3, e4⟩ := ih fun q hq => hlen q (List.mem_cons_of_mem _ hq)
      obtain ⟨l1, l2⟩ := hlen p (List.mem_cons_self ..)
      by_cases hp : none ∉ p.1 ∧ none ∉ p.2
      · obtain ⟨f, hf⟩ := exists_map_some hp.1
        obtain ⟨g, hg⟩ := exists_map_some hp.2
        have lf : f.length = n := by rw [hf] at l1; simpa using l1
        have lg : g.length = n := by rw [hg] at l2; simpa using l2
        have hm := rmseMeasure_some root (lf.trans lg.symm) (by rintro rfl; simp at lf; omega)
        rw [← hf, ← hg, lf] at hm
        refine ⟨some (root (squaresOfDiffs f g / (n : K))) :: ds, (f, g) :: good, ?_, ?_, ?_, ?_⟩
        · rw [List.mapM_cons, hm, e1]; rfl
        · intro q hq
          rcases List.mem_cons.1 hq with rfl | hq
          · exact ⟨lf, lg⟩
          · exact e2 q hq
        · rw [List.filter_cons_of_pos (by simpa using hp), e3, List.map_cons, ← hf, ← hg]
        · exact congrArg (root (squaresOfDiffs f g / (n : K)) :: ·) e4
      · have hm : rmseMeasure root p.1 p.2 = .ok none := by
          unfold rmseMeasure
          rw [if_pos (by by_contra hc; exact hp (not_or.1 hc))]
        refine ⟨none :: ds, good, ?_, e2, ?_, ?_⟩
        · rw [List.mapM_cons, hm, e1]; rfl
        · rw [List.filter_cons_of_neg (by simpa using hp), e3]
        · rw [List.filterMap_cons_none rfl, e4]
  obtain ⟨ds, good, e1, e2, e3, e4⟩ := key
  refine ⟨ds, e1, ?_⟩
  rw [e3]
  have c1 : (good.map (fun p => (p.1.map some, p.2.map some))).flatMap (·.1) = (good.flatMap (·.1)).map some := by
    rw [List.flatMap_map, List.map_flatMap]
  have c2 : (good.map (fun p => (p.1.map some, p.2.map some))).flatMap (·.2) = (good.flatMap (·.2)).map some := by
    rw [List.flatMap_map, List.map_flatMap]
  rw [c1, c2, rmseCombine, meanSquared_eq, meanOfSquares, e4]
  have hall : ∀ good : List (List K × List K), (∀ p ∈ good, p.1.length = n ∧ p.2.length = n) →
      (good.flatMap (·.1)).length = good.length * n ∧ (good.flatMap (·.2)).length = good.length * n ∧
      squaresOfDiffs (good.flatMap (·.1)) (good.flatMap (·.2)) =
        ((good.map fun p => root (squaresOfDiffs p.1 p.2 / (n : K))).map fun x => x * x).sum * (n : K) := by
    intro good
    induction good with
    | nil => intro _; simp [squaresOfDiffs]
    | cons p good ih =>
      intro h
      obtain ⟨i1, i2, i3⟩ := ih fun q hq => h q (List.mem_cons_of_mem _ hq)
      obtain ⟨l1, l2⟩ := h p (List.mem_cons_self ..)
      refine ⟨by simp only [List.flatMap_cons, List.length_append, i1, l1, List.length_cons]; ring,
        by simp only [List.flatMap_cons, List.length_append, i2, l2, List.length_cons]; ring, ?_⟩
      simp only [List.flatMap_cons, List.map_cons, List.sum_cons]
      rw [squaresOfDiffs_append (l1.trans l2.symm), i3,
        (hr _ (div_nonneg (squaresOfDiffs_nonneg _ _) hnK.le)).2, add_mul, div_mul_cancel₀ _ hnK.ne']
  obtain ⟨a1, a2, a3⟩ := hall good e2
  by_cases hg : good = []
  · subst hg
    simp [rmseMeasure, broadcastOp, squared, floatMean, floatSum, floatDiv]
  · have hpos : 0 < good.length * n := Nat.mul_pos (List.length_pos_iff.2 hg) hn
    rw [rmseMeasure_some root (a1.trans a2.symm) (by intro e; rw [e, List.length_nil] at a1; omega),
      if_neg (by simpa using hg), a3, a1, List.length_map]
    simp only [Option.map_some]
    push_cast
    rw [mul_div_mul_right _ _ hnK.ne']

/-- The real square root satisfies the hypothesis. -/
example : IsRoot Real.sqrt := fun x hx => ⟨Real.sqrt_nonneg x, Real.mul_self_sqrt hx⟩

/-- Three series. -/
example : ∃ fg gh fh : ℝ, rmseMeasure Real.sqrt ([1, 2, 3].map some) ([2, 2, 5].map some) = .ok (some fg) ∧
    rmseMeasure Real.sqrt ([2, 2, 5].map some) ([0, 0, 0].map some) = .ok (some gh) ∧
    rmseMeasure Real.sqrt ([1, 2, 3].map some) ([0, 0, 0].map some) = .ok (some fh) ∧ fh ≤ fg + gh := by
  obtain ⟨a, b, c, h1, h2, h3, _, _, _, _, h4⟩ := C137_metric Real.sqrt
    (fun x hx => ⟨Real.sqrt_nonneg x, Real.mul_self_sqrt hx⟩) (f := [1, 2, 3]) (g := [2, 2, 5]) (h := [0, 0, 0])
    rfl rfl (by simp)
  exact ⟨a, b, c, h1, h2, h3, h4⟩

/-- The squares of the distances: a series with NaN is left out of the combination (`root` is the identity here, so
that the values are rational). -/
example : rmseMeasure (K := ℚ) id [some 1, some 2] [some 3, some 5] = .ok (some (13 / 2)) ∧
    rmseMeasure (K := ℚ) id [some 1, none] [some 3, some 5] = .ok none ∧
    rmseMeasure (K := ℚ) id [some 1, some 2] [some 3, some 5, some 6] = .error .valueError ∧
    rmseCombine (K := ℚ) id [some 3, none, some 4] = some (25 / 2) := by
  refine ⟨by decide +kernel, by decide +kernel, by decide +kernel, by decide +kernel⟩

end Spta
