import Verif.Spec.Rmse
import Verif.Props.Iteration
import Mathlib.Tactic.Ring
import Mathlib.Tactic.Positivity

/-!
# C136: extremes of an array and distances to a point
-/

namespace Spta

theorem mem_ndIndices (shape index : List Nat) : index ∈ ndIndices shape ↔ InShape shape index := by
  unfold InShape
  induction shape generalizing index with
  | nil => simp [ndIndices]
  | cons n shape ih =>
    unfold ndIndices
    rw [List.mem_flatMap]
    constructor
    · rintro ⟨i, hi, hm⟩
      obtain ⟨l, hl, rfl⟩ := List.mem_map.1 hm
      exact .cons (List.mem_range.1 hi) ((ih l).1 hl)
    · intro h
      cases h with
      | cons h1 h2 => exact ⟨_, List.mem_range.2 h1, List.mem_map.2 ⟨_, (ih _).2 h2, rfl⟩⟩

/-- The indices are enumerated in lexicographic order. -/
theorem ndIndices_sorted (shape : List Nat) : (ndIndices shape).Pairwise (· < ·) := by
  induction shape with
  | nil => simp [ndIndices]
  | cons n shape ih =>
    unfold ndIndices
    rw [List.pairwise_flatMap]
    refine ⟨fun i _ => ?_, ?_⟩
    · rw [List.pairwise_map]
      exact ih.imp fun h => List.cons_lt_cons_iff.2 (.inr ⟨rfl, h⟩)
    · refine List.pairwise_lt_range.imp fun {i j} hij x hx y hy => ?_
      obtain ⟨l, _, rfl⟩ := List.mem_map.1 hx
      obtain ⟨l', _, rfl⟩ := List.mem_map.1 hy
      exact List.cons_lt_cons_iff.2 (.inl hij)

section

variable {K : Type} [Field K] [LinearOrder K]

/-- The head of a filtered sorted list is the first element that satisfies the condition. -/
theorem filter_head_first {l : List (List Nat)} (hl : l.Pairwise (· < ·)) {p : List Nat → Bool} {i : List Nat}
    {rest : List (List Nat)} (h : l.filter p = i :: rest) : i ∈ l ∧ p i ∧ ∀ j ∈ l, j < i → p j = false := by
  have hi : i ∈ l.filter p := by rw [h]; exact List.mem_cons_self ..
  refine ⟨(List.mem_filter.1 hi).1, (List.mem_filter.1 hi).2, fun j hj hji => ?_⟩
  by_contra hp
  have hm : j ∈ l.filter p := List.mem_filter.2 ⟨hj, by simpa using hp⟩
  have hs := hl.filter p
  rw [h] at hm hs
  rcases List.mem_cons.1 hm with rfl | hm
  · exact lt_irrefl _ hji
  · exact lt_asymm hji ((List.pairwise_cons.1 hs).1 j hm)

/-- What `np.nanmin` and `np.nanmax` calculate. -/
theorem foldl_extreme {pick : K → K → K} {better : K → K → Prop}
    (hp : ∀ a b, (pick a b = a ∨ pick a b = b) ∧ ∀ c, better c (pick a b) ∨ ¬ better c (pick a b))
    (hb : ∀ a b, ¬ better a (pick a b) ∧ ¬ better b (pick a b))
    (ht : ∀ a b c, ¬ better a b → ¬ better b c → ¬ better a c) (hr : ∀ a, ¬ better a a) (rest : List K) (a : K) :
    rest.foldl pick a ∈ a :: rest ∧ ∀ w ∈ a :: rest, ¬ better w (rest.foldl pick a) := by
  induction rest generalizing a with
  | nil => exact ⟨List.mem_cons_self .., fun w hw => by rw [List.mem_singleton.1 hw]; exact hr a⟩
  | cons b rest ih =>
    obtain ⟨h1, h2⟩ := ih (pick a b)
    refine ⟨?_, fun w hw => ?_⟩
    · rcases List.mem_cons.1 h1 with h | h
      · rw [List.foldl_cons, h]
        rcases (hp a b).1 with e | e <;> rw [e] <;> simp
      · exact List.mem_cons_of_mem _ (List.mem_cons_of_mem _ h)
    · have h3 := h2 (pick a b) (List.mem_cons_self ..)
      rcases List.mem_cons.1 hw with rfl | hw
      · exact ht _ _ _ (hb w b).1 h3
      rcases List.mem_cons.1 hw with rfl | hw
      · exact ht _ _ _ (hb a w).2 h3
      · exact h2 w (List.mem_cons_of_mem _ hw)

/-- The common part of the two functions. -/
theorem extremeAndIndex_spec {pick : K → K → K} {better : K → K → Prop}
    (hp : ∀ a b, pick a b = a ∨ pick a b = b) (hb : ∀ a b, ¬ better a (pick a b) ∧ ¬ better b (pick a b))
    (ht : ∀ a b c, ¬ better a b → ¬ better b c → ¬ better a c) (hr : ∀ a, ¬ better a a)
    (ha : ∀ a b, ¬ better a b → ¬ better b a → a = b) (arr : NdArray K) :
    (∀ v i, extremeAndIndex pick arr = .ok (v, i) ↔ IsExtreme better arr v i) ∧
    (extremeAndIndex pick arr = .error .valueError ↔ ∀ i, ¬ InShape arr.shape i) ∧
    (extremeAndIndex pick arr = .error .indexError ↔
      (∃ i, InShape arr.shape i) ∧ ∀ i, InShape arr.shape i → arr.elem i = none) := by
  have hmem : ∀ w, w ∈ ((ndIndices arr.shape).map arr.elem).filterMap id ↔
      ∃ j, InShape arr.shape j ∧ arr.elem j = some w := by
    intro w
    simp only [List.mem_filterMap, List.mem_map, id_eq, mem_ndIndices]
    constructor
    · rintro ⟨_, ⟨j, hj, rfl⟩, h⟩; exact ⟨j, hj, h⟩
    · rintro ⟨j, hj, h⟩; exact ⟨_, ⟨j, hj, rfl⟩, h⟩
  unfold extremeAndIndex nanExtreme
  by_cases hnil : (ndIndices arr.shape).map arr.elem = []
  · have hno : ∀ i, ¬ InShape arr.shape i := fun i hi => by
      have := (mem_ndIndices _ _).2 hi
      rw [List.map_eq_nil_iff.1 hnil] at this
      cases this
    rw [if_pos hnil]
    refine ⟨fun v i => ⟨fun h => (by cases h), fun h => absurd h.inside (hno i)⟩, ⟨fun _ => hno, fun _ => rfl⟩,
      ⟨fun h => (by cases h), fun ⟨⟨i, hi⟩, _⟩ => absurd hi (hno i)⟩⟩
  · have hsome : ∃ i, InShape arr.shape i := by
      obtain ⟨i, hi⟩ := List.exists_mem_of_ne_nil _ (fun h => hnil (List.map_eq_nil_iff.2 h))
      exact ⟨i, (mem_ndIndices _ _).1 hi⟩
    rw [if_neg hnil]
    cases hf : ((ndIndices arr.shape).map arr.elem).filterMap id with
    | nil =>
      have hall : ∀ i, InShape arr.shape i → arr.elem i = none := by
        intro i hi
        cases he : arr.elem i with
        | none => rfl
        | some w =>
          have := (hmem w).2 ⟨i, hi, he⟩
          rw [hf] at this
          cases this
      refine ⟨fun v i => ⟨fun h => (by cases h), fun h => ?_⟩, ⟨fun h => (by cases h), fun h => ?_⟩,
        ⟨fun _ => ⟨hsome, hall⟩, fun _ => rfl⟩⟩
      · have := h.value
        rw [hall i h.inside] at this
        cases this
      · obtain ⟨i, hi⟩ := hsome
        exact absurd hi (h i)
    | cons a rest =>
      simp only
      have hx := foldl_extreme (pick := pick) (better := better) (fun a b => ⟨hp a b, fun c => Classical.em _⟩) hb ht hr
        rest a
      rw [← hf] at hx
      generalize rest.foldl pick a = m at hx
      obtain ⟨hm1, hm2⟩ := hx
      obtain ⟨j, hj1, hj2⟩ := (hmem m).1 hm1
      cases hfil : (ndIndices arr.shape).filter fun i => arr.elem i = some m with
      | nil =>
        have := List.filter_eq_nil_iff.1 hfil j ((mem_ndIndices _ _).2 hj1)
        simp [hj2] at this
      | cons i l =>
        obtain ⟨h1, h2, h3⟩ := filter_head_first (ndIndices_sorted _) hfil
        have hext : IsExtreme better arr m i := {
          inside := (mem_ndIndices _ _).1 h1
          value := by simpa using h2
          best := fun j w hj hw => hm2 w ((hmem w).2 ⟨j, hj, hw⟩)
          first := fun j hj hji => by simpa using h3 j ((mem_ndIndices _ _).2 hj) hji }
        refine ⟨fun v i' => ⟨fun h => by cases h; exact hext, fun h => ?_⟩, ⟨fun h => (by cases h), fun h => ?_⟩,
          ⟨fun h => (by cases h), fun h => ?_⟩⟩
        · have hv : m = v := ha m v (h.best i m hext.inside hext.value) (hext.best i' v h.inside h.value)
          subst hv
          rcases lt_trichotomy i i' with hlt | rfl | hlt
          · exact absurd hext.value (h.first i hext.inside hlt)
          · rfl
          · exact absurd h.value (hext.first i' h.inside hlt)
        · exact absurd hj1 (h j)
        · have := h.2 j hj1
          rw [hj2] at this
          cases this

/-- **C136** (minimum): `minimum_value_and_index` returns the least number of an array of any number of axes together
with the first index in row-major order at which it stands. It fails only if there is no number: with ValueError if
the array is empty, with IndexError if all elements are NaN. -/
theorem C136_minimum (a : NdArray K) :
    (∀ v i, minimumValueAndIndex a = .ok (v, i) ↔ IsExtreme (· < ·) a v i) ∧
    (minimumValueAndIndex a = .error .valueError ↔ ∀ i, ¬ InShape a.shape i) ∧
    (minimumValueAndIndex a = .error .indexError ↔
      (∃ i, InShape a.shape i) ∧ ∀ i, InShape a.shape i → a.elem i = none) :=
  extremeAndIndex_spec (fun a b => min_choice a b) (fun a b => ⟨not_lt.2 (min_le_left a b), not_lt.2 (min_le_right a b)⟩)
    (fun _ _ _ h h' => not_lt.2 ((not_lt.1 h').trans (not_lt.1 h))) (fun a => lt_irrefl a)
    (fun _ _ h h' => le_antisymm (not_lt.1 h') (not_lt.1 h)) a

/-- **C136** (maximum): likewise for `maximum_value_and_index`. -/
theorem C136_maximum (a : NdArray K) :
    (∀ v i, maximumValueAndIndex a = .ok (v, i) ↔ IsExtreme (· > ·) a v i) ∧
    (maximumValueAndIndex a = .error .valueError ↔ ∀ i, ¬ InShape a.shape i) ∧
    (maximumValueAndIndex a = .error .indexError ↔
      (∃ i, InShape a.shape i) ∧ ∀ i, InShape a.shape i → a.elem i = none) :=
  extremeAndIndex_spec (pick := max) (better := (· > ·)) (fun a b => max_choice a b)
    (fun a b => ⟨not_lt.2 (le_max_left a b), not_lt.2 (le_max_right a b)⟩)
    (fun _ _ _ h h' => not_lt.2 ((not_lt.1 h).trans (not_lt.1 h'))) (fun a => lt_irrefl a)
    (fun _ _ h h' => le_antisymm (not_lt.1 h) (not_lt.1 h')) a

/-- **C136** (distances): the distance at position `x * y_len + y` is the Euclidean distance of (x, y) to the point,
which may be outside the region; it is 0 at the point itself and nowhere else. -/
theorem C136_distances [IsStrictOrderedRing K] (root : K → K) (hr : IsRoot root) (i j : Int) (xLen yLen : Nat)
    (junk : Point) :
    (distancesToPoint2d (fun z => root (z : K)) i j xLen yLen junk).length = xLen * yLen ∧
    ∀ x y : Nat, x < xLen → y < yLen → ∃ d,
      (distancesToPoint2d (fun z => root (z : K)) i j xLen yLen junk)[x * yLen + y]? = some d ∧ 0 ≤ d ∧
      d * d = ((x : K) - i) * ((x : K) - i) + ((y : K) - j) * ((y : K) - j) ∧
      (d = 0 ↔ (x : Int) = i ∧ (y : Int) = j) := by
  unfold distancesToPoint2d
  rw [listOf2dPoints_eq]
  refine ⟨by rw [List.length_map, rowMajor_length], fun x y hx hy => ?_⟩
  have hp : (rowMajor xLen yLen)[x * yLen + y]? = some ⟨x, y⟩ := by
    rw [rowMajor_eq_map, List.getElem?_map, List.getElem?_range (idx_lt hx hy), Option.map_some, idx_div hy, idx_mod hy]
  rw [List.getElem?_map, hp]
  have hnn : (0 : Int) ≤ ((x : Int) - i) * ((x : Int) - i) + ((y : Int) - j) * ((y : Int) - j) :=
    add_nonneg (mul_self_nonneg _) (mul_self_nonneg _)
  obtain ⟨h1, h2⟩ := hr ((((x : Int) - i) * ((x : Int) - i) + ((y : Int) - j) * ((y : Int) - j) : Int) : K)
    (by exact_mod_cast hnn)
  refine ⟨_, rfl, h1, by rw [h2]; push_cast; rfl, ?_⟩
  rw [← mul_self_eq_zero, h2, Int.cast_eq_zero]
  constructor
  · intro h
    have ha := mul_self_nonneg ((x : Int) - i)
    have hb := mul_self_nonneg ((y : Int) - j)
    have h3 := mul_self_eq_zero.1 (le_antisymm (by omega) ha)
    have h4 := mul_self_eq_zero.1 (le_antisymm (by omega) hb)
    omega
  · rintro ⟨rfl, rfl⟩
    simp

end

/-- An array of two rows and three columns. -/
def extremeExample : NdArray ℚ :=
  ⟨[2, 3], fun i => match i with
    | [0, 0] => some 5
    | [0, 1] => none
    | [0, 2] => some (1 / 2)
    | [1, 0] => some 7
    | [1, 1] => some (1 / 2)
    | [1, 2] => some 7
    | _ => none⟩

example : minimumValueAndIndex extremeExample = .ok (1 / 2, [0, 2]) ∧
    maximumValueAndIndex extremeExample = .ok (7, [1, 0]) ∧
    minimumValueAndIndex { extremeExample with shape := [0, 3] } = .error .valueError ∧
    minimumValueAndIndex (⟨[2], fun _ => none⟩ : NdArray ℚ) = .error .indexError := by
  refine ⟨by decide +kernel, by decide +kernel, by decide +kernel, by decide +kernel⟩

/-- The squares of the distances to (2, 3) in a region of 2 by 3 points. -/
example : distancesToPoint2d (K := ℚ) (fun z => (z : ℚ)) 2 3 2 3 ⟨9, 9⟩ = [13, 8, 5, 10, 5, 2] := by decide +kernel

end Spta
