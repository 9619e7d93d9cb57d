import Mathlib.Algebra.Order.Field.Rat
import Verif.Lemmas.KMedoidsBad

/-!
# C94, C95: the other k-medoids algorithm (kmedoids_bad)

It replaces the medoid of a cluster by a member of the cluster with a smaller dissimilarity to *all* series.
-/

set_option linter.unusedSectionVars false

namespace Spta

variable {S K : Type} [LinearOrder K]

/-- The loop ends, and what holds then. -/
theorem badLoop_spec (measure : S → S → K) (combine : List K → K) (X : List S) (maxSteps : Option Nat) :
    ∀ (fuel i : Nat) (ms : List (Medoid S)) (labels : List Nat), ms ≠ [] →
    badPotential (badDissimilarity measure combine X) X ms < fuel →
    ∃ ms' labels', badLoop measure combine X maxSteps fuel i ms labels = .ok (ms', labels') ∧
      BadSteps (badDissimilarity measure combine X) X ms ms' ∧ KeepsDistinct measure X ms ms' ∧
      (maxSteps = none → MedoidsOf X ms → NearestLabels measure X ms' labels' ∧
        BestOfCluster (badDissimilarity measure combine X) X ms' labels') ∧
      (maxSteps.all (i ≤ ·) = true → ∃ prev, NearestLabels measure X prev labels' ∧
        badUpdate measure combine X prev = .ok ms' ∧
        BadSteps (badDissimilarity measure combine X) X ms prev) := by
  intro fuel
  induction fuel with
  | zero => intro i ms labels _ h; omega
  | succ fuel ih =>
    intro i ms labels hne hpot
    unfold badLoop
    by_cases hsteps : maxSteps.all (i ≤ ·) = true
    · rw [if_pos hsteps]
      obtain ⟨ms1, labels1, h1, h2, h3, h4, h5, h6⟩ := badUpdate_spec measure combine X ms hne
      rw [h2]
      simp only [h1]
      by_cases hconv : getMedoidIndices ms = getMedoidIndices ms1
      · rw [if_pos hconv]
        refine ⟨ms1, labels1, rfl, h4, h5, ?_, ?_⟩
        · intro _ hof
          have e := medoidsOf_eq hof (h4.medoidsOf hof) hconv
          subst e
          exact ⟨h3, h6 rfl hof⟩
        · intro _
          exact ⟨ms, h3, h1, BadSteps.refl _ _ _⟩
      · rw [if_neg hconv]
        have hne' : ms1 ≠ ms := fun e => hconv (by rw [e])
        have hlt := h4.potential.2 hne'
        have hne1 : ms1 ≠ [] := by
          intro e
          have := h4.1
          rw [e] at this
          exact hne (List.eq_nil_of_length_eq_zero this.symm)
        obtain ⟨ms', labels', g1, g2, g3, g4, g5⟩ := ih (i + 1) ms1 labels1 hne1 (by omega)
        refine ⟨ms', labels', g1, h4.trans g2, KeepsDistinct.trans measure X h4 h5 g3, ?_, ?_⟩
        · intro hn hof
          exact g4 hn (h4.medoidsOf hof)
        · intro _
          by_cases hs' : maxSteps.all (i + 1 ≤ ·) = true
          · obtain ⟨prev, p1, p2, p3⟩ := g5 hs'
            exact ⟨prev, p1, p2, h4.trans p3⟩
          · cases fuel with
            | zero => omega
            | succ fuel =>
              unfold badLoop at g1
              rw [if_neg hs'] at g1
              cases g1
              exact ⟨ms, h3, h1, BadSteps.refl _ _ _⟩
    · rw [if_neg hsteps]
      refine ⟨ms, labels, rfl, BadSteps.refl _ _ _, fun _ _ h => h, ?_, fun h => absurd h hsteps⟩
      intro hn
      rw [hn] at hsteps
      exact absurd rfl hsteps

/-- A result does not depend on how many more iterations are allowed. -/
theorem badLoop_mono (measure : S → S → K) (combine : List K → K) (X : List S) (maxSteps : Option Nat)
    {r : List (Medoid S) × List Nat} : ∀ (fuel fuel' i : Nat) (ms : List (Medoid S)) (labels : List Nat),
    fuel ≤ fuel' → badLoop measure combine X maxSteps fuel i ms labels = .ok r →
    badLoop measure combine X maxSteps fuel' i ms labels = .ok r := by
  intro fuel
  induction fuel with
  | zero => intro fuel' i ms labels _ h; cases h
  | succ fuel ih =>
    intro fuel' i ms labels hle h
    cases fuel' with
    | zero => omega
    | succ fuel' =>
      unfold badLoop at h ⊢
      split
      · rename_i hs
        rw [if_pos hs] at h
        split
        · rename_i e he; rw [he] at h; cases h
        · rename_i l hl
          rw [hl] at h
          simp only at h
          split
          · rename_i e he; rw [he] at h; cases h
          · rename_i m hm
            rw [hm] at h
            simp only at h
            split
            · rename_i hc; rw [if_pos hc] at h; exact h
            · rename_i hc
              rw [if_neg hc] at h
              exact ih fuel' _ _ _ (by omega) h
      · rename_i hs
        rw [if_neg hs] at h
        exact h

/-- **C94** (the algorithm always ends, at a local optimum). For any data, distance, combination of distances
and non-empty list of starting medoids of the data, without a limit of steps, `kmedoids` ends after at most
`k * len(X) + 1` iterations. Its medoids are series of the data; each label is the position of the nearest
medoid, the first one of several; within a cluster no series has a smaller dissimilarity than the medoid; and
the dissimilarity of no medoid has increased. -/
theorem C94_result (measure : S → S → K) (combine : List K → K) (X : List S) (start : List (Medoid S))
    (hk : start ≠ []) (hof : MedoidsOf X start) :
    ∃ ms labels, (∀ fuel, start.length * X.length < fuel →
        badKMedoids measure combine X none fuel start = .ok (ms, labels)) ∧
      MedoidsOf X ms ∧ NearestLabels measure X ms labels ∧
      BestOfCluster (fun s => combine (X.map fun x => measure x s)) X ms labels ∧
      NotWorse (fun s => combine (X.map fun x => measure x s)) start ms ∧
      ((∀ x y, x ≠ y → measure x x < measure x y) → (start.map Medoid.index).Nodup →
        (ms.map Medoid.index).Nodup) := by
  have hp := badPotential_le (badDissimilarity measure combine X) X start
  obtain ⟨ms, labels, h1, h2, h3, h4, _⟩ := badLoop_spec measure combine X none
    (start.length * X.length + 1) 1 start (List.replicate X.length 0) hk (by omega)
  obtain ⟨h5, h6⟩ := h4 rfl hof
  refine ⟨ms, labels, ?_, h2.medoidsOf hof, h5, h6, h2.notWorse, fun hpos hnd => h3 hpos hof hnd⟩
  intro fuel hf
  exact badLoop_mono measure combine X none _ fuel 1 start _ (by omega) h1

/-- **C94**, random start: `numpy` returns `k` distinct positions of the data, and the starting medoids are
the series at these positions. -/
theorem C94_random_start (X : List S) (k : Nat) (hk : k ≤ X.length) (outcome : List Nat)
    (hlen : outcome.length = k) (hin : ∀ i ∈ outcome, i < X.length) :
    ∃ start, badInit X k outcome = .ok start ∧ start.length = k ∧ MedoidsOf X start ∧
      start.map Medoid.index = outcome := by
  unfold badInit
  rw [if_pos hk]
  have key : ∀ (l : List Nat), (∀ i ∈ l, i < X.length) → ∃ start, medoidsAt X l = .ok start ∧
      MedoidsOf X start ∧ start.map Medoid.index = l := by
    intro l
    induction l with
    | nil => intro _; exact ⟨[], rfl, by intro m hm; simp at hm, rfl⟩
    | cons a l ih =>
      intro h
      obtain ⟨start, h1, h2, h3⟩ := ih fun i hi => h i (by simp [hi])
      have ha := h a (by simp)
      unfold medoidsAt at h1 ⊢
      rw [List.mapM_cons, h1, List.getElem?_eq_getElem ha]
      refine ⟨⟨a, X[a]⟩ :: start, rfl, ?_, by simp [h3]⟩
      intro m hm
      rcases List.mem_cons.1 hm with rfl | hm
      · exact List.getElem?_eq_getElem ha
      · exact h2 m hm
  obtain ⟨start, h1, h2, h3⟩ := key outcome hin
  refine ⟨start, h1, ?_, h2, h3⟩
  rw [← hlen, ← h3, List.length_map]

/-- The distance of two numbers, for the examples. -/
def exampleGap (x y : ℚ) : ℚ := if x < y then y - x else x - y

/-- An example for C94: the medoid of the first cluster moves from 0 to 1, and then the series 2 changes to
this cluster. -/
example : MedoidsOf [(0 : ℚ), 1, 2, 3] [⟨0, 0⟩, ⟨3, 3⟩] ∧
    badKMedoids exampleGap List.sum [0, 1, 2, 3] none 9 [⟨0, 0⟩, ⟨3, 3⟩]
      = .ok ([⟨1, 1⟩, ⟨3, 3⟩], [0, 0, 0, 1]) := by
  refine ⟨?_, by decide +kernel⟩
  intro m hm
  simp only [List.mem_cons, List.not_mem_nil, or_false] at hm
  rcases hm with rfl | rfl <;> rfl

/-- **C95**, what holds of the labels with a limit of at least one step: they are those of the nearest medoids
*before* the last update. The full claim would be about the medoids that are returned. -/
theorem C95_labels_partial (measure : S → S → K) (combine : List K → K) (X : List S)
    (start : List (Medoid S)) (hk : start ≠ []) (maxSteps : Nat) (hm : 1 ≤ maxSteps) :
    ∃ ms labels, (∀ fuel, start.length * X.length < fuel →
        badKMedoids measure combine X (some maxSteps) fuel start = .ok (ms, labels)) ∧
      NotWorse (fun s => combine (X.map fun x => measure x s)) start ms ∧
      ∃ prev, NearestLabels measure X prev labels ∧ badUpdate measure combine X prev = .ok ms := by
  have hp := badPotential_le (badDissimilarity measure combine X) X start
  obtain ⟨ms, labels, h1, h2, _, _, h5⟩ := badLoop_spec measure combine X (some maxSteps)
    (start.length * X.length + 1) 1 start (List.replicate X.length 0) hk (by omega)
  obtain ⟨prev, p1, p2, _⟩ := h5 (by simpa using hm)
  refine ⟨ms, labels, ?_, h2.notWorse, prev, p1, p2⟩
  intro fuel hf
  exact badLoop_mono measure combine X (some maxSteps) _ fuel 1 start _ (by omega) h1

/-- A limit of steps that is not reached makes no difference. -/
theorem badLoop_limit (measure : S → S → K) (combine : List K → K) (X : List S) (maxSteps : Nat)
    {r : List (Medoid S) × List Nat} : ∀ (fuel i : Nat) (ms : List (Medoid S)) (labels : List Nat),
    i + fuel ≤ maxSteps + 1 → badLoop measure combine X none fuel i ms labels = .ok r →
    badLoop measure combine X (some maxSteps) fuel i ms labels = .ok r := by
  intro fuel
  induction fuel with
  | zero => intro i ms labels _ h; cases h
  | succ fuel ih =>
    intro i ms labels hle h
    unfold badLoop at h ⊢
    rw [if_pos (by simp)] at h
    rw [if_pos (by simp; omega)]
    split
    · rename_i e he; rw [he] at h; cases h
    · rename_i l hl
      rw [hl] at h
      simp only at h
      split
      · rename_i e he; rw [he] at h; cases h
      · rename_i m hm
        rw [hm] at h
        simp only at h
        split
        · rename_i hc; rw [if_pos hc] at h; exact h
        · rename_i hc
          rw [if_neg hc] at h
          exact ih _ _ _ (by omega) h

/-- **C95**, the labels for any limit. With more steps than the number of medoids times the number of series the limit
has no effect, and the labels are those of the medoids returned. Without steps the start is returned, and all labels
are 0 (wrong as soon as a series is nearer to another medoid). In between, C95_labels_partial says what the labels
are. -/
theorem C95_limit_partial (measure : S → S → K) (combine : List K → K) (X : List S)
    (start : List (Medoid S)) (hk : start ≠ []) (hof : MedoidsOf X start) (maxSteps : Nat) :
    (start.length * X.length < maxSteps → ∃ ms labels, (∀ fuel, start.length * X.length < fuel →
        badKMedoids measure combine X (some maxSteps) fuel start = .ok (ms, labels) ∧
        badKMedoids measure combine X none fuel start = .ok (ms, labels)) ∧
      NearestLabels measure X ms labels) ∧
    (maxSteps = 0 → ∀ fuel, 0 < fuel → badKMedoids measure combine X (some maxSteps) fuel start =
      .ok (start, List.replicate X.length 0)) := by
  refine ⟨fun hm => ?_, ?_⟩
  · obtain ⟨ms, labels, h1, -, h3, -⟩ := C94_result measure combine X start hk hof
    refine ⟨ms, labels, fun fuel hf => ⟨?_, h1 fuel hf⟩, h3⟩
    refine badLoop_mono measure combine X (some maxSteps) (start.length * X.length + 1) fuel 1 start _ (by omega) ?_
    exact badLoop_limit measure combine X maxSteps _ 1 start _ (by omega) (h1 _ (Nat.lt_succ_self _))
  · rintro rfl fuel hf
    obtain ⟨n, rfl⟩ : ∃ n, fuel = n + 1 := ⟨fuel - 1, by omega⟩
    rfl

/-- The example of C94 with a limit of 9 steps, of which 3 are needed, and with none. -/
example : badKMedoids exampleGap List.sum [0, 1, 2, 3] (some 9) 9 [⟨0, 0⟩, ⟨3, 3⟩]
      = .ok ([⟨1, 1⟩, ⟨3, 3⟩], [0, 0, 0, 1]) ∧
    badKMedoids exampleGap List.sum [0, 1, 2, 3] (some 0) 9 [⟨0, 0⟩, ⟨3, 3⟩]
      = .ok ([⟨0, 0⟩, ⟨3, 3⟩], [0, 0, 0, 0]) := by decide +kernel

/-- **C95**, what holds of the cost: for one medoid, and the sum as combination, the result is the best medoid
of all. -/
theorem C95_single_partial [AddCommMonoid K] (measure : S → S → K) (X : List S) (m0 : Medoid S)
    (hof : X[m0.index]? = some m0.series) :
    ∃ m, (∀ fuel, X.length < fuel → badKMedoids measure List.sum X none fuel [m0] =
        .ok ([m], List.replicate X.length 0)) ∧ X[m.index]? = some m.series ∧
      ∀ y ∈ X, (X.map fun x => measure x m.series).sum ≤ (X.map fun x => measure x y).sum := by
  obtain ⟨ms, labels, h1, h2, h3, h4, h5, _⟩ := C94_result measure List.sum X [m0] (by simp)
    (by intro m hm; rw [List.mem_singleton.1 hm]; exact hof)
  have hlen : ms.length = 1 := h5.1
  obtain ⟨m, rfl⟩ := List.length_eq_one_iff.1 hlen
  have hlab : ∀ (idx l : Nat), labels[idx]? = some l → l = 0 := by
    intro idx l hl
    have hi := (List.getElem?_eq_some_iff.1 hl).1
    rw [h3.1] at hi
    obtain ⟨m', hm', _⟩ := h3.2 idx _ l (List.getElem?_eq_getElem hi) hl
    have := (List.getElem?_eq_some_iff.1 hm').1
    simp at this
    exact this
  have hrep : labels = List.replicate X.length 0 := by
    rw [← h3.1]
    apply List.eq_replicate_of_mem
    intro l hl
    obtain ⟨idx, hi, e⟩ := List.getElem_of_mem hl
    exact hlab idx l (by rw [List.getElem?_eq_getElem hi, e])
  refine ⟨m, ?_, h2 m (by simp), ?_⟩
  · intro fuel hf
    rw [← hrep]
    exact h1 fuel (by simpa using hf)
  · intro y hy
    obtain ⟨idx, hi, e⟩ := List.getElem_of_mem hy
    refine h4 idx y 0 m (by rw [List.getElem?_eq_getElem hi, e]) ?_ rfl
    rw [hrep, List.getElem?_replicate, if_pos hi]

/-- An example for one medoid. -/
example : badKMedoids exampleGap List.sum [0, 1, 2, 3, 9] none 6 [⟨4, 9⟩] =
    .ok ([⟨2, 2⟩], [0, 0, 0, 0, 0]) := by decide +kernel

/-- **C95** does not hold: the cost of the final clustering can be greater than that of the start, and with a
limit of steps the labels need not be those of the medoids returned. -/
theorem C95_refuted :
    (∃ (X : List ℚ) (start ms : List (Medoid ℚ)) (before after : List Nat), MedoidsOf X start ∧
      NearestLabels exampleGap X start before ∧
      badKMedoids exampleGap List.sum X none 100 start = .ok (ms, after) ∧
      labelledCost exampleGap X start before < labelledCost exampleGap X ms after) ∧
    ∃ (X : List ℚ) (start ms : List (Medoid ℚ)) (labels : List Nat), MedoidsOf X start ∧
      badKMedoids exampleGap List.sum X (some 1) 100 start = .ok (ms, labels) ∧
      ¬ NearestLabels exampleGap X ms labels := by
  constructor
  · obtain ⟨before, hb, hnear⟩ := badLabels_spec exampleGap [0, 1, 2, 10, 11, 12] [⟨1, 1⟩, ⟨4, 11⟩] (by simp)
    have e : badLabels exampleGap [0, 1, 2, 10, 11, 12] [⟨1, 1⟩, ⟨4, 11⟩] = .ok [0, 0, 0, 1, 1, 1] := by
      decide +kernel
    rw [e] at hb
    cases hb
    refine ⟨_, _, [⟨2, 2⟩, ⟨3, 10⟩], _, [0, 0, 0, 1, 1, 1], ?_, hnear, by decide +kernel, by decide +kernel⟩
    intro m hm
    simp only [List.mem_cons, List.not_mem_nil, or_false] at hm
    rcases hm with rfl | rfl <;> rfl
  · refine ⟨[0, 1, 2, 3], [⟨0, 0⟩, ⟨3, 3⟩], [⟨1, 1⟩, ⟨3, 3⟩], [0, 0, 1, 1], ?_, by decide +kernel, ?_⟩
    · intro m hm
      simp only [List.mem_cons, List.not_mem_nil, or_false] at hm
      rcases hm with rfl | rfl <;> rfl
    · rintro ⟨_, h⟩
      obtain ⟨m, hm, hmin⟩ := h 2 2 1 rfl rfl
      cases hm
      have := (hmin 0 ⟨1, 1⟩ rfl).2 (by decide)
      exact absurd this (by decide +kernel)

end Spta
