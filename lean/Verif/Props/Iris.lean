import Mathlib.Algebra.Order.BigOperators.Group.List
import Mathlib.Algebra.Order.BigOperators.Group.Finset
import Mathlib.Tactic.IntervalCases
import Mathlib.Tactic.Linarith
import Mathlib.Data.List.GetD
import Verif.Lemmas.Except
import Verif.Lemmas.KMedoids
import Verif.Model.Iris
import Verif.Spec.Iris

/-!
# The k-medoids script on the iris data (C115) and its count of matches (C116)
-/

namespace Spta

set_option linter.unusedSectionVars false

section

variable {K : Type} [Field K] [LinearOrder K] [IsStrictOrderedRing K]

/-! ### Distances -/

theorem lpPower_eq (p : Nat) : ∀ (x y : List K), x.length = y.length → lpPower p x y = powerDistance p x y := by
  intro x
  induction x with
  | nil => intro y _; rfl
  | cons a x ih =>
    intro y hy
    cases y with
    | nil => simp at hy
    | cons b y =>
      have := ih y (by simpa using hy)
      unfold lpPower powerDistance at *
      rw [List.zip_cons_cons, List.map_cons, List.sum_cons, this, List.length_cons, Finset.sum_range_succ']
      simp [add_comm]

theorem powerDistance_nonneg (p : Nat) (x y : List K) : 0 ≤ powerDistance p x y :=
  Finset.sum_nonneg fun _ _ => pow_nonneg (abs_nonneg _) _

theorem powerDistance_self (p : Nat) (hp : 0 < p) (x : List K) : powerDistance p x x = 0 := by
  unfold powerDistance
  apply Finset.sum_eq_zero
  intro i _
  rw [sub_self, abs_zero, zero_pow (by omega)]

theorem eq_of_powerDistance (p : Nat) {x y : List K} (hl : x.length = y.length)
    (h : powerDistance p x y ≤ 0) : x = y := by
  have h0 := le_antisymm h (powerDistance_nonneg p x y)
  unfold powerDistance at h0
  rw [Finset.sum_eq_zero_iff_of_nonneg fun _ _ => pow_nonneg (abs_nonneg _) _] at h0
  apply List.ext_getElem hl
  intro i h1 h2
  have := h0 i (Finset.mem_range.2 h1)
  have := sub_eq_zero.1 (abs_eq_zero.1 (pow_eq_zero_iff_of_pos this))
  rwa [List.getD_eq_getElem?_getD, List.getD_eq_getElem?_getD, List.getElem?_eq_getElem h1,
    List.getElem?_eq_getElem h2] at this
where
  pow_eq_zero_iff_of_pos {a : K} {n : Nat} (h : a ^ n = 0) : a = 0 := by
    by_contra hne
    exact pow_ne_zero n hne h

/-- All points have `f` coordinates. -/
abbrev SameDim (f : Nat) (points : List (List K)) : Prop := ∀ x ∈ points, x.length = f

theorem dissimilarity_eq {p f : Nat} {points : List (List K)} (hd : SameDim f points) {m : List K}
    (hm : m.length = f) : dissimilarity p points m = totalDistance p points m := by
  unfold dissimilarity computeDp totalDistance
  rw [List.map_map]
  congr 1
  apply List.map_congr_left
  intro x hx
  simp [lpPower_eq p x m ((hd x hx).trans hm.symm)]

/-! ### Labels -/

theorem assignLabels_ok {p f : Nat} {data medoids : List (List K)} (hd : SameDim f data)
    (hm : SameDim f medoids) (hne : medoids ≠ []) : ∃ labels,
    assignLabels (computeDp p data medoids) = .ok labels ∧
      List.Forall₂ (NearestFirst p medoids) data labels := by
  unfold assignLabels computeDp
  induction data with
  | nil => exact ⟨[], rfl, .nil⟩
  | cons x data ih =>
    obtain ⟨labels, h1, h2⟩ := ih fun y hy => hd y (by simp [hy])
    obtain ⟨j, hj, v, hv, hmin⟩ := argmin_spec (medoids.map fun m => lpPower p x m) (by simpa using hne)
    refine ⟨j :: labels, ?_, .cons ?_ h2⟩
    · rw [List.map_cons, List.mapM_cons, hj, h1]; rfl
    · rw [List.getElem?_map, Option.map_eq_some_iff] at hv
      obtain ⟨m, hmj, rfl⟩ := hv
      have hlen : ∀ (j' : Nat) (m' : List K), medoids[j']? = some m' → lpPower p x m' = powerDistance p x m' :=
        fun j' m' h => lpPower_eq p x m' ((hd x (by simp)).trans (hm m' (List.mem_of_getElem? h)).symm)
      refine ⟨m, hmj, ?_⟩
      intro j' m' hj'
      have := hmin j' (lpPower p x m') (by rw [List.getElem?_map, hj']; rfl)
      rwa [hlen j m hmj, hlen j' m' hj'] at this

/-! ### Better medoids -/

theorem betterMedoid_spec {p : Nat} {points : List (List K)} : ∀ (cluster : List (List K)) (m : List K),
    (betterMedoid p points cluster (dissimilarity p points m) m = m ∨
      (betterMedoid p points cluster (dissimilarity p points m) m ∈ cluster ∧
        dissimilarity p points (betterMedoid p points cluster (dissimilarity p points m) m) <
          dissimilarity p points m)) ∧
    ∀ x ∈ cluster, dissimilarity p points (betterMedoid p points cluster (dissimilarity p points m) m) ≤
      dissimilarity p points x := by
  intro cluster
  induction cluster with
  | nil => intro m; exact ⟨.inl rfl, fun x hx => by simp at hx⟩
  | cons y cluster ih =>
    intro m
    unfold betterMedoid
    by_cases hlt : dissimilarity p points y < dissimilarity p points m
    · rw [if_pos hlt]
      obtain ⟨h1, h2⟩ := ih y
      have hle : dissimilarity p points (betterMedoid p points cluster (dissimilarity p points y) y) ≤
          dissimilarity p points y := by
        rcases h1 with h | ⟨_, h⟩
        · rw [h]
        · exact h.le
      refine ⟨.inr ⟨?_, lt_of_le_of_lt hle hlt⟩, ?_⟩
      · rcases h1 with h | ⟨h, _⟩
        · rw [h]; simp
        · exact List.mem_cons_of_mem _ h
      · intro x hx
        rcases List.mem_cons.1 hx with rfl | hx
        · exact hle
        · exact h2 x hx
    · rw [if_neg hlt]
      obtain ⟨h1, h2⟩ := ih m
      refine ⟨?_, ?_⟩
      · rcases h1 with h | ⟨h, h'⟩
        · exact .inl h
        · exact .inr ⟨List.mem_cons_of_mem _ h, h'⟩
      · intro x hx
        rcases List.mem_cons.1 hx with rfl | hx
        · refine le_trans ?_ (not_lt.1 hlt)
          rcases h1 with h | ⟨_, h⟩
          · rw [h]
          · exact h.le
        · exact h2 x hx

theorem mem_labelled {points : List (List K)} {labels : List Nat} {i : Nat} {x : List K} :
    x ∈ labelled points labels i ↔ ∃ j : Nat, points[j]? = some x ∧ labels[j]? = some i := by
  unfold labelled
  simp only [List.mem_map, List.mem_filter, beq_iff_eq, Prod.exists, exists_and_right, exists_eq_right]
  constructor
  · intro hm
    obtain ⟨j, hj⟩ := List.mem_iff_getElem?.1 hm
    rw [List.getElem?_zip_eq_some] at hj
    exact ⟨j, hj⟩
  · rintro ⟨j, h1, h2⟩
    refine List.mem_iff_getElem?.2 ⟨j, ?_⟩
    rw [List.getElem?_zip_eq_some]
    exact ⟨h1, h2⟩

/-- The medoid of cluster `i` after an update. -/
def bestOf (p : Nat) (points : List (List K)) (labels : List Nat) (i : Nat) (m : List K) : List K :=
  betterMedoid p points (labelled points labels i) (dissimilarity p points m) m

theorem updateClusters_ok {p : Nat} {points : List (List K)} {labels : List Nat} :
    ∀ (ord : List Nat) (medoids : List (List K)), ord.Nodup → (∀ i ∈ ord, i < medoids.length) →
      ∃ out, updateClusters p points labels ord medoids = .ok out ∧ out.length = medoids.length ∧
        ∀ (i : Nat) (m : List K), medoids[i]? = some m →
          out[i]? = some (if i ∈ ord then bestOf p points labels i m else m) := by
  intro ord
  induction ord with
  | nil => intro medoids _ _; exact ⟨medoids, rfl, rfl, fun i m h => by simpa using h⟩
  | cons j ord ih =>
    intro medoids hnd hlt
    have hj : j < medoids.length := hlt j (by simp)
    obtain ⟨hjn, hnd⟩ := List.nodup_cons.1 hnd
    unfold updateClusters updateCluster
    rw [List.getElem?_eq_getElem hj]
    simp only
    obtain ⟨out, h1, h2, h3⟩ := ih (medoids.set j (bestOf p points labels j medoids[j])) hnd
      (fun i hi => by rw [List.length_set]; exact hlt i (by simp [hi]))
    refine ⟨out, h1, by rw [h2, List.length_set], ?_⟩
    intro i m hm
    by_cases hij : j = i
    · subst hij
      rw [List.getElem?_eq_getElem hj] at hm
      have hm := Option.some.inj hm
      rw [h3 j (bestOf p points labels j medoids[j]) (by simp [hj]), if_neg hjn, if_pos (by simp), hm]
    · rw [h3 i m (by rw [List.getElem?_set_ne hij]; exact hm)]
      have : i ∈ j :: ord ↔ i ∈ ord := by
        rw [List.mem_cons]
        constructor
        · rintro (h | h)
          · exact absurd h.symm hij
          · exact h
        · exact .inr
      simp only [this]

/-- What an update does, in terms of the specification. -/
theorem updateMedoids_ok {order : List Nat → List Nat} (ho : SetOrder order) {p f : Nat}
    {points medoids : List (List K)} (hd : SameDim f points) (hm : SameDim f medoids) (hne : medoids ≠ [])
    (data : List (List K)) : ∃ labels out,
    assignLabels (computeDp p points medoids) = .ok labels ∧
    List.Forall₂ (NearestFirst p medoids) points labels ∧
    updateMedoids order p points data medoids = .ok out ∧ out.length = medoids.length ∧
    ∀ (i : Nat) (m : List K), medoids[i]? = some m → ∃ m', out[i]? = some m' ∧
      (m' = m ∨ ((∃ j : Nat, points[j]? = some m' ∧ labels[j]? = some i) ∧
        totalDistance p points m' < totalDistance p points m)) ∧
      ∀ (j : Nat) (x : List K), points[j]? = some x → labels[j]? = some i →
        totalDistance p points m' ≤ totalDistance p points x := by
  obtain ⟨labels, h1, h2⟩ := assignLabels_ok (p := p) hd hm hne
  obtain ⟨out, h3, h4, h5⟩ := updateClusters_ok (p := p) (points := points) (labels := labels) (order labels)
    medoids (ho.nodup labels) (by
      intro i hi
      obtain ⟨j, hj⟩ := List.mem_iff_getElem?.1 ((ho.mem labels i).1 hi)
      obtain ⟨x, _, m, hm, _⟩ := Forall₂.getElem?' h2 hj
      exact (List.getElem?_eq_some_iff.1 hm).1)
  refine ⟨labels, out, h1, h2, ?_, h4, ?_⟩
  · unfold updateMedoids; rw [h1]; exact h3
  · intro i m hi
    refine ⟨_, h5 i m hi, ?_⟩
    have hml := hm m (List.mem_of_getElem? hi)
    by_cases hin : i ∈ order labels
    · rw [if_pos hin]
      obtain ⟨h6, h7⟩ := betterMedoid_spec (p := p) (points := points) (labelled points labels i) m
      have hlen : (bestOf p points labels i m).length = f := by
        rcases h6 with h | ⟨h, _⟩
        · unfold bestOf; rw [h]; exact hml
        · obtain ⟨j, hj, _⟩ := mem_labelled.1 h
          exact hd _ (List.mem_of_getElem? hj)
      refine ⟨?_, ?_⟩
      · rcases h6 with h | ⟨h, h'⟩
        · exact .inl h
        · refine .inr ⟨mem_labelled.1 h, ?_⟩
          rw [← dissimilarity_eq hd hlen, ← dissimilarity_eq hd hml]
          exact h'
      · intro j x hx hl
        have := h7 x (mem_labelled.2 ⟨j, hx, hl⟩)
        rwa [← dissimilarity_eq hd hlen, ← dissimilarity_eq hd (hd x (List.mem_of_getElem? hx))]
    · rw [if_neg hin]
      refine ⟨.inl rfl, ?_⟩
      intro j x _ hl
      exact absurd ((ho.mem labels i).2 (List.mem_of_getElem? hl)) hin

/-! ### Convergence -/

theorem hasConverged_iff {old new : List (List K)} : hasConverged old new = true ↔
    ∀ m, m ∈ old ↔ m ∈ new := by
  unfold hasConverged
  simp only [Bool.and_eq_true, List.all_eq_true, List.contains_iff_mem]
  constructor
  · rintro ⟨h1, h2⟩ m; exact ⟨h1 m, h2 m⟩
  · intro h; exact ⟨fun m hm => (h m).1 hm, fun m hm => (h m).2 hm⟩

/-- The number of points that are nearer to the whole data. -/
def nearerCount (p : Nat) (points : List (List K)) (m : List K) : Nat :=
  points.countP fun x => totalDistance p points x < totalDistance p points m

theorem nearerCount_lt {p : Nat} {points : List (List K)} {m m' : List K} (hmem : m' ∈ points)
    (h : totalDistance p points m' < totalDistance p points m) :
    nearerCount p points m' < nearerCount p points m := by
  unfold nearerCount
  rw [List.countP_eq_length_filter, List.countP_eq_length_filter]
  have hsub : (points.filter fun x => decide (totalDistance p points x < totalDistance p points m')) =
      (points.filter fun x => decide (totalDistance p points x < totalDistance p points m)).filter
        fun x => decide (totalDistance p points x < totalDistance p points m') := by
    rw [List.filter_filter]
    apply List.filter_congr
    intro x _
    rw [← Bool.decide_and]
    congr 1
    exact propext ⟨fun hx => ⟨hx, hx.trans h⟩, fun hx => hx.1⟩
  rw [hsub]
  apply List.length_filter_lt_length_iff_exists.2
  exact ⟨m', List.mem_filter.2 ⟨hmem, by simpa using h⟩, by simp⟩

theorem sum_lt_or_eq {α : Type} (μ : α → Nat) : ∀ {l l' : List α},
    List.Forall₂ (fun a b => b = a ∨ μ b < μ a) l l' → l' = l ∨ (l'.map μ).sum < (l.map μ).sum := by
  intro l l' h
  induction h with
  | nil => exact .inl rfl
  | cons h _ ih =>
    rw [List.map_cons, List.map_cons, List.sum_cons, List.sum_cons]
    rcases h with rfl | h
    · rcases ih with rfl | h'
      · exact .inl rfl
      · right; omega
    · right
      rcases ih with rfl | h' <;> omega

/-- A round of the loop: either it ends with medoids that did not change, or the medoids get strictly nearer
to the whole data. -/
theorem round_ok {order : List Nat → List Nat} (ho : SetOrder order) {p f : Nat} (hp : 0 < p)
    {points medoids : List (List K)} (hd : SameDim f points) (hm : ∀ m ∈ medoids, m ∈ points)
    (hne : medoids ≠ []) : ∃ labels out,
    assignLabels (computeDp p points medoids) = .ok labels ∧
    updateMedoids order p points points medoids = .ok out ∧ out.length = medoids.length ∧
    (∀ m ∈ out, m ∈ points) ∧
    List.Forall₂ (fun m m' => totalDistance p points m' ≤ totalDistance p points m) medoids out ∧
    (hasConverged medoids out = true → out = medoids ∧ Settled p points medoids labels) ∧
    (hasConverged medoids out = false →
      (out.map (nearerCount p points)).sum < (medoids.map (nearerCount p points)).sum) := by
  have hmd : SameDim f medoids := fun m h => hd m (hm m h)
  obtain ⟨labels, out, h1, h2, h3, h4, h5⟩ := updateMedoids_ok ho (p := p) hd hmd hne points
  have hfor : List.Forall₂ (fun m m' => m' = m ∨ (m' ∈ points ∧
      totalDistance p points m' < totalDistance p points m)) medoids out := by
    rw [List.forall₂_iff_get]
    refine ⟨h4.symm, ?_⟩
    intro i hi hi'
    obtain ⟨m', hm', h, _⟩ := h5 i medoids[i] (List.getElem?_eq_getElem hi)
    rw [List.getElem?_eq_getElem hi'] at hm'
    have := Option.some.inj hm'
    subst this
    rcases h with h | ⟨⟨j, hj, _⟩, h⟩
    · exact .inl h
    · exact .inr ⟨List.mem_of_getElem? hj, h⟩
  refine ⟨labels, out, h1, h3, h4, ?_, ?_, ?_, ?_⟩
  · intro m hmo
    obtain ⟨i, hi⟩ := List.mem_iff_getElem?.1 hmo
    obtain ⟨a, ha, h⟩ := Forall₂.getElem?' hfor hi
    rcases h with rfl | h
    · exact hm m (List.mem_of_getElem? ha)
    · exact h.1
  · exact hfor.imp fun a b h => by
      rcases h with rfl | h
      · exact le_rfl
      · exact h.2.le
  · intro hc
    rw [hasConverged_iff] at hc
    have hsame : out = medoids := by
      apply List.ext_getElem h4
      intro i hi' hi
      obtain ⟨m', hm', h, _⟩ := h5 i medoids[i] (List.getElem?_eq_getElem hi)
      rw [List.getElem?_eq_getElem hi'] at hm'
      have := Option.some.inj hm'
      subst this
      rcases h with h | ⟨⟨j, hj, hl⟩, hlt⟩
      · exact h
      · exfalso
        obtain ⟨l, hl', m, hmi, hmin⟩ := Forall₂.getElem? h2 hj
        rw [hl] at hl'
        have := Option.some.inj hl'
        subst this
        rw [List.getElem?_eq_getElem hi] at hmi
        have := Option.some.inj hmi
        subst this
        obtain ⟨i', hi2⟩ := List.mem_iff_getElem?.1 ((hc out[i]).2 (List.getElem_mem hi'))
        have h0 := (hmin i' _ hi2).1
        rw [powerDistance_self p hp] at h0
        have heq := eq_of_powerDistance p ((hd _ (List.mem_of_getElem? hj)).trans
          (hmd _ (List.getElem_mem hi)).symm) h0
        rw [heq] at hlt
        exact lt_irrefl _ hlt
    refine ⟨hsame, h2, ?_⟩
    intro i j x m hx hl hmj
    obtain ⟨m', hm', _, h⟩ := h5 j m hmj
    rw [hsame, hmj] at hm'
    have := Option.some.inj hm'
    subst this
    exact h i x hx hl
  · intro hc
    rcases sum_lt_or_eq (nearerCount p points) (hfor.imp fun a b h => by
      rcases h with h | h
      · exact .inl h
      · exact .inr (nearerCount_lt h.1 h.2)) with h | h
    · rw [h] at hc
      have : hasConverged medoids medoids = true := hasConverged_iff.2 fun _ => Iff.rfl
      rw [this] at hc
      cases hc
    · exact h

theorem irisLoop_ok {order : List Nat → List Nat} (ho : SetOrder order) {p f : Nat} (hp : 0 < p)
    {points : List (List K)} (hd : SameDim f points) : ∀ (n : Nat) (start : List (List K)) (l0 : List Nat),
    start ≠ [] → (∀ m ∈ start, m ∈ points) → (start.map (nearerCount p points)).sum ≤ n →
    ∃ medoids labels, (∀ steps, n + 1 ≤ steps →
        irisLoop order p points points steps start l0 = .ok (medoids, labels, true)) ∧
      Settled p points medoids labels ∧ (∀ m ∈ medoids, m ∈ points) ∧
      List.Forall₂ (fun m m' => totalDistance p points m' ≤ totalDistance p points m) start medoids := by
  intro n
  induction n with
  | zero =>
    intro start l0 hne hs hn
    obtain ⟨labels, out, h1, h2, h3, h4, h5, h6, h7⟩ := round_ok ho hp hd hs hne
    cases hc : hasConverged start out with
    | false => have := h7 hc; omega
    | true =>
      obtain ⟨rfl, hset⟩ := h6 hc
      refine ⟨_, labels, ?_, hset, hs, h5⟩
      intro steps hsteps
      obtain ⟨s, rfl⟩ : ∃ s, steps = s + 1 := ⟨steps - 1, by omega⟩
      unfold irisLoop
      rw [h1, h2]
      simp only [hc, if_true]
  | succ n ih =>
    intro start l0 hne hs hn
    obtain ⟨labels, out, h1, h2, h3, h4, h5, h6, h7⟩ := round_ok ho hp hd hs hne
    cases hc : hasConverged start out with
    | false =>
      obtain ⟨medoids, ls, g1, g2, g3, g4⟩ := ih out labels (by
        intro h; rw [h] at h3; exact hne (List.length_eq_zero_iff.1 h3.symm)) h4
        (by have := h7 hc; omega)
      refine ⟨medoids, ls, ?_, g2, g3, ?_⟩
      · intro steps hsteps
        obtain ⟨s, rfl⟩ : ∃ s, steps = s + 1 := ⟨steps - 1, by omega⟩
        unfold irisLoop
        rw [h1, h2]
        simp only [hc]
        exact g1 s (by omega)
      · rw [List.forall₂_iff_get] at h5 g4 ⊢
        refine ⟨h5.1.trans g4.1, fun i hi hi' => ?_⟩
        exact (g4.2 i (by omega) hi').trans (h5.2 i hi (by omega))
    | true =>
      obtain ⟨rfl, hset⟩ := h6 hc
      refine ⟨_, labels, ?_, hset, hs, h5⟩
      intro steps hsteps
      obtain ⟨s, rfl⟩ : ∃ s, steps = s + 1 := ⟨steps - 1, by omega⟩
      unfold irisLoop
      rw [h1, h2]
      simp only [hc, if_true]

/-- What the loop returns for any number of steps. -/
theorem irisLoop_any {order : List Nat → List Nat} (ho : SetOrder order) {p f : Nat} (hp : 0 < p)
    {points : List (List K)} (hd : SameDim f points) : ∀ (steps : Nat) (start : List (List K)) (l0 : List Nat),
    start ≠ [] → (∀ m ∈ start, m ∈ points) →
    ∃ medoids labels converged, irisLoop order p points points steps start l0 = .ok (medoids, labels, converged) ∧
      medoids.length = start.length ∧ (∀ m ∈ medoids, m ∈ points) ∧
      List.Forall₂ (fun m m' => totalDistance p points m' ≤ totalDistance p points m) start medoids ∧
      (converged = true → Settled p points medoids labels) ∧
      (0 < steps → ∃ prev, List.Forall₂ (NearestFirst p prev) points labels ∧
        List.Forall₂ (fun m m' => totalDistance p points m' ≤ totalDistance p points m) start prev ∧
        ∀ (i : Nat) (m : List K), prev[i]? = some m → ∃ m', medoids[i]? = some m' ∧
          (m' = m ∨ ((∃ j : Nat, points[j]? = some m' ∧ labels[j]? = some i) ∧
            totalDistance p points m' < totalDistance p points m)) ∧
          ∀ (j : Nat) (x : List K), points[j]? = some x → labels[j]? = some i →
            totalDistance p points m' ≤ totalDistance p points x) := by
  have hrefl : ∀ l : List (List K),
      List.Forall₂ (fun m m' => totalDistance p points m' ≤ totalDistance p points m) l l := fun l =>
    List.forall₂_same.2 fun _ _ => le_rfl
  have htrans : ∀ {a b c : List (List K)},
      List.Forall₂ (fun m m' => totalDistance p points m' ≤ totalDistance p points m) a b →
      List.Forall₂ (fun m m' => totalDistance p points m' ≤ totalDistance p points m) b c →
      List.Forall₂ (fun m m' => totalDistance p points m' ≤ totalDistance p points m) a c := by
    intro a b c h5 g4
    rw [List.forall₂_iff_get] at h5 g4 ⊢
    exact ⟨h5.1.trans g4.1, fun i hi hi' => (g4.2 i (by omega) hi').trans (h5.2 i hi (by omega))⟩
  intro steps
  induction steps with
  | zero =>
    intro start l0 _ hs
    exact ⟨start, l0, false, rfl, rfl, hs, hrefl _, by simp, by simp⟩
  | succ steps ih =>
    intro start l0 hne hs
    obtain ⟨labels, out, h1, h2, h3, h4, h5, h6, h7⟩ := round_ok ho hp hd hs hne
    obtain ⟨labels', out', u1, u2, u3, -, u5⟩ :=
      updateMedoids_ok ho (p := p) hd (fun m h => hd m (hs m h)) hne points
    rw [h1] at u1
    cases u1
    rw [h2] at u3
    cases u3
    unfold irisLoop
    simp only [h1, h2]
    cases hc : hasConverged start out with
    | true =>
      obtain ⟨rfl, hset⟩ := h6 hc
      exact ⟨_, labels, true, rfl, rfl, hs, h5, fun _ => hset, fun _ => ⟨_, u2, h5, u5⟩⟩
    | false =>
      obtain ⟨medoids, ls, cv, g1, g2, g3, g4, g5, g6⟩ := ih out labels (by
        intro h; rw [h] at h3; exact hne (List.length_eq_zero_iff.1 h3.symm)) h4
      refine ⟨medoids, ls, cv, by simpa using g1, g2.trans h3, g3, htrans h5 g4, g5, fun _ => ?_⟩
      cases steps with
      | zero =>
        unfold irisLoop at g1
        cases g1
        exact ⟨start, u2, hrefl _, u5⟩
      | succ steps =>
        obtain ⟨prev, p1, p2, p3⟩ := g6 (Nat.succ_pos _)
        exact ⟨prev, p1, htrans h5 p2, p3⟩

/-- C115, for every limit of at least one step: `k` data points are returned, none farther from the whole data than at
the start; the labels are those of the nearest medoids *before* the last update, which replaces each of them by a point
with its label that is nearest to the whole data, if there is a nearer one. If the algorithm says that it has converged,
the labels belong to the medoids returned. The full claim would say this for every limit. -/
theorem C115_limit_partial {order : List Nat → List Nat} (ho : SetOrder order) {p f : Nat} (hp : 0 < p)
    {points start : List (List K)} (hd : SameDim f points) (hne : start ≠ [])
    (hs : ∀ m ∈ start, m ∈ points) {maxSteps : Nat} (hm : 0 < maxSteps) : ∃ medoids labels converged,
    irisKmedoids order p points points start maxSteps = .ok (medoids, labels, converged) ∧
    medoids.length = start.length ∧ (∀ m ∈ medoids, m ∈ points) ∧
    List.Forall₂ (fun m m' => totalDistance p points m' ≤ totalDistance p points m) start medoids ∧
    (converged = true → Settled p points medoids labels) ∧
    ∃ prev, List.Forall₂ (NearestFirst p prev) points labels ∧
      List.Forall₂ (fun m m' => totalDistance p points m' ≤ totalDistance p points m) start prev ∧
      ∀ (i : Nat) (m : List K), prev[i]? = some m → ∃ m', medoids[i]? = some m' ∧
        (m' = m ∨ ((∃ j : Nat, points[j]? = some m' ∧ labels[j]? = some i) ∧
          totalDistance p points m' < totalDistance p points m)) ∧
        ∀ (j : Nat) (x : List K), points[j]? = some x → labels[j]? = some i →
          totalDistance p points m' ≤ totalDistance p points x := by
  obtain ⟨medoids, labels, cv, h1, h2, h3, h4, h5, h6⟩ :=
    irisLoop_any ho hp hd maxSteps start (points.map fun _ => 0) hne hs
  exact ⟨medoids, labels, cv, h1, h2, h3, h4, h5, h6 hm⟩

/-- C115: the algorithm terminates after at most `k · n + 1` rounds for every start among the data, and
returns `k` data points with their labels: every point has the label of its nearest medoid, no point with the
label of a medoid is nearer to the whole data, and no medoid is farther from the whole data than it was at
the start. -/
theorem C115_terminates_partial {order : List Nat → List Nat} (ho : SetOrder order) {p f : Nat} (hp : 0 < p)
    {points start : List (List K)} (hd : SameDim f points) (hne : start ≠ [])
    (hs : ∀ m ∈ start, m ∈ points) : ∃ medoids labels,
    (∀ maxSteps, start.length * points.length + 1 ≤ maxSteps →
      irisKmedoids order p points points start maxSteps = .ok (medoids, labels, true)) ∧
    medoids.length = start.length ∧ (∀ m ∈ medoids, m ∈ points) ∧ Settled p points medoids labels ∧
    List.Forall₂ (fun m m' => totalDistance p points m' ≤ totalDistance p points m) start medoids := by
  obtain ⟨medoids, labels, h1, h2, h3, h4⟩ := irisLoop_ok ho hp hd (start.length * points.length) start
    (points.map fun _ => 0) hne hs (by
      have := List.sum_le_card_nsmul (start.map (nearerCount p points)) points.length (by
        intro v hv
        obtain ⟨m, _, rfl⟩ := List.mem_map.1 hv
        exact List.countP_le_length)
      simpa using this)
  exact ⟨medoids, labels, h1, h4.length_eq.symm, h3, h2, h4⟩

/-- C115: the order in which python iterates the set of the labels does not matter. -/
theorem C115_order {order order' : List Nat → List Nat} (ho : SetOrder order) (ho' : SetOrder order')
    {p f : Nat} {points : List (List K)} (hd : SameDim f points) : ∀ (steps : Nat) (start : List (List K))
    (l0 : List Nat), start ≠ [] → (∀ m ∈ start, m ∈ points) →
    irisLoop order p points points steps start l0 = irisLoop order' p points points steps start l0 := by
  intro steps
  induction steps with
  | zero => intro start l0 _ _; rfl
  | succ steps ih =>
    intro start l0 hne hs
    have hmd : SameDim f start := fun m h => hd m (hs m h)
    obtain ⟨labels, h1, h2⟩ := assignLabels_ok (p := p) hd hmd hne
    have hlt : ∀ i ∈ labels, i < start.length := by
      intro i hi
      obtain ⟨j, hj⟩ := List.mem_iff_getElem?.1 hi
      obtain ⟨x, _, m, hm, _⟩ := Forall₂.getElem?' h2 hj
      exact (List.getElem?_eq_some_iff.1 hm).1
    obtain ⟨out, a1, a2, a3⟩ := updateClusters_ok (p := p) (points := points) (labels := labels) (order labels)
      start (ho.nodup labels) fun i hi => hlt i ((ho.mem labels i).1 hi)
    obtain ⟨out', b1, b2, b3⟩ := updateClusters_ok (p := p) (points := points) (labels := labels)
      (order' labels) start (ho'.nodup labels) fun i hi => hlt i ((ho'.mem labels i).1 hi)
    have heq : out = out' := by
      apply List.ext_getElem (a2.trans b2.symm)
      intro i h h'
      have hi : i < start.length := by omega
      have e1 := a3 i start[i] (List.getElem?_eq_getElem hi)
      have e2 := b3 i start[i] (List.getElem?_eq_getElem hi)
      rw [List.getElem?_eq_getElem h] at e1
      rw [List.getElem?_eq_getElem h'] at e2
      have hiff : i ∈ order labels ↔ i ∈ order' labels := (ho.mem labels i).trans (ho'.mem labels i).symm
      simp only [hiff] at e1
      exact Option.some.inj (e1.trans e2.symm)
    subst heq
    obtain ⟨labels', out', c1, c2, c3, c4, c5⟩ := updateMedoids_ok ho (p := p) hd hmd hne points
    have hu : updateMedoids order p points points start = .ok out := by
      unfold updateMedoids; rw [h1]; exact a1
    have hu' : updateMedoids order' p points points start = .ok out := by
      unfold updateMedoids; rw [h1]; exact b1
    have := Except.ok.inj (hu.symm.trans c3)
    subst this
    unfold irisLoop
    rw [h1, hu, hu']
    simp only
    split
    · rfl
    · apply ih
      · intro h; rw [h] at c4; exact hne (List.length_eq_zero_iff.1 c4.symm)
      · intro m hm
        obtain ⟨i, hi⟩ := List.mem_iff_getElem?.1 hm
        have hilt := (List.getElem?_eq_some_iff.1 hi).1
        obtain ⟨m', hm', h, _⟩ := c5 i start[i] (List.getElem?_eq_getElem (by omega))
        rw [hi] at hm'
        have := Option.some.inj hm'
        subst this
        rcases h with h | ⟨⟨j, hj, _⟩, _⟩
        · rw [h]; exact hs _ (List.getElem_mem _)
        · exact List.mem_of_getElem? hj

/-- C115: the start of `init_medoids` meets the hypotheses: `k` of the data points. -/
theorem C115_init {data : List (List K)} {k : Nat} {samples : List Nat} (hk : samples.length = k)
    (hnd : samples.Nodup) (hlt : ∀ i ∈ samples, i < data.length) :
    ∃ start, initMedoids data k samples = .ok start ∧ start.length = k ∧ (∀ m ∈ start, m ∈ data) ∧
      ∀ (j i : Nat), samples[j]? = some i → start[j]? = data[i]? := by
  have hle : k ≤ data.length := by
    have := List.Subperm.length_le (hnd.subperm (l₂ := List.range data.length) fun i hi =>
      List.mem_range.2 (hlt i hi))
    simpa [hk] using this
  have hok := mapM_ok (fun i => match data[i]? with
    | none => (.error .indexError : Except PyErr (List K))
    | some x => .ok x) (fun i => data.getD i []) samples (by
      intro i hi
      have := hlt i hi
      simp [this])
  refine ⟨samples.map fun i => data.getD i [], ?_, by rw [List.length_map, hk], ?_, ?_⟩
  · unfold initMedoids
    rw [if_neg (by omega)]
    exact hok
  · intro m hm
    obtain ⟨i, hi, rfl⟩ := List.mem_map.1 hm
    have := hlt i hi
    simp [this]
  · intro j i hj
    have := hlt i (List.mem_of_getElem? hj)
    simp [hj, this]

end

/-- An order of a set: the elements of a list without repetitions. -/
theorem setOrder_dedup : SetOrder List.dedup :=
  ⟨fun l => List.nodup_dedup l, fun _ _ => List.mem_dedup⟩

/-- Seven points on a line, in two groups. -/
def linePoints : List (List ℚ) := [[0], [1], [2], [10], [11], [12], [13]]

example : SameDim 1 linePoints ∧ ([[0], [13]] : List (List ℚ)) ≠ [] ∧
    (∀ m ∈ ([[0], [13]] : List (List ℚ)), m ∈ linePoints) ∧
    irisKmedoids List.dedup 1 linePoints linePoints [[0], [13]] 100 =
      .ok ([[2], [10]], [0, 0, 0, 1, 1, 1, 1], true) :=
  ⟨by decide +kernel, by decide +kernel, by decide +kernel, by decide +kernel⟩

example : initMedoids linePoints 2 [3, 0] = .ok [[10], [0]] := by decide +kernel

/-- C115, refuted part: the algorithm ends with a medoid that is not the best point of its cluster: the medoids
are compared by their distance to the whole data. -/
theorem C115_medoid_refuted : ∃ (points start medoids : List (List ℚ)) (labels : List Nat),
    SameDim 1 points ∧ (∀ m ∈ start, m ∈ points) ∧
    irisKmedoids List.dedup 1 points points start 100 = .ok (medoids, labels, true) ∧
    ∃ (i j : Nat) (x m : List ℚ), points[i]? = some x ∧ labels[i]? = some j ∧ medoids[j]? = some m ∧
      withinCost 1 points labels j x < withinCost 1 points labels j m :=
  ⟨linePoints, [[0], [13]], [[2], [10]], [0, 0, 0, 1, 1, 1, 1], by decide +kernel, by decide +kernel,
    by decide +kernel, 1, 0, [1], [2], by decide +kernel, by decide +kernel, by decide +kernel,
    by decide +kernel⟩

/-- C115, refuted part: the cost of the clustering can be higher at the end than at the start. -/
theorem C115_cost_refuted : ∃ (points start medoids : List (List ℚ)) (labels0 labels : List Nat),
    SameDim 1 points ∧ (∀ m ∈ start, m ∈ points) ∧
    assignLabels (computeDp 1 points start) = .ok labels0 ∧
    irisKmedoids List.dedup 1 points points start 100 = .ok (medoids, labels, true) ∧
    labelCost 1 points start labels0 < labelCost 1 points medoids labels :=
  ⟨linePoints, [[1], [11]], [[2], [10]], [0, 0, 0, 1, 1, 1, 1], [0, 0, 0, 1, 1, 1, 1], by decide +kernel,
    by decide +kernel, by decide +kernel, by decide +kernel, by decide +kernel⟩

/-- C115, refuted part: if `max_steps` ends the loop, the labels are not those of the returned medoids: the point
2 has the label of the medoid 10, although the medoid 0 is nearer. -/
theorem C115_labels_refuted : ∃ (points start medoids : List (List ℚ)) (labels : List Nat),
    SameDim 1 points ∧ (∀ m ∈ start, m ∈ points) ∧
    irisKmedoids List.dedup 1 points points start 1 = .ok (medoids, labels, false) ∧
    ∃ (i : Nat) (x m m' : List ℚ), points[i]? = some x ∧ labels[i]? = some 1 ∧ medoids[1]? = some m ∧
      medoids[0]? = some m' ∧ powerDistance 1 x m' < powerDistance 1 x m :=
  ⟨linePoints, [[0], [1]], [[0], [10]], [0, 1, 1, 1, 1, 1, 1], by decide +kernel, by decide +kernel,
    by decide +kernel, 2, [2], [10], [0], by decide +kernel, by decide +kernel, by decide +kernel,
    by decide +kernel, by decide +kernel⟩

/-- The line of the refutations with one step, and with enough steps. -/
example : irisKmedoids List.dedup 1 linePoints linePoints [[0], [1]] 1 =
      .ok ([[0], [10]], [0, 1, 1, 1, 1, 1, 1], false) ∧
    ((irisKmedoids List.dedup 1 linePoints linePoints [[0], [1]] 15).map (·.2.2)) = .ok true := by decide +kernel

/-- C115, refuted part: for data that is not the global variable `points`, the medoids are not among the data. -/
theorem C115_data_refuted : ∃ (points data start medoids : List (List ℚ)) (labels : List Nat),
    SameDim 1 points ∧ SameDim 1 data ∧ (∀ m ∈ start, m ∈ data) ∧
    irisKmedoids List.dedup 1 points data start 100 = .ok (medoids, labels, true) ∧
    ∃ m ∈ medoids, m ∉ data :=
  ⟨[[5], [6]], [[0], [1]], [[0]], [[5]], [0, 0], by decide +kernel, by decide +kernel, by decide +kernel,
    by decide +kernel, [5], by decide +kernel, by decide +kernel⟩

/-! ### Matches -/

theorem matches_length (a b : List Nat) (h : a.length = b.length) :
    ((a.zip b).map fun ab => ab.1 == ab.2).length = a.length := by simp [h]

theorem count_matches_eq (a b : List Nat) :
    ((a.zip b).map fun ab => ab.1 == ab.2).count true = agreement id a b := by
  unfold agreement
  rw [List.count, List.countP_map, List.countP_eq_length_filter]
  congr 1
  apply List.filter_congr
  intro ab _
  simp

theorem count_not (l : List Bool) : (l.map (!·)).count true = l.length - l.count true := by
  induction l with
  | nil => rfl
  | cons x l ih =>
    have := List.count_le_length (a := true) (l := l)
    cases x <;> simp [ih] <;> omega

theorem agreement_swap {a b : List Nat} (hlen : a.length = b.length) (ha : ∀ l ∈ a, l ≤ 1)
    (hb : ∀ l ∈ b, l ≤ 1) {f g : Nat → Nat} (hfg : ∀ x ≤ 1, ∀ y ≤ 1, (f x = y ↔ ¬ g x = y)) :
    agreement f a b = a.length - agreement g a b := by
  unfold agreement
  have h1 := List.length_eq_countP_add_countP (fun ab : Nat × Nat => g ab.1 == ab.2) (l := a.zip b)
  rw [List.countP_eq_length_filter, List.countP_eq_length_filter] at h1
  have h2 : (a.zip b).filter (fun ab => f ab.1 == ab.2) =
      (a.zip b).filter (fun ab => decide ¬(g ab.1 == ab.2) = true) := by
    apply List.filter_congr
    rintro ⟨x, y⟩ hxy
    have := hfg x (ha x (List.of_mem_zip hxy).1) y (hb y (List.of_mem_zip hxy).2)
    simp only [beq_iff_eq]
    rw [Bool.eq_iff_iff]
    simpa using this
  rw [h2]
  simp [hlen] at h1
  simp only [hlen]
  simp
  omega

/-- C116: for labels 0 and 1 the number of matches is the best agreement over the two ways to identify the labels
of both arrays; with `exact` it is the number of equal labels. -/
theorem C116_two_labels_partial {a b : List Nat} (hlen : a.length = b.length) (ha : ∀ l ∈ a, l ≤ 1)
    (hb : ∀ l ∈ b, l ≤ 1) :
    countMatches a b true = .ok (agreement id a b) ∧
    ∃ c, countMatches a b false = .ok c ∧
      (∃ f : Nat → Nat, f 0 ≤ 1 ∧ f 1 ≤ 1 ∧ f 0 ≠ f 1 ∧ agreement f a b = c) ∧
      ∀ f : Nat → Nat, f 0 ≤ 1 → f 1 ≤ 1 → f 0 ≠ f 1 → agreement f a b ≤ c := by
  have h1 : ¬ (a.any (fun l => decide (2 < l))) = true := by
    rw [List.any_eq_true]; rintro ⟨l, hl, h⟩; have := ha l hl; simp at h; omega
  have h2 : ¬ (b.any (fun l => decide (2 < l))) = true := by
    rw [List.any_eq_true]; rintro ⟨l, hl, h⟩; have := hb l hl; simp at h; omega
  have hsame : ∀ f : Nat → Nat, f 0 = 0 → f 1 = 1 → agreement f a b = agreement id a b := by
    intro f f0 f1
    unfold agreement
    congr 1
    apply List.filter_congr
    rintro ⟨x, y⟩ hxy
    have := ha x (List.of_mem_zip hxy).1
    interval_cases x <;> simp [f0, f1]
  have hswap : ∀ f : Nat → Nat, f 0 = 1 → f 1 = 0 → agreement f a b = a.length - agreement id a b := by
    intro f f0 f1
    apply agreement_swap hlen ha hb
    intro x hx y hy
    interval_cases x <;> interval_cases y <;> simp [f0, f1]
  have hf : ∀ f : Nat → Nat, f 0 ≤ 1 → f 1 ≤ 1 → f 0 ≠ f 1 →
      (f 0 = 0 ∧ f 1 = 1) ∨ (f 0 = 1 ∧ f 1 = 0) := by
    intro f _ _ _; omega
  unfold countMatches markMatches
  constructor
  · rw [if_neg (by simpa using hlen), if_neg h1, if_neg h2]
    simp only [if_true, count_matches_eq]
  · rw [if_neg (by simpa using hlen), if_neg h1, if_neg h2]
    simp only [Bool.false_eq_true, if_false, count_matches_eq]
    by_cases hhalf : a.length ≤ 2 * agreement id a b
    · rw [if_pos hhalf]
      simp only [count_matches_eq]
      refine ⟨_, rfl, ⟨id, by simp, by simp, by simp, rfl⟩, ?_⟩
      intro f f0 f1 hne
      rcases hf f f0 f1 hne with h | h
      · rw [hsame f h.1 h.2]
      · rw [hswap f h.1 h.2]; omega
    · rw [if_neg hhalf]
      simp only [count_not, matches_length a b hlen, count_matches_eq]
      refine ⟨_, rfl, ⟨fun x => 1 - x, by simp, by simp, by simp, hswap _ rfl rfl⟩, ?_⟩
      intro f f0 f1 hne
      rcases hf f f0 f1 hne with h | h
      · rw [hsame f h.1 h.2]; omega
      · rw [hswap f h.1 h.2]

/-- C116: for all labels that the function accepts the result claims that at least half of the labels match. -/
theorem C116_half {a b : List Nat} {c : Nat} (h : countMatches a b false = .ok c) : a.length ≤ 2 * c := by
  unfold countMatches markMatches at h
  by_cases hlen : a.length = b.length
  · rw [if_neg (by simpa using hlen)] at h
    by_cases h1 : (a.any fun l => decide (2 < l)) = true
    · rw [if_pos h1] at h; cases h
    by_cases h2 : (b.any fun l => decide (2 < l)) = true
    · rw [if_neg h1, if_pos h2] at h; cases h
    rw [if_neg h1, if_neg h2] at h
    simp only [Bool.false_eq_true, if_false] at h
    by_cases h3 : a.length ≤ 2 * ((a.zip b).map fun ab => ab.1 == ab.2).count true
    · rw [if_pos h3] at h
      have := Except.ok.inj h
      omega
    · rw [if_neg h3] at h
      have := Except.ok.inj h
      rw [count_not, matches_length a b hlen] at this
      omega
  · rw [if_pos (by simpa using hlen)] at h
    cases h

example : (∀ l ∈ [0, 0, 1, 1, 0, 1, 1], l ≤ 1) ∧
    countMatches [0, 0, 1, 1, 0, 1, 1] [1, 1, 0, 0, 1, 0, 0] false = .ok 7 ∧
    countMatches [0, 0, 1, 1, 0, 1, 1] [1, 1, 0, 0, 1, 0, 0] true = .ok 0 := by decide

/-- C116 for any labels (partial: the best agreement only for two labels): arrays of different lengths and labels above 2
are rejected; otherwise the result without `exact` is the number of positions with equal labels, or the number of the other
positions if there are more of them. -/
theorem C116_any_labels_partial (a b : List Nat) :
    (∀ exact, countMatches a b exact = .error .assertionError ↔
      a.length ≠ b.length ∨ (∃ l ∈ a, 2 < l) ∨ ∃ l ∈ b, 2 < l) ∧
    ∀ c, countMatches a b false = .ok c → c = max (agreement id a b) (a.length - agreement id a b) := by
  have bad : ∀ {exact}, markMatches a b exact = .error .assertionError → countMatches a b exact = .error .assertionError := by
    intro exact h
    rw [countMatches, h]
  by_cases hlen : a.length = b.length
  swap
  · have h : ∀ exact, countMatches a b exact = .error .assertionError := fun _ => bad (if_pos hlen)
    exact ⟨fun e => ⟨fun _ => .inl hlen, fun _ => h e⟩, fun c hc => by rw [h] at hc; cases hc⟩
  by_cases h1 : (a.any fun l => decide (2 < l)) = true
  · have h : ∀ exact, countMatches a b exact = .error .assertionError := fun _ =>
      bad ((if_neg (not_not.2 hlen)).trans (if_pos h1))
    exact ⟨fun e => ⟨fun _ => .inr (.inl (by simpa using h1)), fun _ => h e⟩, fun c hc => by rw [h] at hc; cases hc⟩
  by_cases h2 : (b.any fun l => decide (2 < l)) = true
  · have h : ∀ exact, countMatches a b exact = .error .assertionError := fun _ =>
      bad ((if_neg (not_not.2 hlen)).trans ((if_neg h1).trans (if_pos h2)))
    exact ⟨fun e => ⟨fun _ => .inr (.inr (by simpa using h2)), fun _ => h e⟩, fun c hc => by rw [h] at hc; cases hc⟩
  have n1 : ¬ ∃ l ∈ a, 2 < l := by simpa using h1
  have n2 : ¬ ∃ l ∈ b, 2 < l := by simpa using h2
  have good : ∀ exact, markMatches a b exact =
      if exact then .ok ((a.zip b).map fun ab => ab.1 == ab.2)
      else if a.length ≤ 2 * ((a.zip b).map fun ab => ab.1 == ab.2).count true then
        .ok ((a.zip b).map fun ab => ab.1 == ab.2)
      else .ok (((a.zip b).map fun ab => ab.1 == ab.2).map (!·)) := fun _ =>
    (if_neg (not_not.2 hlen)).trans ((if_neg h1).trans (if_neg h2))
  have hag := count_matches_eq a b
  refine ⟨fun exact => ⟨fun h => ?_, fun h => ?_⟩, fun c h => ?_⟩
  · rw [countMatches, good] at h
    exfalso
    split_ifs at h <;> cases h
  · rcases h with h | h | h
    · exact absurd hlen h
    · exact absurd h n1
    · exact absurd h n2
  · rw [countMatches, good, if_neg (by decide)] at h
    by_cases h3 : a.length ≤ 2 * ((a.zip b).map fun ab => ab.1 == ab.2).count true
    · rw [if_pos h3] at h
      have := Except.ok.inj h
      omega
    · rw [if_neg h3] at h
      have := Except.ok.inj h
      rw [count_not, matches_length a b hlen] at this
      omega

/-- Three labels, and a label that is rejected. -/
example : countMatches [0, 1, 2, 2, 1] [1, 2, 0, 2, 0] false = .ok (max 1 (5 - 1)) ∧
    agreement id [0, 1, 2, 2, 1] [1, 2, 0, 2, 0] = 1 ∧
    countMatches [0, 1, 3] [1, 1, 0] false = .error .assertionError := by decide

/-- C116, refuted for three labels, for which the script calls it: the result is three matches, although no way to
identify the labels gives more than two. -/
theorem C116_three_labels_refuted : ∃ a b : List Nat, a.length = b.length ∧ (∀ l ∈ a, l ≤ 2) ∧
    (∀ l ∈ b, l ≤ 2) ∧ ∃ c, countMatches a b false = .ok c ∧ ∀ f : Nat → Nat, agreement f a b < c := by
  refine ⟨[0, 0, 0], [1, 2, 1], rfl, by decide, by decide, 3, by decide, ?_⟩
  intro f
  unfold agreement
  by_cases h1 : f 0 = 1
  · simp [h1]
  · simp only [List.zip_cons_cons, List.zip_nil_right, List.filter_cons, List.filter_nil, beq_iff_eq, h1, if_false]
    split <;> simp

end Spta
