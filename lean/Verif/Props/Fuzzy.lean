import Mathlib.Algebra.Order.Ring.Rat
import Mathlib.Analysis.SpecialFunctions.Pow.Real
import Verif.Lemmas.Fuzzy

/-!
# C31–C33: fuzzy k-medoids and fuzzy masks
-/

set_option linter.unusedSectionVars false

namespace Spta

variable {S K : Type} [Field K] [LinearOrder K] [IsStrictOrderedRing K]
variable {X : List S} {pw : K → K} {d : Nat → Nat → K} {dm : Measure S K} {tol : K}

/-- The power of the code meets the assumptions for every fuzzifier `m > 1` over the reals. -/
theorem powOK_real {m : ℝ} (hm : 1 < m) : PowOK fun x : ℝ => x ^ (1 / (m - 1)) where
  pos _ hx := Real.rpow_pos_of_pos hx _
  mono _ _ hx hxy := Real.rpow_le_rpow hx.le hxy (one_div_nonneg.2 (by linarith))

/-- It meets them over any field for the fuzzifier 2. -/
theorem powOK_id : PowOK (id : K → K) := ⟨fun _ h => h, fun _ _ _ h => h⟩

/-- **C31**: for distances that are zero exactly from a sample to itself and distinct medoids, the
sanity check of `compute_membership_fcm` passes and its result consists of finite numbers (no inf,
no nan): a matrix `u` with one row per sample and one column per medoid such that every membership is
in [0, 1], every row adds up to 1, a medoid has membership 1 in its own cluster and 0 in the others,
a nearer medoid never gets a smaller membership, and the memberships follow the FCM formula. The
costs are the distances weighted with the memberships. -/
theorem C31_memberships (hr : Realises dm X d) (hp : PowOK pw) (hd : Separated d X.length)
    {ms : List (Medoid S)} (hms : MedoidsOK X ms) (hn : (getMedoidIndices ms).Nodup)
    (hne : ms ≠ []) (htol : 0 ≤ tol) :
    ∃ (u : Nat → Nat → K) (res : FcmResult K),
      computeMembershipFcm X pw ms dm tol = .ok res ∧
      res.uij = ((List.range X.length).map fun p => (List.range ms.length).map fun j =>
        FVal.fin (u p j)) ∧
      (∀ p < X.length, ∀ j < ms.length, 0 ≤ u p j ∧ u p j ≤ 1) ∧
      (∀ p < X.length, ((List.range ms.length).map fun j => u p j).sum = 1) ∧
      (∀ (j : Nat) (md : Medoid S), ms[j]? = some md → ∀ j' < ms.length,
        u md.index j' = if j' = j then 1 else 0) ∧
      (∀ p < X.length, ∀ (j j' : Nat) (md md' : Medoid S), ms[j]? = some md → ms[j']? = some md' →
        d md.index p ≤ d md'.index p → u p j' ≤ u p j) ∧
      (∀ p < X.length, p ∉ getMedoidIndices ms → ∀ (j : Nat) (md : Medoid S), ms[j]? = some md →
        u p j = pw (1 / d md.index p) / (ms.map fun md => pw (1 / d md.index p)).sum) ∧
      (∀ (j : Nat) (md : Medoid S), ms[j]? = some md → res.costs[j]? =
        some (FVal.fin ((List.range X.length).map fun p => u p j * d md.index p).sum)) ∧
      res.total = FVal.fin ((List.range ms.length).map fun j => ((List.range X.length).map fun p =>
        u p j * (((ms[j]?).map fun md => d md.index p).getD 0)).sum).sum := by
  have hin : ∀ m ∈ getMedoidIndices ms, m < X.length := by
    intro m hm
    obtain ⟨md, hmd, rfl⟩ := List.mem_map.1 hm
    exact (List.getElem?_eq_some_iff.1 (hms md hmd)).1
  have hne' : getMedoidIndices ms ≠ [] := by simpa [getMedoidIndices] using hne
  let I := getMedoidIndices ms
  have hmap : ∀ {β : Type} (f : Nat → β),
      I.map f = (List.range ms.length).map fun j => f (I[j]?.getD 0) := by
    intro β f
    apply List.ext_getElem?
    intro j
    rw [List.getElem?_map, List.getElem?_map]
    rcases Nat.lt_or_ge j ms.length with hj | hj
    · have hj' : j < I.length := by simpa [I, getMedoidIndices] using hj
      rw [List.getElem?_range hj, List.getElem?_eq_getElem hj']; simp [List.getElem?_eq_getElem hj']
    · rw [List.getElem?_eq_none (by simpa [I, getMedoidIndices] using hj),
        List.getElem?_eq_none (by simpa using hj)]; rfl
  have hget : ∀ {j : Nat} {md : Medoid S}, ms[j]? = some md → I[j]?.getD 0 = md.index := by
    intro j md hj
    simp [I, getMedoidIndices, hj]
  have hmem : ∀ {j : Nat} {md : Medoid S}, ms[j]? = some md → md.index ∈ I := fun hj =>
    List.mem_map.2 ⟨_, List.mem_of_getElem? hj, rfl⟩
  have hmemj : ∀ {j : Nat}, j < ms.length → I[j]?.getD 0 ∈ I := by
    intro j hj
    rw [hget (List.getElem?_eq_getElem hj)]
    exact hmem (List.getElem?_eq_getElem hj)
  refine ⟨fun p j => fcmU pw d I p (I[j]?.getD 0), _,
    computeMembershipFcm_eq hr hp hd hms hn hne htol, ?_, ?_, ?_, ?_, ?_, ?_, ?_, ?_⟩
  · simp only
    apply List.map_congr_left
    intro p _
    exact hmap fun m => FVal.fin (fcmU pw d I p m)
  · intro p hpn j hj
    exact ⟨fcmU_nonneg hp hd hin hpn (hmemj hj), fcmU_le_one hp hd hin hn hpn (hmemj hj)⟩
  · intro p hpn
    rw [← hmap fun m => fcmU pw d I p m]
    exact fcmU_sum hp hd hin hn hne' hpn
  · intro j md hj j' hj'
    simp only [fcmU]
    rw [if_pos (hmem hj)]
    have hjl := (List.getElem?_eq_some_iff.1 hj).1
    have : md.index = I[j']?.getD 0 ↔ j' = j := by
      rw [hget (List.getElem?_eq_getElem hj')]
      constructor
      · intro e
        have h1 : I[j']? = some md.index := by
          simp [I, getMedoidIndices, List.getElem?_eq_getElem hj', e]
        have h2 : I[j]? = some md.index := by simp [I, getMedoidIndices, hj]
        have hj'' : j' < I.length := by simpa [I, getMedoidIndices] using hj'
        exact (List.getElem?_inj hj'' hn).1 (h1.trans h2.symm)
      · rintro rfl
        rw [List.getElem?_eq_getElem hj'] at hj
        cases hj; rfl
    simp [this]
  · intro p hpn j j' md md' hj hj' hle
    simp only [hget hj, hget hj']
    exact fcmU_nearer hp hd hin hpn (hmem hj) (hmem hj') hle
  · intro p hpn hpm j md hj
    simp only [hget hj, fcmU]
    rw [if_neg hpm]
    simp [I, getMedoidIndices, Function.comp_def]
  · intro j md hj
    simp only [hget hj, List.getElem?_map, fcmCost]
    have : I[j]? = some md.index := by simp [I, getMedoidIndices, hj]
    rw [this]; rfl
  · simp only [fcmTotal, fcmCost]
    rw [hmap fun m => ((List.range X.length).map fun p => fcmU pw d I p m * d m p).sum]
    congr 2
    apply List.map_congr_left
    intro j hj
    have hj := List.mem_range.1 hj
    rw [List.getElem?_eq_getElem hj]
    congr 1
    apply List.map_congr_left
    intro p _
    simp [hget (List.getElem?_eq_getElem hj)]

/-- Three samples on a line, at 0, 1 and 3. -/
def fuzzyLine : List Rat := [0, 1, 3]

/-- Their distances. -/
def fuzzyDist : Rat → Rat → Rat := fun a b => if a < b then b - a else a - b

/-- Their distances by index. -/
def fuzzyD (a i : Nat) : Rat := fuzzyDist (fuzzyLine[i]?.getD 0) (fuzzyLine[a]?.getD 0)

theorem fuzzyD_realises : Realises (.function fuzzyDist) fuzzyLine fuzzyD := by
  intro a i x y ha hi
  simp only [fuzzyD, ha, hi, Option.getD_some]
  split
  · rename_i h
    subst h
    rw [ha] at hi
    cases hi
    simp [fuzzyDist]
  · rfl

theorem fuzzyD_separated : Separated fuzzyD fuzzyLine.length := by
  unfold Separated; decide +kernel

/-- The hypotheses can be met; the memberships of sample 1 are 2/3 and 1/3. -/
example : Realises (.function fuzzyDist) fuzzyLine fuzzyD ∧ PowOK (id : Rat → Rat) ∧
    Separated fuzzyD fuzzyLine.length ∧ MedoidsOK fuzzyLine [⟨0, 0⟩, ⟨2, 3⟩] ∧
    (getMedoidIndices [⟨0, (0 : Rat)⟩, ⟨2, 3⟩]).Nodup ∧
    (computeMembershipFcm fuzzyLine id [⟨0, 0⟩, ⟨2, 3⟩] (.function fuzzyDist) (1/1000) =
      .ok ⟨[[.fin 1, .fin 0], [.fin (2/3), .fin (1/3)], [.fin 0, .fin 1]],
        [.fin (2/3), .fin (2/3)], .fin (4/3)⟩) :=
  ⟨fuzzyD_realises, powOK_id, fuzzyD_separated, by unfold MedoidsOK; decide, by decide,
    by decide +kernel⟩

/-- The hypothesis that only the sample itself is at distance zero is needed: with two samples at
distance zero, one of them a medoid, the sanity check fails. -/
example : computeMembershipFcm [(0 : Rat), 0, 3] id [⟨0, 0⟩, ⟨2, 3⟩] (.function fuzzyDist) (1/1000) =
    .error .assertionError := by decide +kernel

/-- The initial medoids are (up to `tol`) optimal: no replacement of the medoid of one of the `k`
clusters by a sample that is no medoid lowers the total cost by more than `tol`. -/
def FzInitialOptimal (pw : K → K) (d : Nat → Nat → K) (n k : Nat) (tol : K) (ms : List Nat) : Prop :=
  ∀ i < n, ∀ j < k, i ∉ ms → fcmTotal pw d n ms - fcmTotal pw d n (ms.set j i) ≤ tol

/-- **C32** (partial: the claim is that a result is always returned). On valid input fuzzy k-medoids
raises UnboundLocalError exactly when the initial medoids are already optimal; in all other cases
it returns distinct medoids with their membership matrix, costs and total cost, the latter lower than
the initial one by more than `tol`. The other case is refuted below. -/
theorem C32_returns_partial (hr : Realises dm X d) (hp : PowOK pw) (hd : Separated d X.length)
    {k maxIter : Nat} {initial : Option (List Nat)} {outcome : List Nat} (htol : 0 ≤ tol)
    (hin : ∀ i ∈ initialIndices initial outcome, i < X.length)
    (hn : (initialIndices initial outcome).Nodup)
    (hk : (initialIndices initial outcome).length = k) (h1 : 1 ≤ k) :
    (FzInitialOptimal pw d X.length k tol (initialIndices initial outcome) →
      runKmedoidsFuzzy X k pw dm initial outcome maxIter tol = .error .unboundLocalError) ∧
    (¬ FzInitialOptimal pw d X.length k tol (initialIndices initial outcome) →
      ∃ r, runKmedoidsFuzzy X k pw dm initial outcome maxIter tol = .ok r ∧
        r.medoids.Nodup ∧ r.medoids.length = k ∧ (∀ i ∈ r.medoids, i < X.length) ∧
        r.uij = ((List.range X.length).map fun p => r.medoids.map fun m =>
          FVal.fin (fcmU pw d r.medoids p m)) ∧
        r.costs = (r.medoids.map fun m => FVal.fin (fcmCost pw d X.length r.medoids m)) ∧
        r.total = FVal.fin (fcmTotal pw d X.length r.medoids) ∧
        fcmTotal pw d X.length r.medoids + tol <
          fcmTotal pw d X.length (initialIndices initial outcome)) := by
  have hkn : k ≤ X.length := by
    rw [← hk]
    have := (List.subperm_of_subset hn (fun i hi => List.mem_range.2 (hin i hi))).length_le
    simpa using this
  obtain ⟨ms, hms⟩ := chooseInitial_exists (k := k) hin hkn
  obtain ⟨a1, a2, _⟩ := chooseInitial_ok hms
  have hne : ms ≠ [] := by
    rintro rfl
    rw [← a2] at hk
    simp [getMedoidIndices] at hk
    omega
  have hnd : (getMedoidIndices ms).Nodup := by rw [a2]; exact hn
  have hc := computeMembershipFcm_eq hr hp hd a1 hnd hne htol
  have hinv : FzInv X pw d tol (initialIndices initial outcome)
      ⟨ms, getMedoidIndices ms, none, (getMedoidIndices ms).map fun m =>
          FVal.fin (fcmCost pw d X.length (getMedoidIndices ms) m),
       FVal.fin (fcmTotal pw d X.length (getMedoidIndices ms)), true⟩ :=
    ⟨a1, hne, rfl, by rw [← a2]; simp [getMedoidIndices], hnd, rfl, rfl, fun u h => (by cases h),
      fun _ => a2, fun h => absurd rfl h⟩
  obtain ⟨st, h2, h3, _, h5⟩ := fzLoop_spec (maxIter := maxIter) hr hp hd htol
    (le_of_eq hk.symm) 0 _ hinv
  have h5 := h5 rfl
  simp only [a2] at h5
  have hopt : FzInitialOptimal pw d X.length k tol (initialIndices initial outcome) ↔
      st.uij = none := by
    rw [h5]; rfl
  rw [hopt]
  constructor
  · intro hu
    simp only [runKmedoidsFuzzy, hms, hc, h2, hu]
  · intro hu
    obtain ⟨u, hu'⟩ := Option.ne_none_iff_exists'.1 hu
    have hlen : st.medoids.length = k := h3.length.trans hk
    refine ⟨⟨getMedoidIndices st.medoids, u, st.costs, st.total⟩, ?_, h3.nodup,
      by simp [getMedoidIndices, hlen], ?_, h3.uij u hu', h3.costs, h3.total, ?_⟩
    · simp only [runKmedoidsFuzzy, hms, hc, h2, hu', hlen, le_refl, if_true]
    · intro i hi
      obtain ⟨md, hmd, rfl⟩ := List.mem_map.1 hi
      exact (List.getElem?_eq_some_iff.1 (h3.medoids md hmd)).1
    · have := h3.drop hu
      simp only
      linarith

/-- **C32** is refuted: three samples with the medoids 0 and 2, a valid input, raise
UnboundLocalError. -/
theorem C32_returns_refuted :
    runKmedoidsFuzzy fuzzyLine 2 id (.function fuzzyDist) (some [0, 2]) [] 1000 (1/1000) =
      .error .unboundLocalError := by decide +kernel

/-- Both cases of C32 occur: from the medoids 0 and 1 a swap is found. -/
example : runKmedoidsFuzzy fuzzyLine 2 id (.function fuzzyDist) (some [0, 1]) [] 1000 (1/1000) =
    .ok ⟨[2, 0], [[.fin 0, .fin 1], [.fin (1/3), .fin (2/3)], [.fin 1, .fin 0]],
      [.fin (2/3), .fin (2/3)], .fin (4/3)⟩ := by decide +kernel

/-! ### C33: fuzzy masks -/

/-- **C33**: a point is a member exactly when no membership at the point exceeds the one of the mask's
cluster by more than the threshold. -/
theorem C33_member_iff {m : FuzzyMask K} (h : m.OK) {p : Point} {u : List K}
    (hu : m.data.grid.get p = .ok u) : ∃ v, u[m.index]? = some v ∧
      ((m.isMember p = .ok true ∧ ∀ x ∈ u, x - v ≤ m.threshold) ∨
        (m.isMember p = .ok false ∧ ∃ x ∈ u, m.threshold < x - v)) := by
  obtain ⟨v, b, h1, h2, h3⟩ := FuzzyMask.isMember_spec h hu
  refine ⟨v, h1, ?_⟩
  cases b with
  | true => exact Or.inl ⟨h2, h3.1 rfl⟩
  | false =>
    right
    refine ⟨h2, ?_⟩
    by_contra hc
    push Not at hc
    exact absurd (h3.2 hc) (by simp)

/-- **C33**: raising the threshold never removes members. -/
theorem C33_threshold_monotone {m m' : FuzzyMask K} (h : m.OK) (h' : m'.OK)
    (hd : m'.data = m.data) (hi : m'.index = m.index) (hT : m.threshold ≤ m'.threshold) {p : Point}
    (hm : m.isMember p = .ok true) : m'.isMember p = .ok true := by
  have hg : ∃ u, m.data.grid.get p = .ok u := by
    unfold FuzzyMask.isMember at hm
    split at hm
    · cases hm
    · rename_i u hu; exact ⟨u, hu⟩
  obtain ⟨u, hu⟩ := hg
  obtain ⟨v, b, h1, h2, h3⟩ := FuzzyMask.isMember_spec h hu
  rw [hm] at h2; cases h2
  obtain ⟨v', b', g1, g2, g3⟩ := FuzzyMask.isMember_spec h' (p := p) (u := u) (by rw [hd]; exact hu)
  rw [hi, h1] at g1; cases g1
  rw [g2, g3.2 fun x hx => (h3.1 rfl x hx).trans hT]

/-- **C33**: every point belongs to the clusters of maximal membership (of which there is at least
one), whatever the threshold. -/
theorem C33_maximal_member {c : Cube K} (hwf : c.WF) (hk : 0 < c.tLen) {T : K} (h0 : 0 ≤ T)
    (h1 : T ≤ 1) {p : Point} {u : List K} (hu : c.grid.get p = .ok u) :
    (∀ (j : Nat) (v : K), u[j]? = some v → (∀ x ∈ u, x ≤ v) →
      (⟨c, j, T, 0⟩ : FuzzyMask K).isMember p = .ok true) ∧
    ∃ (j : Nat) (v : K), u[j]? = some v ∧ ∀ x ∈ u, x ≤ v := by
  have hlen := hwf.vector hu
  constructor
  · intro j v hj hmax
    have hjl : j < c.tLen := by rw [← hlen]; exact (List.getElem?_eq_some_iff.1 hj).1
    obtain ⟨v', b, g1, g2, g3⟩ := FuzzyMask.isMember_spec
      (m := ⟨c, j, T, 0⟩) ⟨hwf, hjl, h0, h1⟩ hu
    simp only [hj, Option.some.injEq] at g1
    subst g1
    rw [g2, g3.2 fun x hx => by have := hmax x hx; simp only; linarith]
  · obtain ⟨v, _, hv, hmax⟩ := argmaxValue_spec (l := u) (by
      intro e; rw [e] at hlen; simp at hlen; omega)
    obtain ⟨j, hj⟩ := List.mem_iff_getElem?.1 hv
    exact ⟨j, v, hj, hmax⟩

/-- **C33**: with threshold 1 every point is a member of every cluster, when the memberships are
in [0, 1]. -/
theorem C33_threshold_one {m : FuzzyMask K} (h : m.OK) (hT : m.threshold = 1) {p : Point}
    {u : List K} (hu : m.data.grid.get p = .ok u) (hrange : ∀ x ∈ u, 0 ≤ x ∧ x ≤ 1) :
    m.isMember p = .ok true := by
  obtain ⟨v, b, h1, h2, h3⟩ := FuzzyMask.isMember_spec h hu
  rw [h2, h3.2 fun x hx => ?_]
  have := hrange x hx
  have := hrange v (List.mem_of_getElem? h1)
  rw [hT]; linarith

/-- **C33** (partial: "with threshold 0 each point belongs to exactly one cluster" is only true
without ties). With threshold 0, a point whose largest membership is attained once belongs to that
cluster only. -/
theorem C33_threshold_zero_partial {c : Cube K} (hwf : c.WF) {p : Point} {u : List K}
    (hu : c.grid.get p = .ok u) {best : Nat} {w : K} (hb : u[best]? = some w)
    (hmax : ∀ (j : Nat) (v : K), u[j]? = some v → j ≠ best → v < w) (j : Nat) (hj : j < c.tLen) :
    (⟨c, j, 0, 0⟩ : FuzzyMask K).isMember p = .ok (decide (j = best)) := by
  obtain ⟨v, b, h1, h2, h3⟩ := FuzzyMask.isMember_spec
    (m := ⟨c, j, 0, 0⟩) ⟨hwf, hj, le_rfl, zero_le_one⟩ hu
  rw [h2]
  congr 1
  by_cases hjb : j = best
  · subst hjb
    simp only [hb, Option.some.injEq] at h1
    subst h1
    simp only [decide_true]
    rw [h3]
    intro x hx
    obtain ⟨i, hi⟩ := List.mem_iff_getElem?.1 hx
    by_cases hij : i = j
    · subst hij; rw [hb] at hi; cases hi; simp
    · have := hmax i x hi hij; simp only; linarith
  · have hlt := hmax j v h1 hjb
    rw [decide_eq_false hjb]
    by_contra hbt
    have := h3.1 (by simpa using hbt) w (List.mem_of_getElem? hb)
    simp only at this
    linarith

/-- A point with a tie between two clusters. -/
def tieCube : Cube Rat := ⟨2, ⟨1, 1, [[1/2, 1/2]]⟩⟩

/-- **C33** is refuted for threshold 0: a point with equal memberships belongs to both clusters. -/
theorem C33_threshold_zero_refuted : tieCube.WF ∧
    (⟨tieCube, 0, 0, 0⟩ : FuzzyMask Rat).isMember ⟨0, 0⟩ = .ok true ∧
    (⟨tieCube, 1, 0, 0⟩ : FuzzyMask Rat).isMember ⟨0, 0⟩ = .ok true := by decide +kernel

/-- **C33**: a loop over a mask lists the members in row-major order, and `cluster_len` counts
them. -/
theorem C33_loop {m : FuzzyMask K} (h : m.OK) (h0 : m.pointIndex = 0) : ∃ ps,
    m.loop = .ok (ps, m) ∧ m.clusterLen = .ok (ps.length, m) ∧
      ps.Sublist (rowMajor m.data.grid.xLen m.data.grid.yLen) ∧
      ∀ p ∈ rowMajor m.data.grid.xLen m.data.grid.yLen, p ∈ ps ↔ m.isMember p = .ok true := by
  have hm : ({ m with pointIndex := 0 } : FuzzyMask K) = m := by rw [← h0]
  have hl := FuzzyMask.loop_eq h
  rw [h0, pointsFrom_zero, hm] at hl
  refine ⟨_, hl, by simp [FuzzyMask.clusterLen, hl], List.filter_sublist, ?_⟩
  intro p hp
  simp [List.mem_filter, hp, FuzzyMask.has]

/-- **C33**: the mask made from a membership matrix with `k` columns and one row per point of the
region holds at `(x, y)` the memberships of sample `x * y_len + y`; any other number of rows, an
unknown cluster or a threshold outside [0, 1] raises AssertionError. -/
theorem C33_from_uij (uij : List (List K)) (k xLen yLen index : Nat) (T : K)
    (hk : ∀ r ∈ uij, r.length = k) :
    (uij.length = xLen * yLen ∧ index < k ∧ 0 ≤ T ∧ T ≤ 1 ∧
      ∃ m, FuzzyMask.fromUij uij k xLen yLen index T = .ok m ∧ m.OK ∧ m.index = index ∧
        m.threshold = T ∧ m.data.grid.xLen = xLen ∧ m.data.grid.yLen = yLen ∧
        ∀ x < xLen, ∀ y < yLen, ∃ r, uij[x * yLen + y]? = some r ∧
          m.data.grid.get ⟨x, y⟩ = .ok r) ∨
    (¬ (uij.length = xLen * yLen ∧ index < k ∧ 0 ≤ T ∧ T ≤ 1) ∧
      FuzzyMask.fromUij uij k xLen yLen index T = .error .assertionError) := by
  unfold FuzzyMask.fromUij FuzzyMask.create
  by_cases hl : uij.length = xLen * yLen
  · by_cases hT : 0 ≤ T ∧ T ≤ 1 ∧ index < k
    · left
      refine ⟨hl, hT.2.2, hT.1, hT.2.1, ⟨⟨k, ⟨xLen, yLen, uij⟩⟩, index, T, 0⟩,
        by simp only [hl, hT, if_true, and_self], ⟨⟨hl, hk⟩, hT.2.2, hT.1, hT.2.1⟩, rfl, rfl, rfl, rfl, ?_⟩
      intro x hx y hy
      obtain ⟨r, hr⟩ := Grid.exists_get ⟨xLen, yLen, uij⟩ hl (p := ⟨x, y⟩) hx hy
      exact ⟨r, ((Grid.get_eq_ok_iff _ _ _).1 hr).2.2, hr⟩
    · right
      refine ⟨fun h => hT ⟨h.2.2.1, h.2.2.2, h.2.1⟩, ?_⟩
      simp only [hl, if_true]
      rw [if_neg hT]
  · right
    refine ⟨fun h => hl h.1, ?_⟩
    rw [if_neg hl]

/-- **C33** (with C31): with the memberships of fuzzy k-medoids and a threshold below 1, a medoid is
only a member of its own cluster. -/
theorem C33_medoid_only_in_own_cluster {ms : List Nat}
    {xLen yLen : Nat} {T : K} (h0 : 0 ≤ T) (h1 : T < 1) {x y : Nat} (hx : x < xLen) (hy : y < yLen)
    (hm : x * yLen + y ∈ ms) {j : Nat} (hj : j < ms.length) :
    ∃ m, FuzzyMask.fromUij ((List.range (xLen * yLen)).map fun p => ms.map fun i =>
        fcmU pw d ms p i) ms.length xLen yLen j T = .ok m ∧
      m.isMember ⟨x, y⟩ = .ok (decide (ms[j]? = some (x * yLen + y))) := by
  rcases C33_from_uij ((List.range (xLen * yLen)).map fun p => ms.map fun i =>
        fcmU pw d ms p i) ms.length xLen yLen j T (by
          intro r hr
          obtain ⟨p, _, rfl⟩ := List.mem_map.1 hr
          simp) with ⟨_, _, _, _, m, e1, hok, e3, e4, _, _, hget⟩ | ⟨h, _⟩
  swap
  · exact absurd ⟨by simp, hj, h0, h1.le⟩ h
  refine ⟨m, e1, ?_⟩
  obtain ⟨r, hr1, hr2⟩ := hget x hx y hy
  have hin : x * yLen + y < xLen * yLen := by
    have : (x + 1) * yLen ≤ xLen * yLen := Nat.mul_le_mul_right _ hx
    rw [Nat.add_mul] at this
    omega
  rw [List.getElem?_map, List.getElem?_range hin] at hr1
  simp only [Option.map_some, Option.some.injEq] at hr1
  have hU : ∀ i, fcmU pw d ms (x * yLen + y) i = if x * yLen + y = i then 1 else 0 := by
    intro i; simp [fcmU, hm]
  simp only [hU] at hr1
  subst hr1
  obtain ⟨v, b, g1, g2, g3⟩ := FuzzyMask.isMember_spec hok hr2
  rw [g2]
  congr 1
  rw [e3, List.getElem?_map, List.getElem?_eq_getElem hj] at g1
  simp only [Option.map_some, Option.some.injEq] at g1
  subst g1
  rw [e4] at g3
  rw [Bool.eq_iff_iff, g3, decide_eq_true_iff, List.getElem?_eq_getElem hj]
  simp only [Option.some.injEq]
  constructor
  · intro h
    by_contra hc
    have := h 1 (List.mem_map.2 ⟨x * yLen + y, hm, by simp⟩)
    rw [if_neg (Ne.symm hc)] at this
    linarith
  · intro h z hz
    obtain ⟨i, _, rfl⟩ := List.mem_map.1 hz
    rw [if_pos h.symm]
    split
    · simpa using h0
    · linarith

/-- A 1 x 2 region with three clusters; the mask of cluster 1 with threshold 1/4. -/
def sampleMask : FuzzyMask Rat := ⟨⟨3, ⟨1, 2, [[1/2, 1/3, 1/6], [1/8, 0, 7/8]]⟩⟩, 1, 1/4, 0⟩

/-- The hypotheses can be met. -/
example : sampleMask.OK ∧ sampleMask.loop = .ok ([⟨0, 0⟩], sampleMask) ∧
    sampleMask.data.grid.get ⟨0, 0⟩ = .ok [1/2, 1/3, 1/6] ∧
    sampleMask.isMember ⟨0, 1⟩ = .ok false :=
  ⟨⟨by decide, by decide, by decide +kernel, by decide +kernel⟩, by decide +kernel,
    by decide +kernel, by decide +kernel⟩

end Spta
