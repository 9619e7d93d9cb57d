import Mathlib.Algebra.Order.Ring.Rat
import Mathlib.Algebra.Order.Group.Defs
import Mathlib.Algebra.Order.Monoid.Basic
import Mathlib.Tactic.Abel
import Mathlib.Tactic.Linarith
import Verif.Lemmas.KMedoids
import Verif.Lemmas.Region

/-!
# C26–C30: k-medoids
-/

set_option linter.unusedSectionVars false

namespace Spta

variable {S K : Type} [AddCommGroup K] [LinearOrder K]
variable {X : List S} {d : Nat → Nat → K} {dm : Measure S K} {tol : K}
  {k : Nat} {initial : Option (List Nat)} {outcome : List Nat} {mode : KmMode} {maxIter : Nat}
  {verbose : Bool} {r : KmResult K}

/-- **C26**: the labels of a k-medoids result are first nearest medoids, the cost of each cluster is
the sum of its members' distances to its medoid and the total cost is the sum of the distances to
the nearest medoid. -/
theorem C26_labels_and_costs (hd : Realises dm X d) (hX : X ≠ [])
    (h : runKmedoids X k dm initial outcome mode maxIter tol verbose = .ok r) :
    CostSpec d X.length r.medoids r.labels r.costs r.total := by
  obtain ⟨st, cc, h1, _, _, _, rfl⟩ := runKmedoids_inv hd hX h
  exact h1.spec

/-- **C26** (totality, so that the statements about results are not vacuous): with `k ≥ 1` initial
medoids that are samples and a known mode, k-medoids returns a result. -/
theorem C26_returns (hd : Realises dm X d) (hm : mode ≠ .other)
    (hi : ∀ i ∈ initialIndices initial outcome, i < X.length)
    (hk : (initialIndices initial outcome).length = k) (h1 : 1 ≤ k) (hn : k ≤ X.length) :
    ∃ r, runKmedoids X k dm initial outcome mode maxIter tol false = .ok r := by
  have hc : ∃ ms, chooseInitialMedoids X k outcome initial = .ok ms := by
    obtain ⟨ms, hms⟩ := medoidsAt_exists hi
    refine ⟨ms, ?_⟩
    unfold chooseInitialMedoids
    unfold initialIndices at hms
    split
    · exact hms
    · rename_i hne
      rw [if_pos hn]
      split at hms
      · exact absurd rfl (hne _ _)
      · exact hms
  obtain ⟨ms, hms⟩ := hc
  obtain ⟨a1, a2, _⟩ := chooseInitial_ok hms
  have hne : ms ≠ [] := by
    rintro rfl
    rw [← a2] at hk
    simp [getMedoidIndices] at hk
    omega
  obtain ⟨c, hcost, hspec⟩ := getCost_spec hd a1 hne
  obtain ⟨⟨st, cc⟩, hloop⟩ := kmLoop_ok (tol := tol) (maxIter := maxIter) hd hm 0 _
    (KmInv.initial a1 hne a2 hspec) (le_of_eq hk.symm)
  exact ⟨_, by simp only [runKmedoids, hms, hcost, hloop]; rfl⟩

variable [IsOrderedAddMonoid K]

theorem chain_drop {n : Nat} : ∀ (h : List (List Nat × K)) (a b : List Nat × K),
    h.head? = some a → h.getLast? = some b → h.IsChain (SwapStep n tol) →
    a.2 + (h.length - 1) • tol ≤ b.2 := by
  intro h
  induction h with
  | nil => intro a b ha; cases ha
  | cons x xs ih =>
    intro a b ha hb hc
    simp only [List.head?_cons, Option.some.injEq] at ha
    subst ha
    cases xs with
    | nil =>
      simp at hb; subst hb; simp
    | cons y ys =>
      rw [List.isChain_cons_cons] at hc
      have hb' : (y :: ys).getLast? = some b := by
        rw [List.getLast?_cons_cons] at hb; exact hb
      have h1 := ih y b rfl hb' hc.2
      have h2 : tol < y.2 - x.2 := hc.1.1
      have h3 : x.2 + tol ≤ y.2 := by
        have := (lt_sub_iff_add_lt'.1 h2).le
        exact this
      calc x.2 + ((x :: y :: ys).length - 1) • tol
          = (x.2 + tol) + ((y :: ys).length - 1) • tol := by
            simp only [List.length_cons, Nat.add_sub_cancel, succ_nsmul]; abel
        _ ≤ y.2 + ((y :: ys).length - 1) • tol := by gcongr
        _ ≤ b.2 := h1

/-- **C27**: the medoids in force during the run form a sequence from the initial medoids (cost `c0`)
to the returned ones; each step replaces a single medoid by a sample that is not a medoid and lowers
the total cost by more than `tol`. Hence the final cost is at most `c0` minus `tol` per swap. -/
theorem C27_cost_never_increases (hd : Realises dm X d) (hX : X ≠ [])
    (h : runKmedoids X k dm initial outcome mode maxIter tol verbose = .ok r)
    (c0 : K) (hc0 : TotalCost d X.length (initialIndices initial outcome) c0) :
    r.history.head? = some (r.medoids, r.total) ∧
    r.history.getLast? = some (initialIndices initial outcome, c0) ∧
    (∀ s ∈ r.history, TotalCost d X.length s.1 s.2) ∧
    r.history.IsChain (SwapStep X.length tol) ∧
    r.total + (r.history.length - 1) • tol ≤ c0 ∧
    (0 ≤ tol → r.total ≤ c0) := by
  obtain ⟨st, cc, h1, _, _, _, rfl⟩ := runKmedoids_inv hd hX h
  obtain ⟨c, hc⟩ := h1.last
  have e : c = c0 := (h1.costs _ (List.mem_of_getLast? hc)).unique hc0
  subst e
  have hdrop := chain_drop st.history _ _ h1.head hc h1.chain
  refine ⟨h1.head, hc, h1.costs, h1.chain, hdrop, fun ht => ?_⟩
  refine le_trans ?_ hdrop
  simp only
  exact le_add_of_nonneg_right (nsmul_nonneg ht _)

omit [IsOrderedAddMonoid K] in
/-- **C28**: if the initial medoids are `k` distinct samples then so are the returned medoids. -/
theorem C28_distinct_medoids (hd : Realises dm X d) (hX : X ≠ [])
    (h : runKmedoids X k dm initial outcome mode maxIter tol verbose = .ok r)
    (hk : (initialIndices initial outcome).length = k)
    (hn : (initialIndices initial outcome).Nodup) :
    r.medoids.length = k ∧ r.medoids.Nodup ∧ ∀ m ∈ r.medoids, m < X.length := by
  obtain ⟨st, cc, h1, _, _, _, rfl⟩ := runKmedoids_inv hd hX h
  refine ⟨?_, h1.nodup hn, ?_⟩
  · rw [← hk, ← h1.length]; simp [getMedoidIndices]
  · intro m hm
    obtain ⟨md, hmd, rfl⟩ := List.mem_map.1 hm
    exact (List.getElem?_eq_some_iff.1 (h1.medoids md hmd)).1

omit [IsOrderedAddMonoid K] in
/-- **C29**: k-medoids makes at most `max_iter + 2` passes; if it stopped earlier then replacing any
single medoid by an admissible sample that is not a medoid (any in robust mode, one of the same
cluster in lite mode) lowers the total cost by at most `tol`. -/
theorem C29_bounded_and_swap_optimal (hd : Realises dm X d) (hX : X ≠ [])
    (h : runKmedoids X k dm initial outcome mode maxIter tol verbose = .ok r)
    (hk : (initialIndices initial outcome).length = k) :
    r.passes ≤ maxIter + 2 ∧
    (r.passes < maxIter + 2 → ∀ j < k, ∀ i < X.length, i ∉ r.medoids →
      (mode = .lite → r.labels[i]? = some j) →
      ∀ c, TotalCost d X.length (r.medoids.set j i) c → r.total - c ≤ tol) := by
  obtain ⟨st, cc, h1, _, h3, h4, rfl⟩ := runKmedoids_inv hd hX h
  refine ⟨by simp only; omega, ?_⟩
  intro hp j hj i hi hmem hlite c hc
  simp only at hp hmem hlite hc ⊢
  obtain ⟨is, h5, h6⟩ := h4 (by omega) j hj
  refine h6 i ?_ hi (by rw [h1.length, hk]; exact hj) hmem c hc
  cases mode with
  | lite =>
    simp only [candidates, Except.ok.injEq] at h5
    subst h5
    rw [List.mem_filter, List.mem_range]
    have := hlite rfl
    exact ⟨(List.getElem?_eq_some_iff.1 this).1, by simp [this]⟩
  | robust =>
    simp only [candidates, Except.ok.injEq] at h5
    subst h5
    exact List.mem_range.2 hi
  | other => cases h5

omit [IsOrderedAddMonoid K] in
/-- **C30** (partial): if the distance from a sample to itself is smaller than to any other sample
(e.g. zero diagonal, and different samples at positive distance) then each medoid is labelled with
its own cluster and every cluster has a member. Missing: data with two samples at distance zero,
where it fails (next theorem). -/
theorem C30_medoid_in_own_cluster_partial (hd : Realises dm X d) (hX : X ≠ [])
    (hpos : ∀ a < X.length, ∀ b < X.length, a ≠ b → d a a < d b a)
    (h : runKmedoids X k dm initial outcome mode maxIter tol verbose = .ok r)
    (hk : (initialIndices initial outcome).length = k)
    (hn : (initialIndices initial outcome).Nodup) :
    (∀ (j m : Nat), r.medoids[j]? = some m → r.labels[m]? = some j) ∧ ∀ j < k, j ∈ r.labels := by
  obtain ⟨a1, a2, a3⟩ := C28_distinct_medoids hd hX h hk hn
  have hs := C26_labels_and_costs hd hX h
  have key : ∀ (j m : Nat), r.medoids[j]? = some m → r.labels[m]? = some j := by
    intro j m hj
    have hm := a3 m (List.mem_of_getElem? hj)
    have hml : m < r.labels.length := by rw [hs.labels_len]; exact hm
    obtain ⟨m', h1, h2⟩ := hs.nearest m _ (List.getElem?_eq_getElem hml)
    have h3 := (h2 j m hj).1
    have hm' := a3 m' (List.mem_of_getElem? h1)
    have e : m' = m := by
      by_contra hne
      exact absurd (hpos m hm m' hm' (Ne.symm hne)) (not_lt.2 h3)
    subst e
    rw [List.getElem?_eq_getElem hml]
    congr 1
    by_contra hne
    have hj1 := (List.getElem?_eq_some_iff.1 hj)
    have hj2 := (List.getElem?_eq_some_iff.1 h1)
    exact hne ((List.Nodup.getElem_inj_iff a2).1 (hj2.2.trans hj1.2.symm))
  refine ⟨key, fun j hj => ?_⟩
  rw [← a1] at hj
  exact List.mem_of_getElem? (key j _ (List.getElem?_eq_getElem hj))

omit [IsOrderedAddMonoid K] in
/-- **C30** (partial, for all data): exactly when it holds. A medoid is labelled with its own cluster if and
only if no medoid is nearer to it than it is to itself, and no earlier one is as near; and the report printed
with `verbose=True` fails, with IndexError, if and only if some cluster has no member. -/
theorem C30_when_partial (hd : Realises dm X d) (hX : X ≠ [])
    (h : runKmedoids X k dm initial outcome mode maxIter tol false = .ok r)
    (hk : (initialIndices initial outcome).length = k)
    (hn : (initialIndices initial outcome).Nodup) :
    (∀ (j m : Nat), r.medoids[j]? = some m → (r.labels[m]? = some j ↔
      ∀ (j' m' : Nat), r.medoids[j']? = some m' → d m m ≤ d m' m ∧ (j' < j → d m m < d m' m))) ∧
    ((∀ j < k, j ∈ r.labels) →
      runKmedoids X k dm initial outcome mode maxIter tol true = .ok r) ∧
    ((∃ j < k, j ∉ r.labels) →
      runKmedoids X k dm initial outcome mode maxIter tol true = .error .indexError) := by
  obtain ⟨a1, a2, a3⟩ := C28_distinct_medoids hd hX h hk hn
  have hs := C26_labels_and_costs hd hX h
  have hrun : runKmedoids X k dm initial outcome mode maxIter tol true =
      match showReport k r with
      | .error e => .error e
      | .ok () => .ok r := by
    unfold runKmedoids at h ⊢
    split at h
    · cases h
    rename_i ms hms
    split at h
    · cases h
    rename_i c hc
    split at h
    · cases h
    rename_i st cc hloop
    simp only [Bool.false_eq_true, if_false, Except.ok.injEq] at h
    subst h
    simp only [if_true]
    cases showReport k _ <;> rfl
  have hlab : ∀ l ∈ r.labels, l < k := by
    intro l hl
    obtain ⟨i, hi⟩ := List.mem_iff_getElem?.1 hl
    obtain ⟨m, hm, _⟩ := hs.nearest i l hi
    rw [← a1]
    exact (List.getElem?_eq_some_iff.1 hm).1
  refine ⟨?_, ?_, ?_⟩
  · intro j m hj
    have hm := a3 m (List.mem_of_getElem? hj)
    have hml : m < r.labels.length := by rw [hs.labels_len]; exact hm
    constructor
    · intro hl
      obtain ⟨m', h1, h2⟩ := hs.nearest m j hl
      rw [hj] at h1; cases h1
      exact h2
    · intro hbest
      obtain ⟨m', h1, h2⟩ := hs.nearest m _ (List.getElem?_eq_getElem hml)
      rw [List.getElem?_eq_getElem hml]
      congr 1
      rcases Nat.lt_trichotomy r.labels[m] j with hlt | heq | hgt
      · exact absurd ((hbest _ _ h1).2 hlt) (not_lt.2 (h2 j m hj).1)
      · exact heq
      · exact absurd ((h2 j m hj).2 hgt) (not_lt.2 (hbest _ _ h1).1)
  · intro hall
    have hrep : showReport k r = .ok () := by
      unfold showReport
      rw [if_pos]
      refine ⟨?_, by omega⟩
      have : (List.range k).Subperm r.labels.dedup :=
        List.subperm_of_subset List.nodup_range fun j hj => List.mem_dedup.2 (hall j (List.mem_range.1 hj))
      simpa using this.length_le
    rw [hrun, hrep]
  · rintro ⟨j, hj, hjn⟩
    have hrep : showReport k r = .error .indexError := by
      unfold showReport
      rw [if_neg]
      rintro ⟨hlen, -⟩
      have hsub : r.labels.dedup.Subperm ((List.range k).erase j) :=
        List.subperm_of_subset (List.nodup_dedup _) fun l hl => by
          have hl := List.mem_dedup.1 hl
          rw [List.Nodup.mem_erase_iff List.nodup_range]
          exact ⟨fun e => hjn (e ▸ hl), List.mem_range.2 (hlab l hl)⟩
      have := hsub.length_le
      rw [List.length_erase_of_mem (List.mem_range.2 hj), List.length_range] at this
      omega
    rw [hrun, hrep]

omit [IsOrderedAddMonoid K] in
/-- **C30** (partial): under the same conditions the report printed with `verbose=True` does not
fail, so the result is the same with and without it. -/
theorem C30_verbose_report_partial (hd : Realises dm X d) (hX : X ≠ [])
    (hpos : ∀ a < X.length, ∀ b < X.length, a ≠ b → d a a < d b a)
    (h : runKmedoids X k dm initial outcome mode maxIter tol false = .ok r)
    (hk : (initialIndices initial outcome).length = k)
    (hn : (initialIndices initial outcome).Nodup) :
    runKmedoids X k dm initial outcome mode maxIter tol true = .ok r := by
  obtain ⟨_, b2⟩ := C30_medoid_in_own_cluster_partial hd hX hpos h hk hn
  obtain ⟨a1, _, _⟩ := C28_distinct_medoids hd hX h hk hn
  have hrep : showReport k r = .ok () := by
    unfold showReport
    rw [if_pos]
    refine ⟨?_, by omega⟩
    have : (List.range k).Subperm r.labels.dedup :=
      List.subperm_of_subset List.nodup_range fun j hj => List.mem_dedup.2 (b2 j (List.mem_range.1 hj))
    simpa using this.length_le
  unfold runKmedoids at h ⊢
  split at h
  · cases h
  rename_i ms hms
  split at h
  · cases h
  rename_i c hc
  split at h
  · cases h
  rename_i st cc hloop
  simp only [Bool.false_eq_true, if_false, Except.ok.injEq] at h
  subst h
  simp only [hrep, if_true]

omit [IsOrderedAddMonoid K] in
/-- **C30** (partial, as seen through `partition`): under the same conditions the partition has
exactly `k` clusters and the medoid of each cluster is a member of it. -/
theorem C30_partition_has_k_clusters_partial (hd : Realises dm X d) {xLen yLen : Nat}
    (hXl : X.length = xLen * yLen) (hX : X ≠ [])
    (hpos : ∀ a < X.length, ∀ b < X.length, a ≠ b → d a a < d b a)
    (hk : (initialIndices initial outcome).length = k)
    (hn : (initialIndices initial outcome).Nodup) (pt : Partition) (ms : List Point)
    (h : kmedoidsPartition X xLen yLen k dm initial outcome mode maxIter tol verbose =
      .ok (pt, ms)) :
    pt.k = k ∧ ms.length = k ∧ pt.labels.xLen = xLen ∧ pt.labels.yLen = yLen ∧
      ∀ (j : Nat) (p : Point), ms[j]? = some p → pt.labels.get p = .ok j := by
  unfold kmedoidsPartition at h
  split at h
  · cases h
  rename_i r hr
  obtain ⟨b1, b2⟩ := C30_medoid_in_own_cluster_partial hd hX hpos hr hk hn
  obtain ⟨a1, a2, a3⟩ := C28_distinct_medoids hd hX hr hk hn
  have hs := C26_labels_and_costs hd hX hr
  split at h
  · cases h
  rename_i pt' hpt
  cases h
  have hlab : ∀ l ∈ r.labels, l < k := by
    intro l hl
    obtain ⟨i, hi⟩ := List.mem_iff_getElem?.1 hl
    obtain ⟨m, hm, _⟩ := hs.nearest i l hi
    rw [← a1]
    exact (List.getElem?_eq_some_iff.1 hm).1
  unfold Partition.fromMembershipArray at hpt
  split at hpt
  · cases hpt
  rename_i mx hmx
  rw [if_pos (by rw [hs.labels_len, hXl])] at hpt
  unfold Partition.create at hpt
  simp only [hmx, if_true, Except.ok.injEq] at hpt
  subst hpt
  have hmx' := List.max?_eq_some_iff.1 hmx
  have hmk : mx < k := hlab mx hmx'.1
  refine ⟨?_, by simp [a1], rfl, rfl, ?_⟩
  · simp only
    have := hmx'.2 (k - 1) (b2 (k - 1) (by omega))
    omega
  · intro j p hj
    rw [List.getElem?_map, Option.map_eq_some_iff] at hj
    obtain ⟨m, hm, rfl⟩ := hj
    have hml := a3 m (List.mem_of_getElem? hm)
    rw [hXl] at hml
    have := b1 j m hm
    unfold Grid.get
    rw [if_pos ⟨div_lt_of_lt_mul' hml, mod_lt_of_lt_mul hml⟩]
    simp only [Nat.div_add_mod', this]

/-- **C30 refuted** for data with identical series: with the samples 0 and 1 (at distance zero) as
medoids, cluster 1 is empty, medoid 1 is labelled 0, the partition has one cluster only; and with
the default `verbose=True` the run raises IndexError. -/
theorem C30_medoid_in_own_cluster_refuted :
    runKmedoids [(), ()] 2 (.matrix (⟨2, 2, [0, 0, 0, 0]⟩ : Grid ℚ)) (some [0, 1]) [] .lite 1000
      (1 / 1000) false = .ok ⟨[0, 1], [0, 0], [0, 0], 0, [[0, 0], [0, 0]], 1, [([0, 1], 0)]⟩ ∧
    (∃ pt, kmedoidsPartition [(), ()] 1 2 2 (.matrix (⟨2, 2, [0, 0, 0, 0]⟩ : Grid ℚ))
      (some [0, 1]) [] .lite 1000 (1 / 1000) false = .ok (pt, [⟨0, 0⟩, ⟨0, 1⟩]) ∧ pt.k = 1) ∧
    runKmedoids [(), ()] 2 (.matrix (⟨2, 2, [0, 0, 0, 0]⟩ : Grid ℚ)) (some [0, 1]) [] .lite 1000
      (1 / 1000) true = .error .indexError :=
  ⟨by decide +kernel,
    ⟨⟨⟨1, 2, [0, 0]⟩, 1, 0⟩, by decide +kernel, rfl⟩, by decide +kernel⟩

/-- Distances between the points 0, 1 and 5 of a line. -/
def lineDistances : Grid ℚ := ⟨3, 3, [0, 1, 5, 1, 0, 4, 5, 4, 0]⟩

/-- The entries of `lineDistances`. -/
def lineDist (a i : Nat) : ℚ := |(([0, 1, 5] : List ℚ)[a]?.getD 0) - (([0, 1, 5] : List ℚ)[i]?.getD 0)|

example : Realises (S := Unit) (.matrix lineDistances) [(), (), ()] lineDist :=
  ⟨rfl, rfl, by decide +kernel⟩

example : ∀ a < 3, ∀ b < 3, a ≠ b → lineDist a a < lineDist b a := by decide +kernel

example : runKmedoids [(), (), ()] 1 (.matrix lineDistances) (some [2]) [] .robust 10 0 true =
    .ok ⟨[1], [0, 0, 0], [5], 5, [[1], [0], [4]], 2, [([1], 5), ([0], 6), ([2], 9)]⟩ := by
  decide +kernel

example : runKmedoids [(0 : ℚ), 1, 5] 2 (.function fun a b => |a - b|) none [0, 1] .lite 10 0 true =
    .ok ⟨[0, 2], [0, 0, 1], [1, 0], 1, [[0, 5], [1, 4], [5, 0]], 2, [([0, 2], 1), ([0, 1], 4)]⟩ := by
  decide +kernel

end Spta
