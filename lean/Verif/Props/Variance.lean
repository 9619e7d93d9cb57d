import Verif.Model.Variance
import Verif.Spec.Variance
import Verif.Props.RegularPartition
import Verif.Props.Clusters
import Verif.Props.Util
import Verif.Lemmas.Except
import Mathlib.Data.List.Perm.Basic

/-!
# C84 – C87: histograms of distances
-/

set_option linter.unusedSectionVars false

namespace Spta

variable {K : Type} [Field K] [LinearOrder K] [IsStrictOrderedRing K]

/-! ### C84 -/

/-- The indices of a cluster. -/
theorem allPointIndices_spec {A : Type} {c : ClusterObj A} (hc : c.OK) :
    ∃ inside, c.allPointIndices = .ok inside ∧ inside.Nodup ∧
      (∀ j, j ∈ inside ↔ c.part.labels.data[j]? = some c.index) ∧
      inside.length = c.part.labels.data.count c.index := by
  have hlen : c.part.labels.data.length = c.region.xLen * c.region.yLen := by
    rw [hc.wfL, hc.sx, hc.sy]
  have hall : c.part.membershipOfIndices (List.range (c.region.xLen * c.region.yLen)) =
      .ok c.part.labels.data := by
    apply Partition.membershipOfIndices_eq
    apply List.ext_getElem
    · simp [hlen]
    · intro n h3 h4
      simp only [List.length_map, List.length_range] at h3
      simp [hlen, h3]
  refine ⟨(List.range c.part.labels.data.length).filter fun i => c.part.labels.data[i]? == some c.index,
    ?_, List.nodup_range.filter _, fun j => ?_, ?_⟩
  · simp only [ClusterObj.allPointIndices, hall]
  · simp only [List.mem_filter, List.mem_range, beq_iff_eq, and_iff_right_iff_imp]
    intro h
    exact (List.getElem?_eq_some_iff.1 h).1
  · generalize c.part.labels.data = l
    induction l using List.reverseRecOn with
    | nil => rfl
    | append_singleton l a ih =>
      rw [List.length_append, List.length_singleton, List.range_succ, List.filter_append,
        List.length_append, List.count_append, ← ih]
      congr 1
      · congr 1
        apply List.filter_congr
        intro i hi
        rw [List.getElem?_append_left (List.mem_range.1 hi)]
      · by_cases h : a = c.index <;> simp [h]

theorem outside_card (N : Nat) (inside : List Nat) (hn : inside.Nodup) (hlt : ∀ j ∈ inside, j < N) :
    (Finset.Icc 0 ((N : Int) - 1) \ (inside.map fun i : Nat => (i : Int)).toFinset).card =
      N - inside.length := by
  rw [Finset.card_sdiff_of_subset]
  · rw [Int.card_Icc, List.toFinset_card_of_nodup (hn.map Nat.cast_injective), List.length_map]
    omega
  · intro v hv
    obtain ⟨i, hi, rfl⟩ := List.mem_map.1 (List.mem_toFinset.1 hv)
    have := hlt i hi
    rw [Finset.mem_Icc]; omega

theorem outsideIndices_ok {A : Type} {c : ClusterObj A} (hc : c.OK) (num : Nat) (perm : List Nat)
    (hp : perm.Perm (List.range (c.region.xLen * c.region.yLen - c.part.labels.data.count c.index))) :
    ∃ is, outsideIndices c num perm = (.ok is, is.length) ∧
      OutsidePositions c.part.labels.data c.index is ∧
      is.length = min (if num = 0 then c.part.labels.data.count c.index else num)
        (c.region.xLen * c.region.yLen - c.part.labels.data.count c.index) := by
  have hlen : c.part.labels.data.length = c.region.xLen * c.region.yLen := by
    rw [hc.wfL, hc.sx, hc.sy]
  obtain ⟨inside, h1, h2, h3, h4⟩ := allPointIndices_spec hc
  have hlt : ∀ j ∈ inside, j < c.region.xLen * c.region.yLen := by
    intro j hj
    rw [← hlen]
    exact (List.getElem?_eq_some_iff.1 ((h3 j).1 hj)).1
  have hcard := outside_card (c.region.xLen * c.region.yLen) inside h2 hlt
  rw [← h4] at hp ⊢
  set N := c.region.xLen * c.region.yLen with hN
  set req := if num = 0 then inside.length else num with hreq
  have hnum : (if N - inside.length < req then N - inside.length else req) =
      min req (N - inside.length) := by
    split <;> omega
  obtain ⟨_, hok⟩ := C44_sound (min req (N - inside.length)) 0 ((N : Int) - 1)
    (inside.map fun i : Nat => (i : Int)) perm (by rw [hcard]; exact hp)
  obtain ⟨r, hr, hrl, hrn, hrm⟩ := hok (by rw [hcard]; omega)
  refine ⟨r.map Int.toNat, ?_, ⟨?_, ?_⟩, by rw [List.length_map, hrl]⟩
  · unfold outsideIndices
    simp only [h1, ← hN, ← hreq, hnum, hr, List.length_map, hrl]
  · refine List.Nodup.map_on ?_ hrn
    intro a ha b hb hab
    have := hrm a ha; have := hrm b hb
    omega
  · intro j hj
    obtain ⟨v, hv, rfl⟩ := List.mem_map.1 hj
    obtain ⟨ha, hb, hn⟩ := hrm v hv
    have hvn : v.toNat < c.part.labels.data.length := by rw [hlen]; omega
    refine ⟨_, List.getElem?_eq_getElem hvn, fun he => hn ?_⟩
    refine List.mem_map.2 ⟨v.toNat, (h3 _).2 ?_, by omega⟩
    rw [List.getElem?_eq_getElem hvn, he]

/-- **C84**: whatever the random outcome, the random points of a cluster are different points of the region
outside of the cluster; their number is the requested one, or that of the points of the cluster if zero was
requested, but never more than there are points outside. -/
theorem C84_outside {A : Type} (pt : Partition) (hv : pt.Valid) (g : Grid A) (hg : g.WF) (i num : Nat)
    (c : ClusterObj A) (hc : pt.createCluster g i = .ok c) (perm : List Nat)
    (hp : perm.Perm (List.range (g.xLen * g.yLen - pt.labels.data.count i))) :
    ∃ is num', outsideIndices c num perm = (.ok is, num') ∧ OutsidePositions pt.labels.data i is ∧
      is.length = min (if num = 0 then pt.labels.data.count i else num)
        (g.xLen * g.yLen - pt.labels.data.count i) := by
  unfold Partition.createCluster at hc
  split at hc
  · rename_i hs
    cases hc
    have hok : (⟨g, pt, i, 0⟩ : ClusterObj A).OK := ⟨hg, hv.wf, hs.1, hs.2⟩
    obtain ⟨is, h1, h2, h3⟩ := outsideIndices_ok hok num perm hp
    exact ⟨is, _, h1, h2, h3⟩
  · cases hc

example : ∃ c, examplePartition.createCluster (Grid.mk 2 3 [10, 11, 12, 13, 14, 15]) 2 = .ok c ∧
    examplePartition.labels.data.count 2 = 3 ∧ outsideIndices c 2 [1, 2, 0] = (.ok [3, 4], 2) :=
  ⟨_, rfl, by decide, by decide⟩

/-- **C84**: every set of such points, in any order, is a possible outcome. -/
theorem C84_complete {A : Type} (pt : Partition) (hv : pt.Valid) (g : Grid A) (hg : g.WF) (i num : Nat)
    (c : ClusterObj A) (hc : pt.createCluster g i = .ok c) (is : List Nat)
    (ho : OutsidePositions pt.labels.data i is) (hn : is.length = num) (hpos : 0 < num) :
    ∃ perm : List Nat, perm.Perm (List.range (g.xLen * g.yLen - pt.labels.data.count i)) ∧
      outsideIndices c num perm = (.ok is, num) := by
  unfold Partition.createCluster at hc
  split at hc
  · rename_i hs
    cases hc
    have hok : (⟨g, pt, i, 0⟩ : ClusterObj A).OK := ⟨hg, hv.wf, hs.1, hs.2⟩
    have hlen : pt.labels.data.length = g.xLen * g.yLen := by rw [hv.wf, hs.1, hs.2]
    obtain ⟨inside, h1, h2, h3, h4⟩ := allPointIndices_spec hok
    simp only at h3 h4
    have hlt : ∀ j ∈ inside, j < g.xLen * g.yLen := by
      intro j hj
      rw [← hlen]
      exact (List.getElem?_eq_some_iff.1 ((h3 j).1 hj)).1
    have hcard := outside_card (g.xLen * g.yLen) inside h2 hlt
    have hisl : ∀ j ∈ is, j < g.xLen * g.yLen ∧ j ∉ inside := by
      intro j hj
      obtain ⟨l, hl, hne⟩ := ho.outside j hj
      refine ⟨hlen ▸ (List.getElem?_eq_some_iff.1 hl).1, fun hm => hne ?_⟩
      rw [h3, hl] at hm
      exact Option.some.inj hm
    obtain ⟨perm, hperm, hr⟩ := C44_complete 0 (((g.xLen * g.yLen : Nat) : Int) - 1)
      (inside.map fun i : Nat => (i : Int)) (is.map fun i : Nat => (i : Int))
      (ho.nodup.map Nat.cast_injective) (by
        intro v hv
        obtain ⟨j, hj, rfl⟩ := List.mem_map.1 hv
        obtain ⟨ha, hb⟩ := hisl j hj
        refine ⟨by omega, by omega, fun hm => hb ?_⟩
        obtain ⟨j', hj', he⟩ := List.mem_map.1 hm
        have : j' = j := by exact_mod_cast he
        rwa [← this])
    rw [hcard, h4] at hperm
    refine ⟨perm, hperm, ?_⟩
    have hle : is.length + inside.length ≤ g.xLen * g.yLen := by
      rw [← List.length_append]
      have hnd : (is ++ inside).Nodup :=
        List.nodup_append.2 ⟨ho.nodup, h2, fun a ha b hb hab => (hisl a ha).2 (hab ▸ hb)⟩
      have := hnd.subperm (l₂ := List.range (g.xLen * g.yLen)) (by
        intro j hj
        rw [List.mem_range]
        rcases List.mem_append.1 hj with h | h
        · exact (hisl j h).1
        · exact hlt j h)
      simpa using this.length_le
    unfold outsideIndices
    rw [List.length_map, hn] at hr
    simp only [h1, if_neg (Nat.pos_iff_ne_zero.1 hpos), if_neg (show ¬ g.xLen * g.yLen - inside.length < num by omega),
      hr, List.map_map]
    congr 2
    conv_rhs => rw [← List.map_id is]
    apply List.map_congr_left
    intro j _
    simp
  · cases hc

/-- **C84**: the number of points is settled by the first access: a later one, with the number that the
first has left and any other random outcome, finds as many points. -/
theorem C84_stable {A : Type} (pt : Partition) (hv : pt.Valid) (g : Grid A) (hg : g.WF) (i num num' : Nat)
    (c : ClusterObj A) (hc : pt.createCluster g i = .ok c) (perm perm' is : List Nat)
    (hp : perm.Perm (List.range (g.xLen * g.yLen - pt.labels.data.count i)))
    (hp' : perm'.Perm (List.range (g.xLen * g.yLen - pt.labels.data.count i)))
    (h : outsideIndices c num perm = (.ok is, num')) :
    ∃ is', outsideIndices c num' perm' = (.ok is', num') ∧ is'.length = is.length := by
  unfold Partition.createCluster at hc
  split at hc
  · rename_i hs
    cases hc
    have hok : (⟨g, pt, i, 0⟩ : ClusterObj A).OK := ⟨hg, hv.wf, hs.1, hs.2⟩
    obtain ⟨is₁, h1, _, h3⟩ := outsideIndices_ok hok num perm hp
    rw [h] at h1
    cases h1
    obtain ⟨is₂, h1', _, h3'⟩ := outsideIndices_ok hok is.length perm' hp'
    have : is₂.length = is.length := by
      rw [h3', h3]
      simp only
      split_ifs <;> omega
    exact ⟨is₂, by rw [h1', this], this⟩
  · cases hc

example : ∃ c, examplePartition.createCluster (Grid.mk 2 3 [10, 11, 12, 13, 14, 15]) 2 = .ok c ∧
    outsideIndices c 9 [1, 2, 0] = (.ok [3, 4, 0], 3) ∧ outsideIndices c 3 [0, 1, 2] = (.ok [0, 3, 4], 3) :=
  ⟨_, rfl, by decide, by decide⟩

/-! ### C85 -/

theorem sortedValues_perm (l : List K) : (sortedValues l).Perm l := List.perm_insertionSort _ l

theorem sortedValues_sorted (l : List K) : (sortedValues l).Pairwise (· ≤ ·) :=
  List.pairwise_insertionSort (· ≤ ·) l

theorem foldl_max (l : List K) (a : K) : IsMaxOf (a :: l) (l.foldl max a) := by
  induction l generalizing a with
  | nil => exact ⟨List.mem_cons_self, fun x hx => by simp at hx; exact hx.le⟩
  | cons b l ih =>
    obtain ⟨h1, h2⟩ := ih (max a b)
    rw [List.foldl_cons]
    constructor
    · rcases List.mem_cons.1 h1 with h | h
      · rw [h]
        rcases max_choice a b with h' | h' <;> rw [h'] <;> simp
      · exact List.mem_cons_of_mem _ (List.mem_cons_of_mem _ h)
    · intro x hx
      have h3 := h2 _ List.mem_cons_self
      rcases List.mem_cons.1 hx with rfl | hx
      · exact (le_max_left _ _).trans h3
      · rcases List.mem_cons.1 hx with rfl | hx
        · exact (le_max_right _ _).trans h3
        · exact h2 x (List.mem_cons_of_mem _ hx)

theorem npMax_ok {l : List K} {v : K} (h : npMax l = .ok v) : IsMaxOf l v := by
  cases l with
  | nil => cases h
  | cons a l => cases h; exact foldl_max l a

theorem secondSmallest_spec {l : List K} {v : K} (h : secondSmallest l = .ok v) (p : Nat) (z : K)
    (hz : l[p]? = some z) (hmin : ∀ x ∈ l, z ≤ x) : IsMinExcept l p v := by
  have hp := sortedValues_perm l
  have hs := sortedValues_sorted l
  unfold secondSmallest at h
  generalize sortedValues l = s at *
  rcases s with _ | ⟨a, _ | ⟨b, t⟩⟩
  · cases h
  · cases h
  · cases h
    obtain ⟨hlt, hzv⟩ := List.getElem?_eq_some_iff.1 hz
    have hza : z = a := by
      apply le_antisymm (hmin a (hp.subset List.mem_cons_self))
      have : z ∈ a :: v :: t := hp.symm.subset (hzv ▸ List.getElem_mem hlt)
      rcases List.mem_cons.1 this with rfl | h
      · exact le_refl _
      · exact (List.pairwise_cons.1 hs).1 z h
    have hpe := (List.getElem_cons_eraseIdx_perm hlt).trans hp.symm
    rw [hzv, hza] at hpe
    have hpe := hpe.cons_inv
    have hs2 := (List.pairwise_cons.1 (List.pairwise_cons.1 hs).2).1
    constructor
    · exact List.mem_eraseIdx_iff_getElem?.1 (hpe.symm.subset List.mem_cons_self)
    · intro q x hq hx
      have hm : x ∈ l.eraseIdx p := List.mem_eraseIdx_iff_getElem?.2 ⟨q, hq, hx⟩
      rcases List.mem_cons.1 (hpe.subset hm) with rfl | h
      · exact le_refl _
      · exact hs2 x h

theorem medianOf_spec {l : List K} (hl : l ≠ []) : IsMedianOf l (medianOf l) := by
  refine ⟨sortedValues l, sortedValues_perm l, sortedValues_sorted l, ?_⟩
  have hlen : (sortedValues l).length = l.length := (sortedValues_perm l).length_eq
  have hpos : 0 < l.length := List.length_pos_iff.2 hl
  unfold medianOf
  simp only
  split_ifs with h
  · left
    refine ⟨l.length / 2, by omega, ?_⟩
    have : l.length / 2 < (sortedValues l).length := by omega
    simp [List.getD, List.getElem?_eq_getElem this]
  · right
    have h1 : l.length / 2 - 1 < (sortedValues l).length := by omega
    have h2 : l.length / 2 < (sortedValues l).length := by omega
    have h3 : l.length / 2 - 1 + 1 = l.length / 2 := by omega
    refine ⟨l.length / 2 - 1, _, _, by omega, List.getElem?_eq_getElem h1,
      by rw [h3]; exact List.getElem?_eq_getElem h2, ?_⟩
    simp only [List.getD, List.getElem?_eq_getElem h1, List.getElem?_eq_getElem h2, Option.getD_some]
    field_simp

theorem statistics_eq {n : Nat} {ds : HistDistances K} {st : Stats K} (h : statistics n ds = .ok st) :
    secondSmallest ds.cluster = .ok st.min ∧ npMax ds.cluster = .ok st.max ∧ st.n = n ∧
      st.mean = meanOf ds.cluster ∧
      st.variance = meanOf (ds.cluster.map fun d => (d - st.mean) * (d - st.mean)) ∧
      st.median = medianOf ds.cluster ∧
      st.random = ds.random.map fun rs => (rs.length, rs.countP fun r => r < st.max) := by
  unfold statistics at h
  split at h
  · cases h
  · rename_i low h1
    split at h
    · cases h
    · rename_i high h2
      cases h
      exact ⟨h1, h2, rfl, rfl, rfl, rfl, rfl⟩

/-- **C85**: the numbers shown for the distances of a cluster are their number, maximum, mean, mean squared
deviation and median, and those for random points their number and how many of them are nearer than the
farthest point of the cluster. -/
theorem C85_numbers (ds : HistDistances K) (st : Stats K)
    (h : statistics ds.cluster.length ds = .ok st) :
    st.n = ds.cluster.length ∧ IsMaxOf ds.cluster st.max ∧
      st.mean * (ds.cluster.length : K) = ds.cluster.sum ∧
      st.variance * (ds.cluster.length : K) = (ds.cluster.map fun d => (d - st.mean) ^ 2).sum ∧
      IsMedianOf ds.cluster st.median ∧ (st.random = none ↔ ds.random = none) ∧
      ∀ rs, ds.random = some rs → ∃ near, st.random = some (rs.length, near) ∧
        near = (rs.filter fun r => decide (∃ d ∈ ds.cluster, r < d)).length := by
  obtain ⟨_, h2, h3, h4, h5, h6, h7⟩ := statistics_eq h
  have hmax := npMax_ok h2
  have hne : ds.cluster ≠ [] := fun he => by rw [he] at hmax; exact absurd hmax.1 (by simp)
  have hlen : (ds.cluster.length : K) ≠ 0 := by
    exact_mod_cast (List.length_pos_iff.2 hne).ne'
  refine ⟨h3, hmax, ?_, ?_, h6 ▸ medianOf_spec hne, by rw [h7]; simp, ?_⟩
  · rw [h4, meanOf, div_mul_cancel₀ _ hlen]
  · rw [h5, meanOf, List.length_map, div_mul_cancel₀ _ hlen]
    simp only [pow_two]
  · intro rs hrs
    refine ⟨_, by rw [h7, hrs, Option.map_some], ?_⟩
    rw [List.countP_eq_length_filter]
    congr 1
    apply List.filter_congr
    intro r _
    rw [decide_eq_decide]
    exact ⟨fun hr => ⟨_, hmax.1, hr⟩, fun ⟨d, hd, hr⟩ => hr.trans_le (hmax.2 d hd)⟩

example : statistics (K := ℚ) 4 ⟨[3, 0, 1, 4], some [2, 5, 4]⟩ =
    .ok ⟨4, 1, 4, 2, 5 / 2, 2, some (3, 1)⟩ := by decide +kernel

/-- **C85**: a cluster has statistics if and only if it has two points; otherwise ValueError is raised. -/
theorem C85_exactly (n : Nat) (ds : HistDistances K) :
    (2 ≤ ds.cluster.length → ∃ st, statistics n ds = .ok st) ∧
      (ds.cluster.length < 2 → statistics n ds = .error .valueError) := by
  have hlen : (sortedValues ds.cluster).length = ds.cluster.length :=
    (sortedValues_perm _).length_eq
  constructor
  · intro h
    unfold statistics secondSmallest
    rw [List.getElem?_eq_getElem (by omega)]
    obtain ⟨v, hv⟩ : ∃ v, npMax ds.cluster = .ok v := by
      cases hc : ds.cluster with
      | nil => rw [hc] at h; simp at h
      | cons a l => exact ⟨_, rfl⟩
    simp only [hv]
    exact ⟨_, rfl⟩
  · intro h
    unfold statistics secondSmallest
    rw [List.getElem?_eq_none (by omega)]

example : statistics (K := ℚ) 1 ⟨[0], none⟩ = .error .valueError := by decide +kernel

/-- The distances of the members of a cluster to the centroid, as the histogram takes them. -/
theorem distances_cluster {A : Type} {m : Grid K} {perm : List Nat} {h h' : Histogram A}
    {ds : HistDistances K} (hd : h.distances m perm = (.ok ds, h')) :
    ∃ inside, h.cluster.allPointIndices = .ok inside ∧
      distancesToPointWithMatrix m h.cluster.region.yLen h.centroid inside = .ok ds.cluster ∧
      h'.cluster = h.cluster ∧ h'.centroid = h.centroid ∧
      (h.random = none → ds.random = none ∧ h'.random = none) ∧
      (∀ num, h.random = some num → inside.length ≠ h.cluster.region.xLen * h.cluster.region.yLen ∧
        ∃ outside num' rs, outsideIndices h.cluster num perm = (.ok outside, num') ∧
        distancesToPointWithMatrix m h.cluster.region.yLen h.centroid outside = .ok rs ∧
        ds.random = some rs ∧ h'.random = some num') := by
  unfold Histogram.distances at hd
  split at hd
  · cases hd
  · rename_i inside h1
    refine ⟨inside, h1, ?_⟩
    split at hd
    · cases hd
    · rename_i dss h2
      split at hd
      · rename_i h3
        cases hd
        exact ⟨h2, rfl, rfl, fun _ => ⟨rfl, h3⟩, fun num hn => by rw [h3] at hn; cases hn⟩
      · rename_i num h3
        split at hd
        · cases hd
        · rename_i outside num' h4
          split_ifs at hd with h5
          · cases hd
          · split at hd
            · cases hd
            · rename_i rs h6
              cases hd
              refine ⟨h2, rfl, rfl, (fun hn => by rw [h3] at hn; cases hn), fun num₁ hn => ?_⟩
              rw [h3] at hn
              cases hn
              exact ⟨h5, outside, num', rs, h4, h6, rfl, rfl⟩

/-- **C85**: for a cluster that contains its centroid, and distances that are zero from the centroid to
itself and not negative, the minimum shown is the smallest distance of the other points of the cluster. -/
theorem C85_minimum {A : Type} (pt : Partition) (hv : pt.Valid) (g : Grid A) (hg : g.WF) (i : Nat)
    (c : ClusterObj A) (hc : pt.createCluster g i = .ok c) (m : Grid K) (p : Point)
    (hpx : p.x < g.xLen) (hpy : p.y < g.yLen) (hmem : pt.labels.get p = .ok i)
    (hzero : m.get ⟨p.x * g.yLen + p.y, p.x * g.yLen + p.y⟩ = .ok 0)
    (hnn : ∀ q d, m.get q = .ok d → 0 ≤ d)
    (random : Option Nat) (perm : List Nat) (ds : HistDistances K) (h' : Histogram A)
    (hd : Histogram.distances m perm ⟨c, p, random⟩ = (.ok ds, h'))
    (n : Nat) (st : Stats K) (hst : statistics n ds = .ok st) :
    (∃ q : Point, q ≠ p ∧ q.x < g.xLen ∧ q.y < g.yLen ∧ pt.labels.get q = .ok i ∧
      m.get ⟨p.x * g.yLen + p.y, q.x * g.yLen + q.y⟩ = .ok st.min) ∧
    ∀ (q : Point), q ≠ p → q.x < g.xLen → q.y < g.yLen → pt.labels.get q = .ok i →
      ∃ d, m.get ⟨p.x * g.yLen + p.y, q.x * g.yLen + q.y⟩ = .ok d ∧ st.min ≤ d := by
  unfold Partition.createCluster at hc
  split at hc
  · rename_i hs
    cases hc
    have hok : (⟨g, pt, i, 0⟩ : ClusterObj A).OK := ⟨hg, hv.wf, hs.1, hs.2⟩
    obtain ⟨inside, h1, h2, h3, _⟩ := allPointIndices_spec hok
    obtain ⟨inside', h1', h4, _⟩ := distances_cluster hd
    simp only at h1' h4 h3
    rw [h1] at h1'
    cases h1'
    have hf := mapM_eq_ok.1 h4
    have hlab : ∀ q : Point, pt.labels.get q = .ok i ↔
        (q.x < g.xLen ∧ q.y < g.yLen ∧ pt.labels.data[q.x * g.yLen + q.y]? = some i) := by
      intro q
      rw [Grid.get_eq_ok_iff, hs.1, hs.2]
    have hin : ∀ q : Point, q.x < g.xLen → q.y < g.yLen → pt.labels.get q = .ok i →
        ∃ (k : Nat) (d : K), inside[k]? = some (q.x * g.yLen + q.y) ∧ ds.cluster[k]? = some d ∧
          m.get ⟨p.x * g.yLen + p.y, q.x * g.yLen + q.y⟩ = .ok d := by
      intro q hqx hqy hq
      have hm : q.x * g.yLen + q.y ∈ inside := (h3 _).2 ((hlab q).1 hq).2.2
      obtain ⟨k, hk, hkv⟩ := List.getElem_of_mem hm
      have hk' : k < ds.cluster.length := by rw [← hf.length_eq]; exact hk
      have := (List.forall₂_iff_get.1 hf).2 k hk hk'
      simp only [List.get_eq_getElem, hkv] at this
      exact ⟨k, ds.cluster[k], by rw [List.getElem?_eq_getElem hk, hkv], List.getElem?_eq_getElem hk', this⟩
    obtain ⟨kp, z, hk1, hk2, hk3⟩ := hin p hpx hpy hmem
    rw [hzero] at hk3
    cases hk3
    have hmin : ∀ x ∈ ds.cluster, 0 ≤ x := by
      intro x hx
      obtain ⟨k, hk, rfl⟩ := List.getElem_of_mem hx
      exact hnn _ _ ((List.forall₂_iff_get.1 hf).2 k (by rw [hf.length_eq]; exact hk) hk)
    obtain ⟨⟨q, hq1, hq2⟩, hq3⟩ := secondSmallest_spec (statistics_eq hst).1 kp 0 hk2 hmin
    constructor
    · obtain ⟨hqlt, hqv⟩ := List.getElem?_eq_some_iff.1 hq2
      have hqi : q < inside.length := by rw [hf.length_eq]; exact hqlt
      have hget := (List.forall₂_iff_get.1 hf).2 q hqi hqlt
      simp only [List.get_eq_getElem, hqv] at hget
      have hmemq := (h3 _).1 (List.getElem_mem hqi)
      have hlt : inside[q] < g.xLen * g.yLen := by
        have := (List.getElem?_eq_some_iff.1 hmemq).1
        rwa [hv.wf, hs.1, hs.2] at this
      have hy0 : 0 < g.yLen := by omega
      have hdm : inside[q] / g.yLen * g.yLen + inside[q] % g.yLen = inside[q] := idx_of_div_mod _ _
      have hxl : inside[q] / g.yLen < g.xLen := div_lt_of_lt_mul' hlt
      have hyl : inside[q] % g.yLen < g.yLen := Nat.mod_lt _ hy0
      refine ⟨⟨inside[q] / g.yLen, inside[q] % g.yLen⟩, ?_, hxl, hyl, ?_, ?_⟩
      · intro he
        apply hq1
        have hpe : p.x * g.yLen + p.y = inside[q] := by rw [← he]; exact hdm
        obtain ⟨hkl, hkv⟩ := List.getElem?_eq_some_iff.1 hk1
        exact (h2.getElem_inj_iff).1 (by rw [hkv, hpe])
      · exact (hlab _).2 ⟨hxl, hyl, by simpa only [hdm] using hmemq⟩
      · simpa only [hdm] using hget
    · intro q' hne hx hy hl
      obtain ⟨k, d, hk1', hk2', hk3'⟩ := hin q' hx hy hl
      refine ⟨d, hk3', hq3 k d ?_ hk2'⟩
      rintro rfl
      rw [hk1] at hk1'
      obtain ⟨h5, h6⟩ := idx_inj hpy hy (Option.some.inj hk1')
      apply hne
      cases p; cases q'
      simp_all
  · cases hc

example : ∃ c, examplePartition.createCluster (Grid.mk 2 3 [10, 11, 12, 13, 14, 15]) 2 = .ok c ∧
    examplePartition.labels.get ⟨0, 2⟩ = .ok 2 ∧
    (Histogram.distances (K := ℚ) (Grid.mk 6 6 ((List.range 36).map fun n =>
      ((n / 6 : Nat) - (n % 6 : Nat) : ℚ) ^ 2)) [] ⟨c, ⟨0, 2⟩, none⟩).1 = .ok ⟨[1, 0, 9], none⟩ ∧
    (statistics (K := ℚ) 3 ⟨[1, 0, 9], none⟩).map Stats.min = .ok 1 :=
  ⟨_, rfl, by decide, by decide +kernel, by decide +kernel⟩

/-! ### C86, C87 -/

theorem maxWith_le (a : K) (b : Option K) : a ≤ maxWith a b ∧ (∀ x, b = some x → x ≤ maxWith a b) ∧
    (maxWith a b = a ∨ b = some (maxWith a b)) := by
  cases b with
  | none => exact ⟨le_refl _, (by simp), Or.inl rfl⟩
  | some x =>
    refine ⟨le_max_left _ _, fun y hy => ?_, ?_⟩
    · cases hy; exact le_max_right _ _
    · rcases max_choice a x with h | h
      · exact Or.inl h
      · right; simp only [maxWith, h]

theorem maxDistance_ok {ds : HistDistances K} {o : Option K} {b : K} (h : maxDistance ds o = .ok b) :
    (∀ d ∈ ds.cluster, d ≤ b) ∧ (∀ rs, ds.random = some rs → ∀ d ∈ rs, d ≤ b) ∧
      (∀ x, o = some x → x ≤ b) ∧
      (o = some b ∨ b ∈ ds.cluster ∨ ∃ rs, ds.random = some rs ∧ b ∈ rs) := by
  unfold maxDistance at h
  split at h
  · cases h
  · rename_i a h1
    have ha := npMax_ok h1
    split at h
    · rename_i h2
      cases h
      obtain ⟨h3, h4, h5⟩ := maxWith_le a o
      refine ⟨fun d hd => (ha.2 d hd).trans h3, (fun rs hrs => by rw [h2] at hrs; cases hrs), h4, ?_⟩
      rcases h5 with h5 | h5
      · rw [h5]; exact Or.inr (Or.inl ha.1)
      · exact Or.inl h5
    · rename_i rs h2
      split at h
      · cases h
      · rename_i r h3
        have hr := npMax_ok h3
        cases h
        obtain ⟨h4, h5, h6⟩ := maxWith_le (max a r) o
        refine ⟨fun d hd => (ha.2 d hd).trans ((le_max_left _ _).trans h4), ?_, h5, ?_⟩
        · intro rs' hrs d hd
          rw [h2] at hrs; cases hrs
          exact (hr.2 d hd).trans ((le_max_right _ _).trans h4)
        · rcases h6 with h6 | h6
          · rw [h6]
            rcases max_choice a r with h7 | h7
            · rw [h7]; exact Or.inr (Or.inl ha.1)
            · rw [h7]; exact Or.inr (Or.inr ⟨rs, h2, hr.1⟩)
          · exact Or.inl h6

theorem histMaxLoop_ok {A : Type} (m : Grid K) : ∀ (hs : List (Histogram A)) (perms : List (List Nat))
    (best r : Option K) (hs' : List (Histogram A)), histMaxLoop m hs perms best = .ok (r, hs') →
    hs'.length = hs.length ∧ (∀ x, best = some x → ∃ R, r = some R ∧ x ≤ R) ∧
    (∀ (i : Nat) (h : Histogram A), hs[i]? = some h → ∃ ds h' R,
      h.distances m (perms.getD i []) = (.ok ds, h') ∧ hs'[i]? = some h' ∧ r = some R ∧
      (∀ d ∈ ds.cluster, d ≤ R) ∧ ∀ rs, ds.random = some rs → ∀ d ∈ rs, d ≤ R) ∧
    (r = best ∨ ∃ (i : Nat) (h : Histogram A) (ds : HistDistances K) (h' : Histogram A) (R : K),
      hs[i]? = some h ∧ h.distances m (perms.getD i []) = (.ok ds, h') ∧ r = some R ∧
      (R ∈ ds.cluster ∨ ∃ rs, ds.random = some rs ∧ R ∈ rs))
  | [], perms, best, r, hs', h => by
    cases h
    exact ⟨rfl, fun x hx => ⟨x, hx, le_refl _⟩, (by simp), Or.inl rfl⟩
  | h :: hs, perms, best, r, hs', hm => by
    unfold histMaxLoop at hm
    split at hm
    · cases hm
    · rename_i ds h' h1
      split at hm
      · cases hm
      · rename_i b h2
        split at hm
        · cases hm
        · rename_i r' hs'' h3
          cases hm
          obtain ⟨i1, i2, i3, i4⟩ := histMaxLoop_ok m hs perms.tail (some b) r hs'' h3
          obtain ⟨j1, j2, j3, j4⟩ := maxDistance_ok h2
          obtain ⟨R, hR, hbR⟩ := i2 b rfl
          have htail : ∀ i, perms.tail.getD i [] = perms.getD (i + 1) [] := by
            intro i; cases perms <;> simp
          have hhead : perms.headD [] = perms.getD 0 [] := by cases perms <;> rfl
          rw [hhead] at h1
          refine ⟨by simp [i1], fun x hx => ⟨R, hR, (j3 x hx).trans hbR⟩, ?_, ?_⟩
          · intro i hi hget
            cases i with
            | zero =>
              cases hget
              exact ⟨ds, h', R, h1, rfl, hR, fun d hd => (j1 d hd).trans hbR,
                fun rs hrs d hd => (j2 rs hrs d hd).trans hbR⟩
            | succ i =>
              obtain ⟨ds', h'', R', k1, k2, k3⟩ := i3 i hi (by simpa using hget)
              rw [htail] at k1
              exact ⟨ds', h'', R', k1, by simpa using k2, k3⟩
          · rcases i4 with i4 | ⟨i, hi, ds', h'', R', k1, k2, k3, k4⟩
            · rcases j4 with j4 | j4
              · exact Or.inl (i4.trans j4.symm)
              · exact Or.inr ⟨0, h, ds, h', b, rfl, h1, i4, j4⟩
            · rw [htail] at k2
              exact Or.inr ⟨i + 1, hi, ds', h'', R', by simpa using k1, k2, k3, k4⟩

theorem histPlotLoop_ok {A : Type} (m : Grid K) (ws : Bool) (divX divY : Nat) (limit : Option K) :
    ∀ (hs : List (Histogram A)) (perms : List (List Nat)) (n : Nat) (out : List (Subplot K)),
    histPlotLoop m ws divX divY limit hs perms n = .ok out →
    out.length = hs.length ∧ ∀ (i : Nat) (h : Histogram A), hs[i]? = some h →
      ∃ (pos : Nat × Nat) (ds : HistDistances K) (h' : Histogram A) (st : Option (Stats K)),
        subplotAt divX divY (n + i) = .ok pos ∧ h.distances m (perms.getD i []) = (.ok ds, h') ∧
        (ws = true → ∃ s, st = some s ∧ statistics ds.cluster.length ds = .ok s) ∧
        (ws = false → st = none) ∧
        out[i]? = some ⟨pos, ds, st, limit.filter (· ≠ 0)⟩
  | [], perms, n, out, h => by
    cases h
    exact ⟨rfl, by simp⟩
  | h :: hs, perms, n, out, hm => by
    unfold histPlotLoop at hm
    split at hm
    · cases hm
    · rename_i pos h1
      split at hm
      · cases hm
      · rename_i ds h' h2
        split at hm
        · cases hm
        · rename_i st h3
          split at hm
          · cases hm
          · rename_i rest h4
            cases hm
            obtain ⟨i1, i2⟩ := histPlotLoop_ok m ws divX divY limit hs perms.tail (n + 1) rest h4
            have htail : ∀ i, perms.tail.getD i [] = perms.getD (i + 1) [] := by
              intro i; cases perms <;> simp
            have hhead : perms.headD [] = perms.getD 0 [] := by cases perms <;> rfl
            rw [hhead] at h2
            refine ⟨by simp [i1], fun i hi hget => ?_⟩
            cases i with
            | zero =>
              cases hget
              refine ⟨pos, ds, h', st, h1, h2, ?_, ?_, rfl⟩
              · intro hw
                rw [if_pos hw] at h3
                cases hs3 : statistics ds.cluster.length ds with
                | error e => rw [hs3] at h3; cases h3
                | ok s => rw [hs3] at h3; cases h3; exact ⟨s, rfl, rfl⟩
              · intro hw
                rw [if_neg (by simp [hw])] at h3
                cases h3; rfl
            | succ i =>
              obtain ⟨pos', ds', h'', st', k1, k2, k3⟩ := i2 i hi (by simpa using hget)
              rw [htail] at k2
              exact ⟨pos', ds', h'', st', by rw [← k1]; congr 1; omega, k2, by simpa using k3⟩

/-- What a successful plot shows for every cluster, with the two random draws. -/
theorem plotClusters_ok {A : Type} {m : Grid K} {clusters : List (ClusterObj A × Point)}
    {random : Option Nat} {ws : Bool} {perms perms' : List (List Nat)} {out : List (Subplot K)}
    (h : plotClusters m clusters random ws perms perms' = .ok out) :
    ∃ c₀ dx dy L, clusters[0]? = some c₀ ∧
      twoBalancedDivisorsOrderXY clusters.length c₀.1.region.xLen c₀.1.region.yLen = .ok (dx, dy) ∧
      out.length = clusters.length ∧
      (∀ (i : Nat) (c : ClusterObj A × Point), clusters[i]? = some c →
        ∃ (pos : Nat × Nat) (ds ds' : HistDistances K) (h' h'' : Histogram A) (st : Option (Stats K)),
          subplotAt dx dy i = .ok pos ∧
          Histogram.distances m (perms.getD i []) ⟨c.1, c.2, random⟩ = (.ok ds, h') ∧
          h'.distances m (perms'.getD i []) = (.ok ds', h'') ∧ ds'.cluster = ds.cluster ∧
          h'.cluster = c.1 ∧ h'.centroid = c.2 ∧
          (random = none → ds.random = none ∧ ds'.random = none) ∧
          (ws = true → ∃ s, st = some s ∧ statistics ds'.cluster.length ds' = .ok s) ∧
          (ws = false → st = none) ∧
          out[i]? = some ⟨pos, ds', st, (some L).filter (· ≠ 0)⟩ ∧
          (∀ d ∈ ds.cluster, d ≤ L) ∧ ∀ rs, ds.random = some rs → ∀ d ∈ rs, d ≤ L) ∧
      ∃ (i : Nat) (c : ClusterObj A × Point) (ds : HistDistances K) (h' : Histogram A),
        clusters[i]? = some c ∧
        Histogram.distances m (perms.getD i []) ⟨c.1, c.2, random⟩ = (.ok ds, h') ∧
        (L ∈ ds.cluster ∨ ∃ rs, ds.random = some rs ∧ L ∈ rs) := by
  unfold plotClusters at h
  split at h
  · cases h
  · rename_i c₀ p₀ cs
    split at h
    · cases h
    · rename_i dx dy h1
      split at h
      · cases h
      · rename_i limit hs h2
        obtain ⟨i1, _, i3, i4⟩ := histMaxLoop_ok m _ _ _ _ _ h2
        obtain ⟨j1, j2⟩ := histPlotLoop_ok m ws dx dy limit hs perms' 0 out h
        rw [List.length_map] at i1
        obtain ⟨ds₀, h₀, L, k1, k2, k3, k4⟩ := i3 0 ⟨c₀, p₀, random⟩ rfl
        subst k3
        refine ⟨(c₀, p₀), dx, dy, L, rfl, h1, j1.trans i1, ?_, ?_⟩
        · intro i c hc
          obtain ⟨ds, h', R, l1, l2, l3, l4, l5⟩ := i3 i ⟨c.1, c.2, random⟩ (by
            rw [List.getElem?_map, hc]; rfl)
          cases l3
          obtain ⟨pos, ds', h'', st, m1, m2, m3, m4, m5⟩ := j2 i h' l2
          obtain ⟨in1, n1, n2, n3, n4, n5, n6⟩ := distances_cluster l1
          obtain ⟨in2, o1, o2, o3, o4, o5, o6⟩ := distances_cluster m2
          refine ⟨pos, ds, ds', h', h'', st, by simpa using m1, l1, m2, ?_, n3, n4, ?_, m3, m4, m5,
            l4, l5⟩
          · rw [n3] at o1 o2
            rw [n4] at o2
            rw [n1] at o1
            cases o1
            rw [n2] at o2
            exact (Except.ok.inj o2).symm
          · intro hr
            exact ⟨(n5 hr).1, (o5 (n5 hr).2).1⟩
        · rcases i4 with i4 | ⟨i, h', ds, h'', R, l1, l2, l3, l4⟩
          · cases i4
          · cases l3
            rw [List.getElem?_map] at l1
            obtain ⟨c, hc, rfl⟩ := Option.map_eq_some_iff.1 l1
            exact ⟨i, c, ds, h'', hc, l2, l4⟩

/-- **C86** (partial): all subplots of a figure end at the same distance, which no distance of a cluster
exceeds; the end is left to the library if it is zero. The full claim is that no distance shown exceeds
it, which is false for random points, see `C86_random_refuted`. -/
theorem C86_axis_partial {A : Type} (m : Grid K) (clusters : List (ClusterObj A × Point))
    (random : Option Nat) (ws : Bool) (perms perms' : List (List Nat)) (out : List (Subplot K))
    (h : plotClusters m clusters random ws perms perms' = .ok out) :
    ∃ L, ∀ s ∈ out, (L ≠ 0 → s.limit = some L) ∧ (L = 0 → s.limit = none) ∧
      ∀ d ∈ s.distances.cluster, d ≤ L := by
  obtain ⟨c₀, dx, dy, L, _, _, hl, hall, _⟩ := plotClusters_ok h
  refine ⟨L, fun s hs => ?_⟩
  obtain ⟨i, hi⟩ := List.mem_iff_getElem?.1 hs
  have hilt : i < clusters.length := hl ▸ (List.getElem?_eq_some_iff.1 hi).1
  obtain ⟨pos, ds, ds', h', h'', st, h1, h2, h3, h4, _, _, _, _, _, h6, h7, _⟩ :=
    hall i _ (List.getElem?_eq_getElem hilt)
  rw [hi] at h6
  cases h6
  exact ⟨fun h0 => by simp [Option.filter, h0], fun h0 => by simp [Option.filter, h0],
    fun d hd => h7 d (h4 ▸ hd)⟩

/-- **C86**: without random points no distance shown exceeds the end of the axis, and one reaches it. -/
theorem C86_axis {A : Type} (m : Grid K) (clusters : List (ClusterObj A × Point)) (ws : Bool)
    (perms perms' : List (List Nat)) (out : List (Subplot K))
    (h : plotClusters m clusters none ws perms perms' = .ok out) :
    ∃ L, (∃ s ∈ out, L ∈ s.distances.cluster) ∧ ∀ s ∈ out, s.distances.random = none ∧
      (L ≠ 0 → s.limit = some L) ∧ (L = 0 → s.limit = none) ∧ ∀ d ∈ s.distances.cluster, d ≤ L := by
  obtain ⟨c₀, dx, dy, L, _, _, hl, hall, i, c, ds, h', hc, hd, hL⟩ := plotClusters_ok h
  refine ⟨L, ?_, fun s hs => ?_⟩
  · obtain ⟨pos, ds₁, ds', h₁, h'', st, h1, h2, h3, h4, _, _, h5, _, _, h6, _⟩ := hall i c hc
    rw [hd] at h2
    cases h2
    refine ⟨_, List.mem_of_getElem? h6, ?_⟩
    rcases hL with hL | ⟨rs, hrs, _⟩
    · exact h4 ▸ hL
    · rw [(h5 rfl).1] at hrs; cases hrs
  · obtain ⟨i, hi⟩ := List.mem_iff_getElem?.1 hs
    have hilt : i < clusters.length := hl ▸ (List.getElem?_eq_some_iff.1 hi).1
    obtain ⟨pos, ds, ds', h', h'', st, h1, h2, h3, h4, _, _, h5, _, _, h6, h7, _⟩ :=
      hall i _ (List.getElem?_eq_getElem hilt)
    rw [hi] at h6
    cases h6
    exact ⟨(h5 rfl).2, fun h0 => by simp [Option.filter, h0], fun h0 => by simp [Option.filter, h0],
      fun d hd => h7 d (h4 ▸ hd)⟩

/-- Positions outside of a cluster that are as many as there are: all of them. -/
theorem OutsidePositions.all {labels : List Nat} {i : Nat} {is : List Nat}
    (h : OutsidePositions labels i is) (hl : labels.length - labels.count i ≤ is.length) {j l : Nat}
    (hj : labels[j]? = some l) (hne : l ≠ i) : j ∈ is := by
  by_contra hn
  have hnd : (j :: is).Nodup := List.nodup_cons.2 ⟨hn, h.nodup⟩
  have hsub : (j :: is) ⊆ (List.range labels.length).filter fun a => labels[a]? != some i := by
    intro a ha
    have : ∃ l, labels[a]? = some l ∧ l ≠ i := by
      rcases List.mem_cons.1 ha with rfl | ha
      · exact ⟨l, hj, hne⟩
      · exact h.outside a ha
    obtain ⟨l', h1, h2⟩ := this
    simp only [List.mem_filter, List.mem_range, bne_iff_ne]
    exact ⟨(List.getElem?_eq_some_iff.1 h1).1, by rw [h1]; simpa using h2⟩
  have hle := (hnd.subperm hsub).length_le
  have hcount : ((List.range labels.length).filter fun a => labels[a]? != some i).length =
      labels.length - labels.count i := by
    have : ∀ l : List Nat, ((List.range l.length).filter fun a => l[a]? != some i).length + l.count i =
        l.length := by
      intro l
      induction l using List.reverseRecOn with
      | nil => rfl
      | append_singleton l a ih =>
        rw [List.length_append, List.length_singleton, List.range_succ, List.filter_append,
          List.length_append, List.count_append]
        have hcg : ((List.range l.length).filter fun b => (l ++ [a])[b]? != some i) =
            (List.range l.length).filter fun b => l[b]? != some i := by
          apply List.filter_congr
          intro b hb
          rw [List.getElem?_append_left (List.mem_range.1 hb)]
        rw [hcg]
        by_cases h : a = i <;> simp [h] <;> omega
    have := this labels
    omega
  rw [hcount, List.length_cons] at hle
  omega

/-- **C86**: with random points no distance shown exceeds the end of the axis if for every cluster at least
as many random points are requested as there are points outside of it. -/
theorem C86_axis_all_outside {A : Type} (m : Grid K) (clusters : List (ClusterObj A × Point)) (num : Nat)
    (ws : Bool) (perms perms' : List (List Nat)) (out : List (Subplot K)) (pt : Partition) (hv : pt.Valid)
    (g : Grid A) (hg : g.WF) (hc : ∀ (i : Nat) (c : ClusterObj A × Point), clusters[i]? = some c →
      pt.createCluster g i = .ok c.1)
    (hp : ∀ i < clusters.length, (perms.getD i []).Perm
      (List.range (g.xLen * g.yLen - pt.labels.data.count i)))
    (hp' : ∀ i < clusters.length, (perms'.getD i []).Perm
      (List.range (g.xLen * g.yLen - pt.labels.data.count i)))
    (hnum : ∀ i < clusters.length, g.xLen * g.yLen - pt.labels.data.count i ≤
      if num = 0 then pt.labels.data.count i else num)
    (h : plotClusters m clusters (some num) ws perms perms' = .ok out) :
    ∃ L, ∀ s ∈ out, (L ≠ 0 → s.limit = some L) ∧ (L = 0 → s.limit = none) ∧
      (∀ d ∈ s.distances.cluster, d ≤ L) ∧ ∃ rs, s.distances.random = some rs ∧ ∀ d ∈ rs, d ≤ L := by
  obtain ⟨c₀, dx, dy, L, _, _, hl, hall, _⟩ := plotClusters_ok h
  refine ⟨L, fun s hs => ?_⟩
  obtain ⟨i, hi⟩ := List.mem_iff_getElem?.1 hs
  have hilt : i < clusters.length := hl ▸ (List.getElem?_eq_some_iff.1 hi).1
  have hci := hc i _ (List.getElem?_eq_getElem hilt)
  obtain ⟨pos, ds, ds', h', h'', st, h1, h2, h3, h4, hcl, hce, _, _, _, h6, h7, h8⟩ :=
    hall i _ (List.getElem?_eq_getElem hilt)
  rw [hi] at h6
  cases h6
  refine ⟨fun h0 => by simp [Option.filter, h0], fun h0 => by simp [Option.filter, h0],
    fun d hd => h7 d (h4 ▸ hd), ?_⟩
  obtain ⟨in1, n1, n2, n3, n4, n5, n6⟩ := distances_cluster h2
  obtain ⟨in2, o1, o2, o3, o4, o5, o6⟩ := distances_cluster h3
  obtain ⟨_, os, num', rs, n7, n8, n9, n10⟩ := n6 num rfl
  obtain ⟨_, os', num'', rs', o7, o8, o9, o10⟩ := o6 num' n10
  refine ⟨rs', o9, fun d hd => h8 rs n9 d ?_⟩
  generalize hcd : clusters[i].1 = cc at *
  unfold Partition.createCluster at hci
  split at hci
  · rename_i hsh
    cases hci
    have hok : (⟨g, pt, i, 0⟩ : ClusterObj A).OK := ⟨hg, hv.wf, hsh.1, hsh.2⟩
    have hlen : pt.labels.data.length = g.xLen * g.yLen := by rw [hv.wf, hsh.1, hsh.2]
    obtain ⟨is₁, q1, q2, q3⟩ := outsideIndices_ok hok num (perms.getD i []) (hp i hilt)
    simp only at n7 n8
    rw [n7] at q1
    cases q1
    rw [hcl] at o7 o8
    rw [hce] at o8
    obtain ⟨is₂, q1', q2', q3'⟩ := outsideIndices_ok hok os.length (perms'.getD i []) (hp' i hilt)
    rw [o7] at q1'
    cases q1'
    simp only at q3 q2 q2' o8
    have hn := hnum i hilt
    have hos : pt.labels.data.length - pt.labels.data.count i ≤ os.length := by
      rw [hlen, q3]; omega
    -- the distance `d` belongs to a point of the first draw too
    obtain ⟨k, hk, rfl⟩ := List.getElem_of_mem hd
    have hf' := mapM_eq_ok.1 o8
    have hf := mapM_eq_ok.1 n8
    have hk' : k < os'.length := by rw [hf'.length_eq]; exact hk
    have hget := (List.forall₂_iff_get.1 hf').2 k hk' hk
    simp only [List.get_eq_getElem] at hget
    obtain ⟨l, hl1, hl2⟩ := q2'.outside _ (List.getElem_mem hk')
    obtain ⟨k₂, hk₂, hke⟩ := List.getElem_of_mem (q2.all hos hl1 hl2)
    have hk₂' : k₂ < rs.length := by rw [← hf.length_eq]; exact hk₂
    have hget₂ := (List.forall₂_iff_get.1 hf).2 k₂ hk₂ hk₂'
    simp only [List.get_eq_getElem, hke] at hget₂
    rw [hget] at hget₂
    rw [Except.ok.inj hget₂]
    exact List.getElem_mem _
  · cases hci

/-- Two clusters in a region with one row of five points, with squares as distances. -/
def exampleLine : Partition := ⟨⟨1, 5, [0, 0, 1, 1, 1]⟩, 2, 0⟩

def exampleLineClusters : List (ClusterObj Nat × Point) :=
  [(⟨⟨1, 5, [10, 11, 12, 13, 14]⟩, exampleLine, 0, 0⟩, ⟨0, 0⟩),
   (⟨⟨1, 5, [10, 11, 12, 13, 14]⟩, exampleLine, 1, 0⟩, ⟨0, 3⟩)]

def exampleLineMatrix : Grid ℚ :=
  ⟨5, 5, (List.range 25).map fun n => ((n / 5 : Nat) - (n % 5 : Nat) : ℚ) ^ 2⟩

example : plotClusters exampleLineMatrix exampleLineClusters none false [] [] =
    .ok [⟨(0, 0), ⟨[0, 1], none⟩, none, some 1⟩, ⟨(0, 1), ⟨[1, 0, 1], none⟩, none, some 1⟩] := by
  decide +kernel

/-- The full claim C86 is false: the random points of the figure are not those that were used for the end
of the axis. -/
theorem C86_random_refuted : ¬ ∀ (m : Grid ℚ) (clusters : List (ClusterObj Nat × Point)) (num : Nat)
    (ws : Bool) (perms perms' : List (List Nat)) (out : List (Subplot ℚ)) (pt : Partition) (_ : pt.Valid)
    (g : Grid Nat) (_ : g.WF) (_ : ∀ (i : Nat) (c : ClusterObj Nat × Point), clusters[i]? = some c →
      pt.createCluster g i = .ok c.1)
    (_ : ∀ i < clusters.length, (perms.getD i []).Perm
      (List.range (g.xLen * g.yLen - pt.labels.data.count i)))
    (_ : ∀ i < clusters.length, (perms'.getD i []).Perm
      (List.range (g.xLen * g.yLen - pt.labels.data.count i)))
    (_ : plotClusters m clusters (some num) ws perms perms' = .ok out),
    ∀ s ∈ out, ∀ L, s.limit = some L → ∀ rs, s.distances.random = some rs → ∀ d ∈ rs, d ≤ L := by
  intro hall
  have := hall exampleLineMatrix exampleLineClusters 1 false [[0, 1, 2], [1, 0]] [[2, 1, 0], [0, 1]]
    [⟨(0, 0), ⟨[0, 1], some [16]⟩, none, some 4⟩, ⟨(0, 1), ⟨[1, 0, 1], some [9]⟩, none, some 4⟩]
    exampleLine ⟨by decide, by decide, by decide⟩ ⟨1, 5, [10, 11, 12, 13, 14]⟩ (by decide) (by
      intro i c hc
      rcases i with _ | _ | i
      · cases hc; rfl
      · cases hc; rfl
      · simp [exampleLineClusters] at hc) (by decide) (by decide) (by decide +kernel)
    ⟨(0, 0), ⟨[0, 1], some [16]⟩, none, some 4⟩ List.mem_cons_self 4 rfl [16] rfl 16 List.mem_cons_self
  exact absurd this (by decide +kernel)

example : plotClusters exampleLineMatrix exampleLineClusters (some 3) false [[0, 1, 2], [1, 0]]
    [[2, 1, 0], [0, 1]] =
    .ok [⟨(0, 0), ⟨[0, 1], some [16, 9, 4]⟩, none, some 16⟩,
      ⟨(0, 1), ⟨[1, 0, 1], some [9, 4]⟩, none, some 16⟩] := by
  decide +kernel

/-! ### C87 -/

theorem subplotAt_eq {dx dy k i : Nat} (hk : dx * dy = k) (h2 : 2 ≤ k) (hi : i < k) :
    subplotAt dx dy i = .ok (i / dy, i % dy) := by
  have hx0 : 0 < dx := by
    rcases Nat.eq_zero_or_pos dx with h | h
    · subst h; simp at hk; omega
    · exact h
  have hy0 : 0 < dy := by
    rcases Nat.eq_zero_or_pos dy with h | h
    · subst h; simp at hk; omega
    · exact h
  have hx : i / dy < dx := div_lt_of_lt_mul' (hk ▸ hi)
  have hy : i % dy < dy := Nat.mod_lt _ hy0
  unfold subplotAt
  simp only
  by_cases h1 : dx = 1
  · rw [if_pos h1, if_neg (by rintro rfl; omega), if_pos hy]
    rw [h1] at hx
    rw [Nat.lt_one_iff.1 hx]
  · rw [if_neg h1]
    by_cases h3 : dy = 1
    · subst h3
      rw [if_pos rfl, if_pos hx, Nat.mod_one]
    · rw [if_neg h3, if_pos ⟨hx, hy⟩]

theorem plotClusters_two {A : Type} {m : Grid K} {clusters : List (ClusterObj A × Point)}
    {random : Option Nat} {ws : Bool} {perms perms' : List (List Nat)} {out : List (Subplot K)}
    (h : plotClusters m clusters random ws perms perms' = .ok out) : 2 ≤ clusters.length := by
  obtain ⟨c₀, dx, dy, L, h1, h2, hl, hall, _⟩ := plotClusters_ok h
  have hpos : 0 < clusters.length := (List.getElem?_eq_some_iff.1 h1).1
  by_contra hlt
  have hone : clusters.length = 1 := by omega
  rw [hone] at h2
  obtain ⟨a, b, _, _, hab, ho⟩ := order_spec (k := 1) (by omega) c₀.1.region.xLen c₀.1.region.yLen
  obtain ⟨rfl, rfl⟩ : a = 1 ∧ b = 1 := by
    exact ⟨Nat.eq_one_of_mul_eq_one_right hab, Nat.eq_one_of_mul_eq_one_left hab⟩
  rw [h2] at ho
  have ho := Except.ok.inj ho
  simp only [ite_self, Prod.mk.injEq] at ho
  obtain ⟨rfl, rfl⟩ := ho
  obtain ⟨pos, _, _, _, _, _, h3, _⟩ := hall 0 _ h1
  cases h3

/-- **C87**: the subplots of a figure form a grid whose sides are the most balanced divisors of the number
of clusters, the larger one along the longer side of the region; every place of the grid is taken by
exactly one cluster, cluster `i` by the `i`-th in row-major order, with its own distances. -/
theorem C87_grid {A : Type} (m : Grid K) (clusters : List (ClusterObj A × Point))
    (random : Option Nat) (ws : Bool) (perms perms' : List (List Nat)) (out : List (Subplot K))
    (h : plotClusters m clusters random ws perms perms' = .ok out) :
    out.length = clusters.length ∧ 2 ≤ clusters.length ∧
    ∃ dx dy, MostBalanced clusters.length (min dx dy) (max dx dy) ∧
      (∀ c, clusters[0]? = some c →
        (c.1.region.xLen < c.1.region.yLen → dx ≤ dy) ∧ (c.1.region.yLen ≤ c.1.region.xLen → dy ≤ dx)) ∧
      (∀ s ∈ out, s.position.1 < dx ∧ s.position.2 < dy) ∧
      (∀ x y, x < dx → y < dy → ∃! i : Nat, (out[i]?).map Subplot.position = some (x, y)) ∧
      ∀ (i : Nat) (c : ClusterObj A × Point) (s : Subplot K), clusters[i]? = some c → out[i]? = some s →
        s.position.1 * dy + s.position.2 = i ∧ ∃ inside, c.1.allPointIndices = .ok inside ∧
          List.Forall₂ (fun (j : Nat) (d : K) => m.get ⟨c.2.x * c.1.region.yLen + c.2.y, j⟩ = .ok d) inside
            s.distances.cluster := by
  obtain ⟨c₀, dx, dy, L, h1, h2, hl, hall, _⟩ := plotClusters_ok h
  have hk2 := plotClusters_two h
  obtain ⟨dx', dy', ho, hbal, hord⟩ := C05_order_follows_shape clusters.length c₀.1.region.xLen
    c₀.1.region.yLen (by omega)
  rw [h2] at ho
  cases ho
  have hmul : dx * dy = clusters.length := by
    have := hbal.1
    rcases le_total dx dy with hle | hle
    · rwa [min_eq_left hle, max_eq_right hle] at this
    · rw [min_eq_right hle, max_eq_left hle] at this
      rw [Nat.mul_comm]; exact this
  have hy0 : 0 < dy := by
    rcases Nat.eq_zero_or_pos dy with h | h
    · subst h; simp at hmul; omega
    · exact h
  have hpos : ∀ (i : Nat) (s : Subplot K), out[i]? = some s →
      i < dx * dy ∧ s.position = (i / dy, i % dy) := by
    intro i s hs
    have hilt : i < clusters.length := hl ▸ (List.getElem?_eq_some_iff.1 hs).1
    obtain ⟨pos, ds, ds', h', h'', st, k1, k2, k3, k4, _, _, _, _, _, k6, _⟩ :=
      hall i _ (List.getElem?_eq_getElem hilt)
    rw [hs] at k6
    cases k6
    rw [subplotAt_eq hmul hk2 hilt] at k1
    exact ⟨hmul ▸ hilt, (Except.ok.inj k1).symm⟩
  refine ⟨hl, hk2, dx, dy, hbal, ?_, ?_, ?_, ?_⟩
  · intro c hc
    rw [h1] at hc
    cases hc
    exact hord
  · intro s hs
    obtain ⟨i, hi⟩ := List.mem_iff_getElem?.1 hs
    obtain ⟨k1, k2⟩ := hpos i s hi
    rw [k2]
    exact ⟨div_lt_of_lt_mul' k1, Nat.mod_lt _ hy0⟩
  · intro x y hx hy
    have hlt : x * dy + y < out.length := by rw [hl, ← hmul]; exact idx_lt hx hy
    refine ⟨x * dy + y, ?_, ?_⟩
    · simp only
      rw [List.getElem?_eq_getElem hlt, Option.map_some,
        (hpos _ _ (List.getElem?_eq_getElem hlt)).2]
      rw [Nat.mul_comm x dy, Nat.mul_add_div hy0, Nat.div_eq_of_lt hy, Nat.mul_add_mod,
        Nat.mod_eq_of_lt hy, Nat.add_zero]
    · intro i hi
      obtain ⟨s, hs, hsp⟩ := Option.map_eq_some_iff.1 hi
      rw [(hpos i s hs).2] at hsp
      cases hsp
      exact (idx_of_div_mod i dy).symm
  · intro i c s hc hs
    refine ⟨by rw [(hpos i s hs).2]; exact idx_of_div_mod i dy, ?_⟩
    obtain ⟨pos, ds, ds', h', h'', st, k1, k2, k3, k4, _, _, _, _, _, k6, _⟩ := hall i c hc
    rw [hs] at k6
    cases k6
    obtain ⟨inside, n1, n2, _⟩ := distances_cluster k2
    exact ⟨inside, n1, by rw [k4]; exact mapM_eq_ok.1 n2⟩

/-- **C87**: for the clusters of a regular partition, the subplot of a cluster is where the cluster is in the
region: the partition consists of bands in both directions, and the cluster whose subplot is in row `r` and
column `c` is the intersection of band `r` and band `c`. -/
theorem C87_regular {A : Type} (m : Grid K) (clusters : List (ClusterObj A × Point))
    (random : Option Nat) (ws : Bool) (perms perms' : List (List Nat)) (out : List (Subplot K))
    (labels : Grid Nat) (g : Grid A)
    (hr : regularPartitioning g.xLen g.yLen clusters.length = .ok labels)
    (hc : ∀ (i : Nat) (c : ClusterObj A × Point), clusters[i]? = some c →
      Partition.createCluster ⟨labels, clusters.length, 0⟩ g i = .ok c.1)
    (h : plotClusters m clusters random ws perms perms' = .ok out) :
    ∃ cx cy : Nat → Nat, ∀ (i : Nat) (s : Subplot K), out[i]? = some s →
      LabelIsRect labels i (cx s.position.1) (cx (s.position.1 + 1)) (cy s.position.2)
        (cy (s.position.2 + 1)) := by
  obtain ⟨c₀, dx, dy, L, h1, h2, hl, hall, _⟩ := plotClusters_ok h
  have hk2 := plotClusters_two h
  obtain ⟨_, _, _, _, dx', dy', ho, hmul, cx, cy, _, _, _, _, _, _, hrect⟩ :=
    regularPartitioning_cells g.xLen g.yLen clusters.length (by omega) labels hr
  have hreg : c₀.1.region = g := by
    have := hc 0 c₀ h1
    unfold Partition.createCluster at this
    split at this
    · have := Except.ok.inj this
      rw [← this]
    · cases this
  rw [hreg, ho] at h2
  cases h2
  refine ⟨cx, cy, fun i s hs => ?_⟩
  have hilt : i < clusters.length := hl ▸ (List.getElem?_eq_some_iff.1 hs).1
  obtain ⟨pos, ds, ds', h', h'', st, k1, k2, k3, k4, _, _, _, _, _, k6, _⟩ :=
    hall i _ (List.getElem?_eq_getElem hilt)
  rw [hs] at k6
  cases k6
  rw [subplotAt_eq hmul hk2 hilt] at k1
  cases k1
  have hy0 : 0 < dy := by
    rcases Nat.eq_zero_or_pos dy with h | h
    · subst h; simp at hmul; omega
    · exact h
  have := hrect (i / dy) (i % dy) (div_lt_of_lt_mul' (hmul ▸ hilt)) (Nat.mod_lt _ hy0)
  rw [idx_of_div_mod] at this
  exact this

/-- The clusters of the example above are those of a regular partition. -/
example : regularPartitioning 1 5 2 = .ok exampleLine.labels := by decide +kernel

/-! ### The figure exists -/

theorem histMaxLoop_total {A : Type} (m : Grid K) : ∀ (hs : List (Histogram A)) (perms : List (List Nat))
    (best : Option K), (∀ (i : Nat) (h : Histogram A), hs[i]? = some h → ∃ ds h',
      h.distances m (perms.getD i []) = (.ok ds, h') ∧ ds.cluster ≠ [] ∧
      ∀ rs, ds.random = some rs → rs ≠ []) → ∃ r hs', histMaxLoop m hs perms best = .ok (r, hs')
  | [], _, best, _ => ⟨_, _, rfl⟩
  | h :: hs, perms, best, hyp => by
    obtain ⟨ds, h', h1, h2, h3⟩ := hyp 0 h rfl
    have htail : ∀ i, perms.tail.getD i [] = perms.getD (i + 1) [] := by
      intro i; cases perms <;> simp
    have hhead : perms.headD [] = perms.getD 0 [] := by cases perms <;> rfl
    obtain ⟨b, hb⟩ : ∃ b, maxDistance ds best = .ok b := by
      unfold maxDistance
      cases hc : ds.cluster with
      | nil => exact absurd hc h2
      | cons a l =>
        cases hr : ds.random with
        | none => exact ⟨_, rfl⟩
        | some rs =>
          cases rs with
          | nil => exact absurd rfl (h3 _ hr)
          | cons r rs => exact ⟨_, rfl⟩
    obtain ⟨r, hs', hm⟩ := histMaxLoop_total m hs perms.tail (some b) (by
      intro i hi hget
      rw [htail]
      exact hyp (i + 1) hi (by simpa using hget))
    unfold histMaxLoop
    rw [hhead, h1]
    simp only [hb, hm]
    exact ⟨_, _, rfl⟩

theorem histPlotLoop_total {A : Type} (m : Grid K) (ws : Bool) (divX divY : Nat) (limit : Option K) :
    ∀ (hs : List (Histogram A)) (perms : List (List Nat)) (n : Nat),
    (∀ (i : Nat) (h : Histogram A), hs[i]? = some h → ∃ ds h' pos,
      h.distances m (perms.getD i []) = (.ok ds, h') ∧ 2 ≤ ds.cluster.length ∧
      subplotAt divX divY (n + i) = .ok pos) →
    ∃ out, histPlotLoop m ws divX divY limit hs perms n = .ok out
  | [], _, _, _ => ⟨_, rfl⟩
  | h :: hs, perms, n, hyp => by
    obtain ⟨ds, h', pos, h1, h2, h3⟩ := hyp 0 h rfl
    have htail : ∀ i, perms.tail.getD i [] = perms.getD (i + 1) [] := by
      intro i; cases perms <;> simp
    have hhead : perms.headD [] = perms.getD 0 [] := by cases perms <;> rfl
    obtain ⟨out, hm⟩ := histPlotLoop_total m ws divX divY limit hs perms.tail (n + 1) (by
      intro i hi hget
      rw [htail]
      obtain ⟨ds, h', pos, k1, k2, k3⟩ := hyp (i + 1) hi (by simpa using hget)
      exact ⟨ds, h', pos, k1, k2, by rw [← k3]; congr 1; omega⟩)
    unfold histPlotLoop
    rw [Nat.add_zero] at h3
    rw [hhead, h1, h3]
    simp only [hm]
    obtain ⟨st, hst⟩ := (C85_exactly ds.cluster.length ds).1 h2
    cases ws with
    | true => rw [if_pos rfl, hst]; exact ⟨_, rfl⟩
    | false => exact ⟨_, rfl⟩

theorem distances_total {A : Type} {m : Grid K} {c : ClusterObj A} (hc : c.OK) (hm : m.WF)
    (hmx : m.xLen = c.region.xLen * c.region.yLen) (hmy : m.yLen = c.region.xLen * c.region.yLen)
    {p : Point} (hpx : p.x < c.region.xLen) (hpy : p.y < c.region.yLen) (random : Option Nat)
    (hpos : 0 < c.part.labels.data.count c.index)
    (hlt : c.part.labels.data.count c.index < c.region.xLen * c.region.yLen) (perm : List Nat)
    (hp : perm.Perm (List.range (c.region.xLen * c.region.yLen - c.part.labels.data.count c.index))) :
    ∃ ds random', Histogram.distances m perm ⟨c, p, random⟩ = (.ok ds, ⟨c, p, random'⟩) ∧
      ds.cluster.length = c.part.labels.data.count c.index ∧ ∀ rs, ds.random = some rs → rs ≠ [] := by
  have hlen : c.part.labels.data.length = c.region.xLen * c.region.yLen := by
    rw [hc.wfL, hc.sx, hc.sy]
  have hdist : ∀ is : List Nat, (∀ j ∈ is, j < c.region.xLen * c.region.yLen) →
      ∃ ds, distancesToPointWithMatrix m c.region.yLen p is = .ok ds ∧ ds.length = is.length := by
    intro is his
    have hg : ∀ j ∈ is, ∃ d, m.get ⟨p.x * c.region.yLen + p.y, j⟩ = .ok d := by
      intro j hj
      obtain ⟨v, hv⟩ := m.exists_get hm (p := ⟨p.x * c.region.yLen + p.y, j⟩)
        (by rw [hmx]; exact idx_lt hpx hpy) (by rw [hmy]; exact his j hj)
      exact ⟨v, hv⟩
    unfold distancesToPointWithMatrix
    have hex : ∃ f : Nat → K, ∀ j ∈ is, m.get ⟨p.x * c.region.yLen + p.y, j⟩ = .ok (f j) := by
      refine ⟨fun j => if h : j ∈ is then (hg j h).choose else 0, fun j hj => ?_⟩
      simp only [hj, dif_pos]
      exact (hg j hj).choose_spec
    obtain ⟨f, hf⟩ := hex
    exact ⟨_, mapM_ok _ f is hf, by simp⟩
  obtain ⟨inside, h1, h2, h3, h4⟩ := allPointIndices_spec hc
  obtain ⟨ds, h5, h6⟩ := hdist inside (by
    intro j hj
    rw [← hlen]
    exact (List.getElem?_eq_some_iff.1 ((h3 j).1 hj)).1)
  unfold Histogram.distances
  simp only [h1, h5]
  cases random with
  | none => exact ⟨_, _, rfl, by rw [h6, h4], (by simp)⟩
  | some num =>
    obtain ⟨is, k1, k2, k3⟩ := outsideIndices_ok hc num perm hp
    obtain ⟨rs, h7, h8⟩ := hdist is (by
      intro j hj
      obtain ⟨l, hl, _⟩ := k2.outside j hj
      rw [← hlen]
      exact (List.getElem?_eq_some_iff.1 hl).1)
    simp only [k1]
    rw [if_neg (by rw [h4]; omega)]
    simp only [h7]
    refine ⟨_, _, rfl, by rw [h6, h4], ?_⟩
    intro rs' hrs
    cases hrs
    intro hnil
    rw [hnil] at h8
    have : (if num = 0 then c.part.labels.data.count c.index else num) ≠ 0 := by split_ifs <;> omega
    simp only [List.length_nil] at h8
    omega

/-- **C87**: the figure is drawn for every partition into two or more clusters with two or more points each,
with or without random points and statistics, for every centroid and matrix of distances of the region. -/
theorem C87_drawn {A : Type} (m : Grid K) (clusters : List (ClusterObj A × Point))
    (random : Option Nat) (ws : Bool) (perms perms' : List (List Nat)) (pt : Partition) (hv : pt.Valid)
    (g : Grid A) (hg : g.WF) (hm : m.WF) (hmx : m.xLen = g.xLen * g.yLen) (hmy : m.yLen = g.xLen * g.yLen)
    (hc : ∀ (i : Nat) (c : ClusterObj A × Point), clusters[i]? = some c →
      pt.createCluster g i = .ok c.1 ∧ c.2.x < g.xLen ∧ c.2.y < g.yLen)
    (hk : 2 ≤ clusters.length) (hcount : ∀ i < clusters.length, 2 ≤ pt.labels.data.count i)
    (hp : ∀ i < clusters.length, (perms.getD i []).Perm
      (List.range (g.xLen * g.yLen - pt.labels.data.count i)))
    (hp' : ∀ i < clusters.length, (perms'.getD i []).Perm
      (List.range (g.xLen * g.yLen - pt.labels.data.count i))) :
    ∃ out, plotClusters m clusters random ws perms perms' = .ok out := by
  -- the clusters
  have hcl : ∀ (i : Nat) (c : ClusterObj A × Point), clusters[i]? = some c →
      c.1 = ⟨g, pt, i, 0⟩ ∧ c.1.OK ∧ pt.labels.data.length = g.xLen * g.yLen := by
    intro i c hi
    have := (hc i c hi).1
    unfold Partition.createCluster at this
    split at this
    · rename_i hs
      have := Except.ok.inj this
      refine ⟨this.symm, ?_, by rw [hv.wf, hs.1, hs.2]⟩
      rw [← this]
      exact ⟨hg, hv.wf, hs.1, hs.2⟩
    · cases this
  have hlt : ∀ i < clusters.length, pt.labels.data.count i < g.xLen * g.yLen := by
    intro i hi
    have hlen := (hcl i _ (List.getElem?_eq_getElem hi)).2.2
    obtain ⟨j, hj, hne⟩ : ∃ j, j < clusters.length ∧ j ≠ i := by
      by_cases h : i = 0
      · exact ⟨1, by omega, by omega⟩
      · exact ⟨0, by omega, fun he => h he.symm⟩
    have h1 : pt.labels.data.count i ≤ pt.labels.data.length := List.count_le_length
    rcases Nat.lt_or_ge (pt.labels.data.count i) (g.xLen * g.yLen) with h | h
    · exact h
    · exfalso
      have heq : pt.labels.data.count i = pt.labels.data.length := by omega
      have hall := List.count_eq_length.1 heq
      have h2 := hcount j hj
      have hjm : j ∈ pt.labels.data := List.count_pos_iff.1 (by omega)
      exact hne (hall j hjm).symm
  have hdist : ∀ (perms : List (List Nat)), (∀ i < clusters.length, (perms.getD i []).Perm
      (List.range (g.xLen * g.yLen - pt.labels.data.count i))) →
      ∀ (i : Nat) (c : ClusterObj A × Point) (random : Option Nat), clusters[i]? = some c →
      ∃ ds random', Histogram.distances m (perms.getD i []) ⟨c.1, c.2, random⟩ =
        (.ok ds, ⟨c.1, c.2, random'⟩) ∧ 2 ≤ ds.cluster.length ∧ ∀ rs, ds.random = some rs → rs ≠ [] := by
    intro perms hperms i c random hi
    obtain ⟨h1, h2, _⟩ := hcl i c hi
    obtain ⟨_, hx, hy⟩ := hc i c hi
    have hil : i < clusters.length := (List.getElem?_eq_some_iff.1 hi).1
    obtain ⟨c₁, c₂⟩ := c
    simp only at h1 h2 hx hy
    subst h1
    have hci := hcount i hil
    obtain ⟨ds, r', k1, k2, k3⟩ := distances_total (m := m) h2 hm hmx hmy hx hy random
      (by simp only; omega) (hlt i hil) (perms.getD i []) (hperms i hil)
    exact ⟨ds, r', k1, by rw [k2]; exact hci, k3⟩
  obtain ⟨c₀, cs, rfl⟩ : ∃ c₀ cs, clusters = c₀ :: cs := by
    cases clusters with
    | nil => simp at hk
    | cons c cs => exact ⟨c, cs, rfl⟩
  obtain ⟨a, b, _, _, hab, ho⟩ := order_spec (k := (c₀ :: cs).length) (by omega) c₀.1.region.xLen
    c₀.1.region.yLen
  obtain ⟨dx, dy, ho, hmul⟩ : ∃ dx dy, twoBalancedDivisorsOrderXY (c₀ :: cs).length c₀.1.region.xLen
      c₀.1.region.yLen = .ok (dx, dy) ∧ dx * dy = (c₀ :: cs).length := by
    refine ⟨_, _, ho, ?_⟩
    split_ifs
    · exact hab
    · rw [Nat.mul_comm]; exact hab
  unfold plotClusters
  simp only [ho]
  obtain ⟨r, hs', hmax⟩ := histMaxLoop_total m ((c₀ :: cs).map fun c => (⟨c.1, c.2, random⟩ : Histogram A))
    perms none (by
      intro i h hi
      rw [List.getElem?_map] at hi
      obtain ⟨c, hci, rfl⟩ := Option.map_eq_some_iff.1 hi
      obtain ⟨ds, r', k1, k2, k3⟩ := hdist perms hp i c random hci
      exact ⟨ds, _, k1, (by rintro he; rw [he] at k2; simp at k2), k3⟩)
  simp only [hmax]
  obtain ⟨i1, _, i3, _⟩ := histMaxLoop_ok m _ _ _ _ _ hmax
  rw [List.length_map] at i1
  apply histPlotLoop_total
  intro i h hi
  have hil : i < (c₀ :: cs).length := i1 ▸ (List.getElem?_eq_some_iff.1 hi).1
  have hci : (c₀ :: cs)[i]? = some (c₀ :: cs)[i] := List.getElem?_eq_getElem hil
  obtain ⟨ds, h', R, k1, k2, _⟩ := i3 i _ (by rw [List.getElem?_map, hci]; rfl)
  obtain ⟨ds₁, r', k3, _⟩ := hdist perms hp i _ random hci
  rw [k1] at k3
  cases k3
  rw [k2] at hi
  cases hi
  obtain ⟨ds₂, r'', k4, k5, _⟩ := hdist perms' hp' i _ r' hci
  exact ⟨ds₂, _, _, k4, k5, by rw [Nat.zero_add]; exact subplotAt_eq hmul hk hil⟩

example : exampleLineClusters.length = 2 ∧ (∀ i < 2, 2 ≤ exampleLine.labels.data.count i) ∧
    exampleLineMatrix.WF ∧ exampleLineMatrix.xLen = 1 * 5 := by decide +kernel

/-- One cluster cannot be drawn. -/
theorem C87_single {A : Type} (m : Grid K) (c : ClusterObj A × Point)
    (random : Option Nat) (ws : Bool) (perms perms' : List (List Nat)) :
    ∃ e, plotClusters m [c] random ws perms perms' = .error e := by
  cases h : plotClusters m [c] random ws perms perms' with
  | error e => exact ⟨e, rfl⟩
  | ok out => exact absurd (plotClusters_two h) (by simp)

/-- A cluster that covers the region has no random points. -/
theorem C84_whole_region {A : Type} (pt : Partition) (hv : pt.Valid) (g : Grid A) (hg : g.WF) (i num : Nat)
    (c : ClusterObj A) (hc : pt.createCluster g i = .ok c) (m : Grid K) (p : Point) (perm : List Nat)
    (hall : pt.labels.data.count i = g.xLen * g.yLen) (ds : HistDistances K) (h' : Histogram A) :
    Histogram.distances m perm ⟨c, p, some num⟩ ≠ (.ok ds, h') := by
  intro h
  obtain ⟨inside, h1, _, _, _, _, h2⟩ := distances_cluster h
  unfold Partition.createCluster at hc
  split at hc
  · rename_i hs
    cases hc
    have hok : (⟨g, pt, i, 0⟩ : ClusterObj A).OK := ⟨hg, hv.wf, hs.1, hs.2⟩
    obtain ⟨inside', h3, _, _, h4⟩ := allPointIndices_spec hok
    rw [h3] at h1
    cases h1
    exact (h2 num rfl).1 (h4.trans hall)
  · cases hc

example : ∃ c, Partition.createCluster ⟨⟨1, 2, [0, 0]⟩, 1, 0⟩ (Grid.mk 1 2 [10, 11]) 0 = .ok c ∧
    (Histogram.distances (K := ℚ) ⟨2, 2, [0, 1, 1, 0]⟩ [] ⟨c, ⟨0, 0⟩, some 1⟩).1 = .error .indexError :=
  ⟨_, rfl, by decide +kernel⟩

end Spta
