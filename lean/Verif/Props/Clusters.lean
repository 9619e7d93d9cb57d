import Verif.Lemmas.Cluster
import Verif.Props.RegularPartition

/-!
# C09–C17: crisp partitions, clusters and merging
-/

namespace Spta

variable {α β : Type}

/-- C09: the clusters of a crisp partition. Cluster `i` yields exactly the points labelled `i`, in
row-major order, with the region's values; every point of the region is yielded by exactly one
cluster; the reported size of a cluster is the number of points it yields and the sizes add up to
the number of points of the region. -/
theorem C09_clusters_partition (pt : Partition) (hp : pt.Valid) (g : Grid α) (hg : g.WF)
    (sx : pt.labels.xLen = g.xLen) (sy : pt.labels.yLen = g.yLen) :
    ∃ cs : List (ClusterObj α), pt.createAllClusters g = .ok cs ∧ cs.length = pt.k ∧
      ∃ items : Nat → List (Point × α),
        (∀ i c, cs[i]? = some c → c.loop = .ok (items i, c) ∧
          ItemsOf g ((rowMajor g.xLen g.yLen).filter
            fun p => decide (pt.labels.get p = .ok i)) (items i) ∧
          ((items i).map Prod.fst).Nodup ∧
          c.clusterLen = (items i).length) ∧
        (∀ p : Point, p.x < g.xLen → p.y < g.yLen →
          ∃ i, (i < pt.k ∧ p ∈ (items i).map Prod.fst) ∧
            ∀ j, j < pt.k ∧ p ∈ (items j).map Prod.fst → j = i) ∧
        (cs.map ClusterObj.clusterLen).sum = g.xLen * g.yLen := by
  refine ⟨_, pt.createAllClusters_eq g sx sy, by simp, ?_⟩
  have hok : ∀ i, (⟨g, pt, i, 0⟩ : ClusterObj α).OK := fun i => ⟨hg, hp.wf, sx, sy⟩
  have hloop := fun i => (⟨g, pt, i, 0⟩ : ClusterObj α).loop_eq (hok i)
  simp only [pointsFrom_zero] at hloop
  choose items hl hi using hloop
  have hfst : ∀ i (p : Point), p ∈ (items i).map Prod.fst ↔
      (p.x < g.xLen ∧ p.y < g.yLen) ∧ pt.labels.get p = .ok i := by
    intro i p
    rw [(hi i).1, List.mem_filter, mem_rowMajor, Partition.has_iff]
  refine ⟨items, ?_, ?_, ?_⟩
  · intro i c hc
    rw [List.getElem?_map] at hc
    have hik : i < pt.k := by
      by_contra hn
      rw [List.getElem?_eq_none (by simpa using hn)] at hc
      simp at hc
    rw [List.getElem?_range hik] at hc
    simp only [Option.map_some, Option.some.injEq] at hc
    subst hc
    refine ⟨hl i, hi i, ?_, ?_⟩
    · rw [(hi i).1]; exact (rowMajor_nodup _ _).filter _
    · simp only [ClusterObj.clusterLen, Partition.clusterLen]
      rw [Grid.count_eq_filter _ hp.wf, sx, sy]
      have := congrArg List.length (hi i).1
      rw [List.length_map] at this
      rw [this]; rfl
  · intro p hx hy
    obtain ⟨l, hlab⟩ := pt.labels.exists_get hp.wf (p := p) (by rw [sx]; exact hx)
      (by rw [sy]; exact hy)
    refine ⟨l, ⟨hp.get_lt hlab, (hfst l p).2 ⟨⟨hx, hy⟩, hlab⟩⟩, ?_⟩
    rintro j ⟨_, hj⟩
    have := ((hfst j p).1 hj).2
    rw [hlab] at this
    simpa using this.symm
  · rw [List.map_map]
    have : (ClusterObj.clusterLen ∘ fun i => (⟨g, pt, i, 0⟩ : ClusterObj α)) =
        fun i => pt.labels.data.count i := rfl
    rw [this, sum_count_eq_length _ _ hp.lt, hp.wf, sx, sy]

/-- A partition used in the examples: 2 by 3 points, 3 clusters. -/
def examplePartition : Partition := ⟨⟨2, 3, [0, 2, 2, 1, 0, 2]⟩, 3, 0⟩

example : examplePartition.Valid := ⟨by decide, by decide, by decide⟩
example : Partition.create ⟨2, 3, [0, 2, 2, 1, 0, 2]⟩ 3 = .ok examplePartition := by decide

/-- C10 (first part): reading a cluster at a member point gives the value of the region, reading it
at any other point of the region raises ValueError. -/
theorem C10_cluster_value_at (pt : Partition) (hp : pt.Valid) (g : Grid α) (hg : g.WF) (i : Nat)
    (c : ClusterObj α) (hc : pt.createCluster g i = .ok c) (p : Point)
    (hx : p.x < g.xLen) (hy : p.y < g.yLen) :
    (pt.labels.get p = .ok i → ∃ v, g.get p = .ok v ∧ c.valueAt p = .ok v) ∧
    (pt.labels.get p ≠ .ok i → c.valueAt p = .error .valueError) := by
  unfold Partition.createCluster at hc
  split at hc
  · rename_i hs
    cases hc
    have hok : (⟨g, pt, i, 0⟩ : ClusterObj α).OK := ⟨hg, hp.wf, hs.1, hs.2⟩
    constructor
    · intro hm
      obtain ⟨v, hv⟩ := g.exists_get hg hx hy
      exact ⟨v, hv, by rw [ClusterObj.valueAt_member hok hm]; exact hv⟩
    · intro hm
      exact ClusterObj.valueAt_nonmember hok hx hy hm
  · cases hc

example : ∃ c, examplePartition.createCluster (Grid.mk 2 3 [10, 11, 12, 13, 14, 15]) 2 = .ok c ∧
    c.valueAt ⟨1, 2⟩ = .ok 15 ∧ c.valueAt ⟨1, 1⟩ = .error .valueError :=
  ⟨_, rfl, by decide, by decide⟩

/-- C10 (outside): reading a cluster at a point outside of the region raises IndexError. -/
theorem C10_outside (pt : Partition) (g : Grid α) (i : Nat) (c : ClusterObj α)
    (hc : pt.createCluster g i = .ok c) (p : Point) (hp : ¬ (p.x < g.xLen ∧ p.y < g.yLen)) :
    c.valueAt p = .error .indexError := by
  unfold Partition.createCluster at hc
  split at hc
  · rename_i hs
    cases hc
    have : pt.labels.get p = .error .indexError := by
      unfold Grid.get
      rw [if_neg (by rw [hs.1, hs.2]; exact hp)]
    simp only [ClusterObj.valueAt, Partition.isMember, this]
  · cases hc

example : ∃ c, examplePartition.createCluster (Grid.mk 2 3 [10, 11, 12, 13, 14, 15]) 2 = .ok c ∧
    c.valueAt ⟨0, 3⟩ = .error .indexError :=
  ⟨_, rfl, by decide⟩

/-- C10 (second part): the point indices reported by a cluster are the indices of the points it
iterates over, in the same order. -/
theorem C10_all_point_indices (pt : Partition) (hp : pt.Valid) (g : Grid α) (hg : g.WF) (i : Nat)
    (c : ClusterObj α) (hc : pt.createCluster g i = .ok c) :
    ∃ items, c.loop = .ok (items, c) ∧
      c.allPointIndices = .ok (items.map fun it => it.1.x * g.yLen + it.1.y) := by
  unfold Partition.createCluster at hc
  split at hc
  · rename_i hs
    cases hc
    have hok : (⟨g, pt, i, 0⟩ : ClusterObj α).OK := ⟨hg, hp.wf, hs.1, hs.2⟩
    obtain ⟨items, h1, h2⟩ := (⟨g, pt, i, 0⟩ : ClusterObj α).loop_eq hok
    refine ⟨items, h1, ?_⟩
    have hlen : pt.labels.data.length = g.xLen * g.yLen := by rw [hp.wf, hs.1, hs.2]
    have hall : pt.membershipOfIndices (List.range (g.xLen * g.yLen)) = .ok pt.labels.data := by
      apply Partition.membershipOfIndices_eq
      apply List.ext_getElem
      · simp [hlen]
      · intro n h3 h4
        simp only [List.length_map, List.length_range] at h3
        simp [hlen, h3]
    have hmap : (items.map fun it => it.1.x * g.yLen + it.1.y) =
        (items.map Prod.fst).map fun p => p.x * g.yLen + p.y := by
      rw [List.map_map]; rfl
    simp only [ClusterObj.allPointIndices, hall, hmap, h2.1, pointsFrom_zero, rowMajor_eq_map,
      Except.ok.injEq, hlen]
    rw [List.filter_map, List.map_map]
    have hid : ((fun p : Point => p.x * g.yLen + p.y) ∘ fun n => (⟨n / g.yLen, n % g.yLen⟩ : Point))
        = id := by
      funext n; exact idx_of_div_mod n g.yLen
    rw [hid, List.map_id]
    apply List.filter_congr
    intro n hn
    have hn := List.mem_range.1 hn
    simp only [Function.comp, Partition.has]
    have hget := Grid.get_eq_ok_iff pt.labels ⟨n / g.yLen, n % g.yLen⟩ i
    rw [hs.1, hs.2] at hget
    simp only [idx_of_div_mod, div_lt_of_lt_mul' hn, mod_lt_of_lt_mul hn, true_and] at hget
    rw [Bool.eq_iff_iff]
    simp [hget]
  · cases hc

example : ∃ c, examplePartition.createCluster (Grid.mk 2 3 [10, 11, 12, 13, 14, 15]) 2 = .ok c ∧
    c.allPointIndices = .ok [1, 2, 5] := ⟨_, rfl, by decide⟩

/-- C11 (regions): applying a function region gives at each point the function of that point
applied to the value there. -/
theorem C11_apply_region (g : Grid α) (hg : g.WF) (f : Grid (α → β)) (hf : f.WF) (zero : β)
    (sx : g.xLen = f.xLen) (sy : g.yLen = f.yLen) :
    ∃ h, (RegionObj.new g).applyFunction f zero = .ok (h, RegionObj.new g) ∧ h.WF ∧
      h.xLen = g.xLen ∧ h.yLen = g.yLen ∧
      ∀ p : Point, p.x < g.xLen → p.y < g.yLen →
        ∃ fn v, f.get p = .ok fn ∧ g.get p = .ok v ∧ h.get p = .ok (fn v) := by
  obtain ⟨items, h1, h2⟩ := (RegionObj.new g).loop_eq hg
  simp only [RegionObj.new, pointsFrom_zero] at h1 h2
  by_cases hne : Nonempty α
  · obtain ⟨v, h3, h4⟩ := h2.exists_fn hne
    obtain ⟨h, h5, h6, h7, h8, h9⟩ := applyItems_eq f hf v _ items
      (Grid.const g.xLen g.yLen zero) (Grid.const_wf _ _ _) sx sy h3
      (fun p hp => by rw [← sx, ← sy]; exact mem_rowMajor.1 hp)
    refine ⟨h, ?_, h6, by rw [h7, sx], by rw [h8, sy], ?_⟩
    · simp [RegionObj.applyFunction, RegionObj.new, sx, sy, h1]
      rw [← sx, ← sy]; simp [h5]
    · intro p hx hy
      have hmem : p ∈ rowMajor g.xLen g.yLen := mem_rowMajor.2 ⟨hx, hy⟩
      obtain ⟨fn, hfn, hv⟩ := (h9 p (by rw [← sx]; exact hx) (by rw [← sy]; exact hy)).1 hmem
      exact ⟨fn, v p, hfn, h4 p hmem, hv⟩
  · -- no values at all: the region is empty
    have hempty : g.data = [] := by
      cases hd : g.data with
      | nil => rfl
      | cons a _ => exact absurd ⟨a⟩ hne
    have hzero : g.xLen * g.yLen = 0 := by
      have := hg; unfold Grid.WF at this; rw [hempty] at this; simpa using this.symm
    have hitems : items = [] := by
      cases items with
      | nil => rfl
      | cons it _ => exact absurd ⟨it.2⟩ hne
    refine ⟨Grid.const g.xLen g.yLen zero, ?_, Grid.const_wf _ _ _, rfl, rfl, ?_⟩
    · simp [RegionObj.applyFunction, RegionObj.new, sx, sy, h1, hitems, applyItems]
    · intro p hx hy
      have := idx_lt hx hy
      omega

/-- C11 (shape check): a function region of another shape is refused. -/
theorem C11_apply_shape (r : RegionObj α) (f : Grid (α → β)) (zero : β)
    (h : ¬ (r.data.xLen = f.xLen ∧ r.data.yLen = f.yLen)) :
    r.applyFunction f zero = .error .assertionError := by
  simp only [RegionObj.applyFunction, if_neg h]

example : (RegionObj.new (Grid.mk 1 2 [3, 4])).applyFunction
    (Grid.mk 1 2 [fun n => n + 1, fun n => n * 2]) 0 = .ok (⟨1, 2, [4, 8]⟩, ⟨⟨1, 2, [3, 4]⟩, 0⟩) := by
  decide

/-- C11 (clusters): applied to a cluster, members get the function of their point applied to their
value, every other point holds 0; the result is again a cluster with the same partition and index
and the shape of the whole region. -/
theorem C11_apply_cluster (pt : Partition) (hp : pt.Valid) (g : Grid α) (hg : g.WF) (i : Nat)
    (c : ClusterObj α) (hc : pt.createCluster g i = .ok c)
    (f : Grid (α → β)) (hf : f.WF) (zero : β) (sx : g.xLen = f.xLen) (sy : g.yLen = f.yLen) :
    ∃ h : Grid β, c.applyFunction f zero = .ok (⟨h, pt, i, 0⟩, c) ∧ h.WF ∧
      h.xLen = g.xLen ∧ h.yLen = g.yLen ∧
      ∀ p : Point, p.x < g.xLen → p.y < g.yLen →
        (pt.labels.get p = .ok i →
          ∃ fn v, f.get p = .ok fn ∧ g.get p = .ok v ∧ h.get p = .ok (fn v)) ∧
        (pt.labels.get p ≠ .ok i → h.get p = .ok zero) := by
  unfold Partition.createCluster at hc
  split at hc
  · rename_i hs
    cases hc
    have hok : (⟨g, pt, i, 0⟩ : ClusterObj α).OK := ⟨hg, hp.wf, hs.1, hs.2⟩
    obtain ⟨items, h1, h2⟩ := (⟨g, pt, i, 0⟩ : ClusterObj α).loop_eq hok
    simp only [pointsFrom_zero] at h1 h2
    by_cases hne : Nonempty α
    · obtain ⟨v, h3, h4⟩ := h2.exists_fn hne
      obtain ⟨h, h5, h6, h7, h8, h9⟩ := applyItems_eq f hf v _ items
        (Grid.const g.xLen g.yLen zero) (Grid.const_wf _ _ _) sx sy h3
        (fun p hp => by rw [← sx, ← sy]; exact mem_rowMajor.1 (List.mem_filter.1 hp).1)
      refine ⟨h, ?_, h6, by rw [h7, sx], by rw [h8, sy], ?_⟩
      · simp [ClusterObj.applyFunction, ClusterObj.newRegion, sx, sy, h1]
        rw [← sx, ← sy]; simp [h5]
      · intro p hx hy
        obtain ⟨h10, h11⟩ := h9 p (by rw [← sx]; exact hx) (by rw [← sy]; exact hy)
        constructor
        · intro hm
          have hmem : p ∈ (rowMajor g.xLen g.yLen).filter (pt.has i) :=
            List.mem_filter.2 ⟨mem_rowMajor.2 ⟨hx, hy⟩, (pt.has_iff _ _).2 hm⟩
          obtain ⟨fn, hfn, hv⟩ := h10 hmem
          exact ⟨fn, v p, hfn, h4 p hmem, hv⟩
        · intro hm
          have hmem : p ∉ (rowMajor g.xLen g.yLen).filter (pt.has i) := by
            intro hh
            exact hm ((pt.has_iff _ _).1 (List.mem_filter.1 hh).2)
          rw [h11 hmem]
          exact Grid.get_const hx hy
    · have hempty : g.data = [] := by
        cases hd : g.data with
        | nil => rfl
        | cons a _ => exact absurd ⟨a⟩ hne
      have hzero : g.xLen * g.yLen = 0 := by
        have := hg; unfold Grid.WF at this; rw [hempty] at this; simpa using this.symm
      have hitems : items = [] := by
        cases items with
        | nil => rfl
        | cons it _ => exact absurd ⟨it.2⟩ hne
      refine ⟨Grid.const g.xLen g.yLen zero, ?_, Grid.const_wf _ _ _, rfl, rfl, ?_⟩
      · simp [ClusterObj.applyFunction, ClusterObj.newRegion, sx, sy, h1, hitems, applyItems]
      · intro p hx hy
        have := idx_lt hx hy
        omega
  · cases hc

example : ∃ c, examplePartition.createCluster (Grid.mk 2 3 [10, 11, 12, 13, 14, 15]) 2 = .ok c ∧
    ∃ c', c.applyFunction (Grid.const 2 3 fun n => n + 1) 0 = .ok (c', c) ∧
      c'.region = ⟨2, 3, [0, 12, 13, 0, 0, 16]⟩ := ⟨_, rfl, _, rfl, by decide⟩

theorem mem_pointsFrom {xLen yLen n : Nat} {p : Point} (hy : p.y < yLen) :
    p ∈ pointsFrom xLen yLen n ↔ p.x < xLen ∧ n ≤ p.x * yLen + p.y := by
  unfold pointsFrom
  rw [List.mem_map]
  have h1 : (p.x * yLen + p.y) / yLen = p.x := by
    rw [Nat.mul_comm, Nat.mul_add_div (by omega), Nat.div_eq_of_lt hy, Nat.add_zero]
  have h2 : (p.x * yLen + p.y) % yLen = p.y := by
    rw [Nat.mul_comm, Nat.mul_add_mod, Nat.mod_eq_of_lt hy]
  constructor
  · rintro ⟨m, hm, rfl⟩
    rw [List.mem_range'_1] at hm
    have h3 := Nat.div_add_mod m yLen
    have h4 : m / yLen < xLen := by
      rw [Nat.div_lt_iff_lt_mul (by simp at hy; omega)]
      omega
    refine ⟨h4, ?_⟩
    show n ≤ m / yLen * yLen + m % yLen
    rw [Nat.mul_comm]
    omega
  · rintro ⟨h3, h4⟩
    have h5 := idx_lt h3 hy
    refine ⟨p.x * yLen + p.y, by rw [List.mem_range'_1]; omega, ?_⟩
    rw [h1, h2]

/-- C11 (abandoned iteration): a region whose iteration was left at point number `n` and to which a function is then
applied: the points before get 0, the others the function of the point applied to their value; afterwards the
iteration starts at the first point again. -/
theorem C11_apply_resumed (g : Grid α) (hg : g.WF) (n : Nat) (f : Grid (α → β)) (hf : f.WF) (zero : β)
    (sx : g.xLen = f.xLen) (sy : g.yLen = f.yLen) :
    ∃ h, (⟨g, n⟩ : RegionObj α).applyFunction f zero = .ok (h, RegionObj.new g) ∧ h.WF ∧
      h.xLen = g.xLen ∧ h.yLen = g.yLen ∧
      ∀ p : Point, p.x < g.xLen → p.y < g.yLen →
        (n ≤ p.x * g.yLen + p.y → ∃ fn v, f.get p = .ok fn ∧ g.get p = .ok v ∧ h.get p = .ok (fn v)) ∧
        (p.x * g.yLen + p.y < n → h.get p = .ok zero) := by
  obtain ⟨items, h1, h2⟩ := (⟨g, n⟩ : RegionObj α).loop_eq hg
  by_cases hne : Nonempty α
  · obtain ⟨v, h3, h4⟩ := h2.exists_fn hne
    obtain ⟨h, h5, h6, h7, h8, h9⟩ := applyItems_eq f hf v _ items
      (Grid.const g.xLen g.yLen zero) (Grid.const_wf _ _ _) sx sy h3
      (fun p hp => by
        rw [← sx, ← sy]
        simp only [pointsFrom_eq_drop] at hp
        exact mem_rowMajor.1 (List.mem_of_mem_drop hp))
    refine ⟨h, ?_, h6, by rw [h7, sx], by rw [h8, sy], ?_⟩
    · simp [RegionObj.applyFunction, RegionObj.new, sx, sy, h1]
      rw [← sx, ← sy]; simp [h5]
    · intro p hx hy
      obtain ⟨h10, h11⟩ := h9 p (by rw [← sx]; exact hx) (by rw [← sy]; exact hy)
      constructor
      · intro hn
        have hmem := (mem_pointsFrom (xLen := g.xLen) hy).2 ⟨hx, hn⟩
        obtain ⟨fn, hfn, hv⟩ := h10 hmem
        exact ⟨fn, v p, hfn, h4 p hmem, hv⟩
      · intro hn
        rw [h11 (fun hh => by have := ((mem_pointsFrom (xLen := g.xLen) hy).1 hh).2; exact absurd hn (Nat.not_lt.2 this))]
        exact Grid.get_const hx hy
  · have hempty : g.data = [] := by
      cases hd : g.data with
      | nil => rfl
      | cons a _ => exact absurd ⟨a⟩ hne
    have hzero : g.xLen * g.yLen = 0 := by
      have := hg; unfold Grid.WF at this; rw [hempty] at this; simpa using this.symm
    have hitems : items = [] := by
      cases items with
      | nil => rfl
      | cons it _ => exact absurd ⟨it.2⟩ hne
    refine ⟨Grid.const g.xLen g.yLen zero, ?_, Grid.const_wf _ _ _, rfl, rfl, ?_⟩
    · simp [RegionObj.applyFunction, RegionObj.new, sx, sy, h1, hitems, applyItems]
    · intro p hx hy
      have := idx_lt hx hy
      omega

/-- C11 (abandoned iteration of a cluster): the same for the members of a cluster. -/
theorem C11_apply_cluster_resumed (pt : Partition) (hp : pt.Valid) (g : Grid α) (hg : g.WF) (i n : Nat)
    (px : pt.labels.xLen = g.xLen) (py : pt.labels.yLen = g.yLen)
    (f : Grid (α → β)) (hf : f.WF) (zero : β) (sx : g.xLen = f.xLen) (sy : g.yLen = f.yLen) :
    ∃ h : Grid β, (⟨g, pt, i, n⟩ : ClusterObj α).applyFunction f zero = .ok (⟨h, pt, i, 0⟩, ⟨g, pt, i, 0⟩) ∧ h.WF ∧
      h.xLen = g.xLen ∧ h.yLen = g.yLen ∧
      ∀ p : Point, p.x < g.xLen → p.y < g.yLen →
        (pt.labels.get p = .ok i → n ≤ p.x * g.yLen + p.y →
          ∃ fn v, f.get p = .ok fn ∧ g.get p = .ok v ∧ h.get p = .ok (fn v)) ∧
        (pt.labels.get p ≠ .ok i ∨ p.x * g.yLen + p.y < n → h.get p = .ok zero) := by
  have hok : (⟨g, pt, i, n⟩ : ClusterObj α).OK := ⟨hg, hp.wf, px, py⟩
  obtain ⟨items, h1, h2⟩ := (⟨g, pt, i, n⟩ : ClusterObj α).loop_eq hok
  by_cases hne : Nonempty α
  · obtain ⟨v, h3, h4⟩ := h2.exists_fn hne
    obtain ⟨h, h5, h6, h7, h8, h9⟩ := applyItems_eq f hf v _ items
      (Grid.const g.xLen g.yLen zero) (Grid.const_wf _ _ _) sx sy h3
      (fun p hp => by
        rw [← sx, ← sy]
        simp only [pointsFrom_eq_drop] at hp
        exact mem_rowMajor.1 (List.mem_of_mem_drop (List.mem_filter.1 hp).1))
    refine ⟨h, ?_, h6, by rw [h7, sx], by rw [h8, sy], ?_⟩
    · simp [ClusterObj.applyFunction, ClusterObj.newRegion, sx, sy, h1]
      rw [← sx, ← sy]; simp [h5]
    · intro p hx hy
      obtain ⟨h10, h11⟩ := h9 p (by rw [← sx]; exact hx) (by rw [← sy]; exact hy)
      have hiff : p ∈ (pointsFrom g.xLen g.yLen n).filter (pt.has i) ↔
          pt.labels.get p = .ok i ∧ n ≤ p.x * g.yLen + p.y := by
        rw [List.mem_filter, mem_pointsFrom hy, pt.has_iff]
        exact ⟨fun h => ⟨h.2, h.1.2⟩, fun h => ⟨⟨hx, h.2⟩, h.1⟩⟩
      constructor
      · intro hm hn
        obtain ⟨fn, hfn, hv⟩ := h10 (hiff.2 ⟨hm, hn⟩)
        exact ⟨fn, v p, hfn, h4 p (hiff.2 ⟨hm, hn⟩), hv⟩
      · intro hm
        rw [h11 (fun hh => by
          obtain ⟨h12, h13⟩ := hiff.1 hh
          rcases hm with hm | hm
          · exact hm h12
          · omega)]
        exact Grid.get_const hx hy
  · have hempty : g.data = [] := by
      cases hd : g.data with
      | nil => rfl
      | cons a _ => exact absurd ⟨a⟩ hne
    have hzero : g.xLen * g.yLen = 0 := by
      have := hg; unfold Grid.WF at this; rw [hempty] at this; simpa using this.symm
    have hitems : items = [] := by
      cases items with
      | nil => rfl
      | cons it _ => exact absurd ⟨it.2⟩ hne
    refine ⟨Grid.const g.xLen g.yLen zero, ?_, Grid.const_wf _ _ _, rfl, rfl, ?_⟩
    · simp [ClusterObj.applyFunction, ClusterObj.newRegion, sx, sy, h1, hitems, applyItems]
    · intro p hx hy
      have := idx_lt hx hy
      omega

/-- The same cluster left after its first point, number 1. -/
example : ∃ c', (⟨Grid.mk 2 3 [10, 11, 12, 13, 14, 15], examplePartition, 2, 2⟩ : ClusterObj Nat).applyFunction
      (Grid.const 2 3 fun n => n + 1) 0 = .ok (c', ⟨Grid.mk 2 3 [10, 11, 12, 13, 14, 15], examplePartition, 2, 0⟩) ∧
      c'.region = ⟨2, 3, [0, 0, 13, 0, 0, 16]⟩ := ⟨_, rfl, by decide⟩

/-- C09 (the method of the base class, which the crisp partition overrides): it adds 0 for each member, so that every
cluster has size 0. -/
theorem C09_base_cluster_len (members : List Bool) : Partition.clusterLenBase members = 0 := by
  unfold Partition.clusterLenBase
  induction members with
  | nil => rfl
  | cons m l ih => simpa using ih

example : Partition.clusterLenBase [true, false, true] ≠ [true, false, true].count true := by decide

end Spta
