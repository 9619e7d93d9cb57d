import Verif.Lemmas.Except
import Mathlib.Tactic.Linarith
import Verif.Props.Clusters

/-!
# C12–C17: merging clusters, intersections, membership queries, number of labels
-/

namespace Spta

variable {α β : Type}

/-- C12 (first part): splitting a region into all its clusters and merging them gives the region
back, whatever the uninitialised array contained. -/
theorem C12_split_merge (pt : Partition) (hp : pt.Valid) (h0 : pt.pointIndex = 0) (g : Grid α)
    (hg : g.WF) (sx : pt.labels.xLen = g.xLen) (sy : pt.labels.yLen = g.yLen) (junk : α) :
    ∃ cs, pt.createAllClusters g = .ok cs ∧ pt.mergeClusters cs junk = .ok (g, pt) := by
  refine ⟨_, pt.createAllClusters_eq g sx sy, ?_⟩
  obtain ⟨h, h1, h2, h3, h4, h5⟩ := pt.mergeClusters_ok hp h0
    ((List.range pt.k).map fun i => (⟨g, pt, i, 0⟩ : ClusterObj α)) junk
    (fun p => match g.get p with | .ok v => v | .error _ => junk)
    (by
      intro c hc
      obtain ⟨i, _, rfl⟩ := List.mem_map.1 hc
      exact ⟨sx.symm, sy.symm⟩)
    (by rw [List.map_map]; exact List.map_id _)
    (by
      intro p l c hl hc
      have hlk := hp.get_lt hl
      rw [List.getElem?_map, List.getElem?_range hlk] at hc
      simp only [Option.map_some, Option.some.injEq] at hc
      subst hc
      rw [ClusterObj.valueAt_member ⟨hg, hp.wf, sx, sy⟩ hl]
      have hb := (Grid.get_eq_ok_iff _ _ _).1 hl
      obtain ⟨v, hv⟩ := g.exists_get hg (p := p) (by rw [← sx]; exact hb.1)
        (by rw [← sy]; exact hb.2.1)
      simp [hv])
  rw [h1]
  have : h = g := by
    refine Grid.ext_get h2 hg (by rw [h3, sx]) (by rw [h4, sy]) ?_
    intro p hx hy
    rw [h3] at hx; rw [h4] at hy
    rw [h5 p hx hy]
    obtain ⟨v, hv⟩ := g.exists_get hg (p := p) (by rw [← sx]; exact hx) (by rw [← sy]; exact hy)
    simp [hv]
  rw [this]

/-- Specification helper: one function region per cluster, applied to each cluster separately. -/
def applyPerCluster (pt : Partition) (g : Grid α) (fs : Nat → Grid (α → β)) (zero : β) :
    Except PyErr (List (ClusterObj β)) :=
  (List.range pt.k).mapM fun i =>
    match pt.createCluster g i with
    | .error e => .error e
    | .ok c => match c.applyFunction (fs i) zero with
      | .error e => .error e
      | .ok (c', _) => .ok c'

/-- C12 (second part): applying one function region per cluster and merging gives at each point the
function of the point's own cluster (at that point) applied to the point's value. -/
theorem C12_apply_merge (pt : Partition) (hp : pt.Valid) (h0 : pt.pointIndex = 0) (g : Grid α)
    (hg : g.WF) (sx : pt.labels.xLen = g.xLen) (sy : pt.labels.yLen = g.yLen)
    (fs : Nat → Grid (α → β)) (hfs : ∀ i, i < pt.k → (fs i).WF ∧ g.xLen = (fs i).xLen ∧
      g.yLen = (fs i).yLen) (zero junk : β) :
    ∃ cs h, applyPerCluster pt g fs zero = .ok cs ∧ pt.mergeClusters cs junk = .ok (h, pt) ∧
      h.WF ∧ h.xLen = g.xLen ∧ h.yLen = g.yLen ∧
      ∀ p : Point, p.x < g.xLen → p.y < g.yLen → ∃ l fn v, pt.labels.get p = .ok l ∧
        (fs l).get p = .ok fn ∧ g.get p = .ok v ∧ h.get p = .ok (fn v) := by
  have hc : ∀ i, pt.createCluster g i = .ok ⟨g, pt, i, 0⟩ := by
    intro i; simp [Partition.createCluster, sx, sy]
  have hex : ∀ i, ∃ h : Grid β, i < pt.k → ((⟨g, pt, i, 0⟩ : ClusterObj α).applyFunction (fs i) zero
      = .ok (⟨h, pt, i, 0⟩, ⟨g, pt, i, 0⟩) ∧ h.WF ∧ h.xLen = g.xLen ∧ h.yLen = g.yLen ∧
      ∀ p : Point, p.x < g.xLen → p.y < g.yLen →
        (pt.labels.get p = .ok i →
          ∃ fn v, (fs i).get p = .ok fn ∧ g.get p = .ok v ∧ h.get p = .ok (fn v))) := by
    intro i
    by_cases hi : i < pt.k
    · obtain ⟨hf1, hf2, hf3⟩ := hfs i hi
      obtain ⟨h, h1, h2, h3, h4, h5⟩ := C11_apply_cluster pt hp g hg i _ (hc i) (fs i) hf1 zero hf2 hf3
      exact ⟨h, fun _ => ⟨h1, h2, h3, h4, fun p a b => (h5 p a b).1⟩⟩
    · exact ⟨Grid.const 0 0 zero, fun h => absurd h hi⟩
  choose h hh using hex
  have hcs : applyPerCluster pt g fs zero =
      .ok ((List.range pt.k).map fun i => ⟨h i, pt, i, 0⟩) := by
    apply mapM_ok
    intro i hi
    simp only [hc, (hh i (List.mem_range.1 hi)).1]
  obtain ⟨r, h1, h2, h3, h4, h5⟩ := pt.mergeClusters_ok hp h0
    ((List.range pt.k).map fun i => (⟨h i, pt, i, 0⟩ : ClusterObj β)) junk
    (fun p => match pt.labels.get p with
      | .ok l => (match (h l).get p with | .ok v => v | .error _ => junk)
      | .error _ => junk)
    (by
      intro c hc
      obtain ⟨i, hi, rfl⟩ := List.mem_map.1 hc
      have := hh i (List.mem_range.1 hi)
      exact ⟨by rw [this.2.2.1, sx], by rw [this.2.2.2.1, sy]⟩)
    (by rw [List.map_map]; exact List.map_id _)
    (by
      intro p l c hl hc
      have hlk := hp.get_lt hl
      rw [List.getElem?_map, List.getElem?_range hlk] at hc
      simp only [Option.map_some, Option.some.injEq] at hc
      subst hc
      obtain ⟨_, hwf, hx, hy, hv⟩ := hh l hlk
      rw [ClusterObj.valueAt_member ⟨hwf, hp.wf, by rw [hx, sx], by rw [hy, sy]⟩ hl]
      have hb := (Grid.get_eq_ok_iff _ _ _).1 hl
      rw [sx, sy] at hb
      obtain ⟨fn, v, _, _, hr⟩ := hv p hb.1 hb.2.1 hl
      simp [hl, hr])
  refine ⟨_, r, hcs, h1, h2, by rw [h3, sx], by rw [h4, sy], ?_⟩
  intro p hx hy
  rw [← sx] at hx; rw [← sy] at hy
  obtain ⟨l, hl⟩ := pt.labels.exists_get hp.wf hx hy
  obtain ⟨_, _, _, _, hv⟩ := hh l (hp.get_lt hl)
  obtain ⟨fn, v, hf, hg', hr⟩ := hv p (by rw [← sx]; exact hx) (by rw [← sy]; exact hy) hl
  refine ⟨l, fn, v, hl, hf, hg', ?_⟩
  rw [h5 p hx hy]
  simp [hl, hr]

example : ∃ cs, examplePartition.createAllClusters (Grid.mk 2 3 [10, 11, 12, 13, 14, 15]) = .ok cs ∧
    examplePartition.mergeClusters cs 99 = .ok (⟨2, 3, [10, 11, 12, 13, 14, 15]⟩, examplePartition) :=
  ⟨_, rfl, by decide⟩

/-- C13 is false: for every partition with at least two clusters and every region, the clusters
listed in reverse order (exactly one cluster per index) are rejected with ValueError, while the
same clusters in index order are accepted. -/
theorem C13_merge_order_refuted (pt : Partition) (hp : pt.Valid) (h0 : pt.pointIndex = 0)
    (hk : 2 ≤ pt.k) (g : Grid α) (hg : g.WF) (sx : pt.labels.xLen = g.xLen)
    (sy : pt.labels.yLen = g.yLen) (junk : α) :
    ∃ cs, pt.createAllClusters g = .ok cs ∧ pt.mergeClusters cs junk = .ok (g, pt) ∧
      pt.mergeClusters cs.reverse junk = .error .valueError := by
  obtain ⟨cs, h1, h2⟩ := C12_split_merge pt hp h0 g hg sx sy junk
  refine ⟨cs, h1, h2, ?_⟩
  rw [pt.createAllClusters_eq g sx sy] at h1
  cases h1
  apply pt.mergeClusters_bad_indices
  · intro c hc
    obtain ⟨i, _, rfl⟩ := List.mem_map.1 (List.mem_reverse.1 hc)
    exact ⟨sx.symm, sy.symm⟩
  · rw [← List.map_reverse, List.map_map]
    intro he
    have : (List.range pt.k).reverse = List.range pt.k := by
      have h3 : ((fun c : ClusterObj α => c.index) ∘ fun i => (⟨g, pt, i, 0⟩ : ClusterObj α)) = id := rfl
      rw [h3, List.map_id] at he
      exact he
    have h4 := congrArg (fun l => l[0]?) this
    simp only [List.getElem?_reverse (show 0 < (List.range pt.k).length by simp; omega)] at h4
    rw [List.length_range, List.getElem?_range (by omega), List.getElem?_range (by omega)] at h4
    simp at h4; omega

/-- C13, what holds: a list of clusters of the right shape whose indices are not exactly
`0, 1, .., k-1` in this order raises ValueError (in particular any list that does not have exactly
one cluster per index). Missing: acceptance of the other orders, which is false
(`C13_merge_order_refuted`). -/
theorem C13_merge_indices_partial (pt : Partition) (cs : List (ClusterObj α)) (junk : α)
    (hshape : ∀ c ∈ cs, c.region.xLen = pt.labels.xLen ∧ c.region.yLen = pt.labels.yLen)
    (hidx : ¬ (cs.length = pt.k ∧ ∀ (i : Nat) (c : ClusterObj α), cs[i]? = some c → c.index = i)) :
    pt.mergeClusters cs junk = .error .valueError := by
  apply pt.mergeClusters_bad_indices cs junk hshape
  intro he
  apply hidx
  refine ⟨by have := congrArg List.length he; simpa using this, ?_⟩
  intro i c hc
  have h1 : (cs.map (·.index))[i]? = some c.index := by rw [List.getElem?_map, hc]; rfl
  rw [he] at h1
  obtain ⟨hlt, he2⟩ := List.getElem?_eq_some_iff.1 h1
  rw [List.getElem_range] at he2
  exact he2.symm

/-- C13, exactly which orders are accepted: of all orders of the clusters of a region only the order of the indices;
all others are rejected with ValueError. -/
theorem C13_exactly_partial (pt : Partition) (hp : pt.Valid) (h0 : pt.pointIndex = 0) (g : Grid α) (hg : g.WF)
    (sx : pt.labels.xLen = g.xLen) (sy : pt.labels.yLen = g.yLen) (junk : α) :
    ∃ cs, pt.createAllClusters g = .ok cs ∧ ∀ cs', cs'.Perm cs →
      (cs' = cs ∧ pt.mergeClusters cs' junk = .ok (g, pt)) ∨
        (cs' ≠ cs ∧ pt.mergeClusters cs' junk = .error .valueError) := by
  obtain ⟨cs, h1, h2⟩ := C12_split_merge pt hp h0 g hg sx sy junk
  refine ⟨cs, h1, ?_⟩
  intro cs' hperm
  by_cases he : cs' = cs
  · exact .inl ⟨he, by rw [he]; exact h2⟩
  · refine .inr ⟨he, ?_⟩
    rw [pt.createAllClusters_eq g sx sy] at h1
    cases h1
    have hform : ∀ c ∈ cs', c = (⟨g, pt, c.index, 0⟩ : ClusterObj α) := by
      intro c hc
      obtain ⟨i, _, rfl⟩ := List.mem_map.1 (hperm.mem_iff.1 hc)
      rfl
    apply pt.mergeClusters_bad_indices
    · intro c hc
      rw [hform c hc]
      exact ⟨sx.symm, sy.symm⟩
    · intro hi
      apply he
      rw [← hi, List.map_map]
      conv_lhs => rw [← List.map_id cs']
      exact List.map_congr_left fun c hc => hform c hc

example : ∃ cs, examplePartition.createAllClusters (Grid.mk 2 3 [10, 11, 12, 13, 14, 15]) = .ok cs ∧
    examplePartition.mergeClusters cs.reverse 99 = .error .valueError ∧
    examplePartition.mergeClusters (cs.take 2) 99 = .error .valueError :=
  ⟨_, rfl, by decide, by decide⟩

/-- C14: merging with representatives. For `k` representatives inside the region: if each belongs
to its cluster, the merged region holds at each point the original value at the representative of
the point's cluster; if one of them does not, the call raises ValueError. -/
theorem C14_merge_representatives (pt : Partition) (hp : pt.Valid) (h0 : pt.pointIndex = 0)
    (g : Grid α) (hg : g.WF) (sx : pt.labels.xLen = g.xLen) (sy : pt.labels.yLen = g.yLen)
    (reps : List Point) (hlen : reps.length = pt.k)
    (hin : ∀ p ∈ reps, p.x < g.xLen ∧ p.y < g.yLen) (junk : α) :
    ∃ cs, pt.createAllClusters g = .ok cs ∧
      ((∀ i p, reps[i]? = some p → pt.labels.get p = .ok i) →
        ∃ h, pt.mergeWithRepresentatives cs reps junk = .ok (h, pt) ∧ h.WF ∧ h.xLen = g.xLen ∧
          h.yLen = g.yLen ∧ ∀ p : Point, p.x < g.xLen → p.y < g.yLen →
            ∃ l r v, pt.labels.get p = .ok l ∧ reps[l]? = some r ∧ g.get r = .ok v ∧
              h.get p = .ok v) ∧
      ((∃ i p, reps[i]? = some p ∧ pt.labels.get p ≠ .ok i) →
        pt.mergeWithRepresentatives cs reps junk = .error .valueError) := by
  refine ⟨_, pt.createAllClusters_eq g sx sy, ?_, ?_⟩
  · intro hmem
    have hok : ∀ i, (⟨g, pt, i, 0⟩ : ClusterObj α).OK := fun i => ⟨hg, hp.wf, sx, sy⟩
    have hget : ∀ p ∈ reps, g.get p = .ok (match g.get p with | .ok v => v | .error _ => junk) := by
      intro p hpr
      obtain ⟨v, hv⟩ := g.exists_get hg (hin p hpr).1 (hin p hpr).2
      simp [hv]
    have hrep := repeatAll_ok ((List.range pt.k).map fun i => (⟨g, pt, i, 0⟩ : ClusterObj α)) reps
      (reps.map fun p => match g.get p with | .ok v => v | .error _ => junk) (by simp [hlen])
      (by simp [hlen]) (by
        intro i c p v hc hpr hv
        have hik : i < pt.k := by
          rw [← hlen]; exact (List.getElem?_eq_some_iff.1 hpr).1
        rw [List.getElem?_map, List.getElem?_range hik] at hc
        simp only [Option.map_some, Option.some.injEq] at hc
        subst hc
        rw [List.getElem?_map, hpr] at hv
        simp only [Option.map_some, Option.some.injEq] at hv
        subst hv
        rw [ClusterObj.valueAt_member (hok i) (hmem i p hpr)]
        exact hget p (List.mem_of_getElem? hpr))
    set vs := reps.map fun p => match g.get p with | .ok v => v | .error _ => junk with hvs
    set cs' := ((((List.range pt.k).map fun i => (⟨g, pt, i, 0⟩ : ClusterObj α)).zip vs).map fun cv =>
        cv.1.newRegion (Grid.const cv.1.region.xLen cv.1.region.yLen cv.2)) with hcs'
    -- the i-th repeated cluster
    have hi : ∀ i c, cs'[i]? = some c → ∃ r v, reps[i]? = some r ∧ g.get r = .ok v ∧ i < pt.k ∧
        c = ⟨Grid.const g.xLen g.yLen v, pt, i, 0⟩ := by
      intro i c hc
      rw [hcs', List.getElem?_map] at hc
      cases hz : (((List.range pt.k).map fun i => (⟨g, pt, i, 0⟩ : ClusterObj α)).zip vs)[i]? with
      | none => rw [hz] at hc; simp at hc
      | some cv =>
        rw [hz] at hc
        simp only [Option.map_some, Option.some.injEq] at hc
        obtain ⟨hz1, hz2⟩ := List.getElem?_zip_eq_some.1 hz
        rw [hvs, List.getElem?_map] at hz2
        cases hr : reps[i]? with
        | none => rw [hr] at hz2; simp at hz2
        | some r =>
          rw [hr] at hz2
          simp only [Option.map_some, Option.some.injEq] at hz2
          have hik : i < pt.k := by rw [← hlen]; exact (List.getElem?_eq_some_iff.1 hr).1
          rw [List.getElem?_map, List.getElem?_range hik] at hz1
          simp only [Option.map_some, Option.some.injEq] at hz1
          refine ⟨r, cv.2, rfl, ?_, hik, ?_⟩
          · rw [← hz2]; exact hget r (List.mem_of_getElem? hr)
          · rw [← hc, ← hz1]; rfl
    have hlen' : cs'.length = pt.k := by simp [hcs', hvs, hlen]
    obtain ⟨h, h1, h2, h3, h4, h5⟩ := pt.mergeClusters_ok hp h0 cs' junk
      (fun p => match pt.labels.get p with
        | .ok l => (match reps[l]? with
          | some r => (match g.get r with | .ok v => v | .error _ => junk)
          | none => junk)
        | .error _ => junk)
      (by
        intro c hc
        obtain ⟨i, hci⟩ := List.getElem?_of_mem hc
        obtain ⟨r, v, _, _, _, rfl⟩ := hi i c hci
        exact ⟨sx.symm, sy.symm⟩)
      (by
        apply List.ext_getElem?
        intro i
        rw [List.getElem?_map]
        rcases Nat.lt_or_ge i pt.k with hik | hik
        · rw [List.getElem?_range hik]
          have hc : cs'[i]? = some cs'[i] := List.getElem?_eq_getElem (by rw [hlen']; exact hik)
          obtain ⟨r, v, _, _, _, hce⟩ := hi i _ hc
          rw [hc, hce]; rfl
        · rw [List.getElem?_eq_none (by rw [hlen']; exact hik),
            List.getElem?_eq_none (by simpa using hik)]; rfl)
      (by
        intro p l c hl hc
        obtain ⟨r, v, hr, hv, hlk, rfl⟩ := hi l c hc
        have hb := (Grid.get_eq_ok_iff _ _ _).1 hl
        rw [sx, sy] at hb
        rw [ClusterObj.valueAt_member ⟨Grid.const_wf _ _ _, hp.wf, sx, sy⟩ hl]
        simp only [hl, hr, hv]
        exact Grid.get_const hb.1 hb.2.1)
    refine ⟨h, ?_, h2, by rw [h3, sx], by rw [h4, sy], ?_⟩
    · unfold Partition.mergeWithRepresentatives
      rw [if_pos (by simp [hlen])]
      rw [hrep]; exact h1
    · intro p hx hy
      rw [← sx] at hx; rw [← sy] at hy
      obtain ⟨l, hl⟩ := pt.labels.exists_get hp.wf hx hy
      have hlk : l < reps.length := by rw [hlen]; exact hp.get_lt hl
      have hr : reps[l]? = some reps[l] := List.getElem?_eq_getElem hlk
      obtain ⟨v, hv⟩ := g.exists_get hg (hin _ (List.mem_of_getElem? hr)).1
        (hin _ (List.mem_of_getElem? hr)).2
      refine ⟨l, reps[l], v, hl, hr, hv, ?_⟩
      rw [h5 p hx hy]
      simp [hl, hr, hv]
  · rintro ⟨i, p, hpr, hne⟩
    have hik : i < pt.k := by rw [← hlen]; exact (List.getElem?_eq_some_iff.1 hpr).1
    have hok : ∀ i, (⟨g, pt, i, 0⟩ : ClusterObj α).OK := fun i => ⟨hg, hp.wf, sx, sy⟩
    have herr := repeatAll_error ((List.range pt.k).map fun i => (⟨g, pt, i, 0⟩ : ClusterObj α)) reps
      (by simp [hlen]) (by
        intro j c q hc hq
        have hjk : j < pt.k := by rw [← hlen]; exact (List.getElem?_eq_some_iff.1 hq).1
        rw [List.getElem?_map, List.getElem?_range hjk] at hc
        simp only [Option.map_some, Option.some.injEq] at hc
        subst hc
        obtain ⟨hx, hy⟩ := hin q (List.mem_of_getElem? hq)
        by_cases hm : pt.labels.get q = .ok j
        · left
          obtain ⟨v, hv⟩ := g.exists_get hg hx hy
          exact ⟨v, by rw [ClusterObj.valueAt_member (hok j) hm]; exact hv⟩
        · right; exact ClusterObj.valueAt_nonmember (hok j) hx hy hm)
      ⟨i, ⟨g, pt, i, 0⟩, p, by rw [List.getElem?_map, List.getElem?_range hik]; rfl, hpr,
        ClusterObj.valueAt_nonmember (hok i) (hin p (List.mem_of_getElem? hpr)).1
          (hin p (List.mem_of_getElem? hpr)).2 hne⟩
    unfold Partition.mergeWithRepresentatives
    rw [if_pos (by simp [hlen]), herr]

example : ∃ cs, examplePartition.createAllClusters (Grid.mk 2 3 [10, 11, 12, 13, 14, 15]) = .ok cs ∧
    examplePartition.mergeWithRepresentatives cs [⟨1, 1⟩, ⟨1, 0⟩, ⟨0, 2⟩] 99 =
      .ok (⟨2, 3, [14, 12, 12, 13, 14, 12]⟩, examplePartition) ∧
    examplePartition.mergeWithRepresentatives cs [⟨1, 1⟩, ⟨0, 0⟩, ⟨0, 2⟩] 99 = .error .valueError :=
  ⟨_, rfl, by decide, by decide⟩

/-- C14 (rejected calls): another number of representatives than clusters is rejected; otherwise the first
representative that is not a point of its cluster decides, IndexError if it is outside of the region and
ValueError if it is a point of another cluster. -/
theorem C14_rejected (pt : Partition) (hp : pt.Valid)
    (g : Grid α) (hg : g.WF) (sx : pt.labels.xLen = g.xLen) (sy : pt.labels.yLen = g.yLen)
    (reps : List Point) (junk : α) :
    ∃ cs, pt.createAllClusters g = .ok cs ∧
      (reps.length ≠ pt.k → pt.mergeWithRepresentatives cs reps junk = .error .assertionError) ∧
      (reps.length = pt.k → ∀ (i : Nat) (p : Point), reps[i]? = some p →
        (∀ j < i, ∀ q, reps[j]? = some q → pt.labels.get q = .ok j) →
        (¬ (p.x < g.xLen ∧ p.y < g.yLen) →
          pt.mergeWithRepresentatives cs reps junk = .error .indexError) ∧
        (∀ l, pt.labels.get p = .ok l → l ≠ i →
          pt.mergeWithRepresentatives cs reps junk = .error .valueError)) := by
  have hok : ∀ i, (⟨g, pt, i, 0⟩ : ClusterObj α).OK := fun i => ⟨hg, hp.wf, sx, sy⟩
  have key : ∀ (n start : Nat) (reps : List Point) (i : Nat) (p : Point) (e : PyErr),
      i < n → reps[i]? = some p →
      (∀ j < i, ∀ q, reps[j]? = some q → pt.labels.get q = .ok (start + j)) →
      (⟨g, pt, start + i, 0⟩ : ClusterObj α).valueAt p = .error e →
      repeatAll ((List.range' start n).map fun i => (⟨g, pt, i, 0⟩ : ClusterObj α)) reps = .error e := by
    intro n
    induction n with
    | zero => intro _ _ i _ _ hi; omega
    | succ n ih =>
      intro start reps i p e hi hr hpre hv
      cases reps with
      | nil => simp at hr
      | cons q rest =>
        rw [List.range'_succ, List.map_cons, repeatAll]
        cases i with
        | zero =>
          cases hr
          rw [show start + 0 = start from rfl] at hv
          rw [ClusterObj.repeatPoint, hv]
        | succ i =>
          have hq := hpre 0 (by omega) q rfl
          have hb := (Grid.get_eq_ok_iff _ _ _).1 hq
          obtain ⟨v, hgv⟩ := g.exists_get hg (p := q) (sx ▸ hb.1) (sy ▸ hb.2.1)
          have h1 : (⟨g, pt, start, 0⟩ : ClusterObj α).valueAt q = .ok v := by
            rw [ClusterObj.valueAt_member (hok start) hq]; exact hgv
          have h2 := ih (start + 1) rest i p e (by omega) (by simpa using hr)
            (fun j hj q hq => by
              have := hpre (j + 1) (by omega) q (by simpa using hq)
              rwa [show start + 1 + j = start + (j + 1) by omega])
            (by rwa [show start + 1 + i = start + (i + 1) by omega])
          simp only [ClusterObj.repeatPoint, h1, h2]
  refine ⟨_, pt.createAllClusters_eq g sx sy, ?_, ?_⟩
  · intro hne
    unfold Partition.mergeWithRepresentatives
    rw [if_neg (by simpa using Ne.symm hne)]
  · intro hlen i p hr hpre
    have hik : i < pt.k := by rw [← hlen]; exact (List.getElem?_eq_some_iff.1 hr).1
    have hrun : ∀ e, (⟨g, pt, i, 0⟩ : ClusterObj α).valueAt p = .error e →
        pt.mergeWithRepresentatives ((List.range pt.k).map fun i => (⟨g, pt, i, 0⟩ : ClusterObj α)) reps junk =
          .error e := by
      intro e he
      unfold Partition.mergeWithRepresentatives
      rw [if_pos (by simp [hlen]), List.range_eq_range', key pt.k 0 reps i p e hik hr
        (by simpa using hpre) (by simpa using he)]
    constructor
    · intro hout
      apply hrun
      have : pt.labels.get p = .error .indexError := by
        rw [Grid.get, if_neg (by rw [sx, sy]; exact hout)]
      simp only [ClusterObj.valueAt, Partition.isMember, this]
    · intro l hl hne
      apply hrun
      have hb := (Grid.get_eq_ok_iff _ _ _).1 hl
      exact ClusterObj.valueAt_nonmember (hok i) (sx ▸ hb.1) (sy ▸ hb.2.1)
        (by rw [hl]; simpa using hne)

example : ∃ cs, examplePartition.createAllClusters (Grid.mk 2 3 [10, 11, 12, 13, 14, 15]) = .ok cs ∧
    examplePartition.mergeWithRepresentatives cs [⟨1, 1⟩, ⟨1, 0⟩] 99 = .error .assertionError ∧
    examplePartition.mergeWithRepresentatives cs [⟨1, 1⟩, ⟨2, 0⟩, ⟨0, 0⟩] 99 = .error .indexError ∧
    examplePartition.mergeWithRepresentatives cs [⟨1, 1⟩, ⟨0, 0⟩, ⟨9, 9⟩] 99 = .error .valueError :=
  ⟨_, rfl, by decide, by decide, by decide⟩

/-- Helper: the labels at a list of in-range points. -/
theorem Partition.membership_of_points_eq (pt : Partition) (hp : pt.labels.WF) (ps : List Point)
    (hin : ∀ p ∈ ps, p.x < pt.labels.xLen ∧ p.y < pt.labels.yLen) :
    ∃ ls, pt.membershipOfIndices (ps.map fun p => p.x * pt.labels.yLen + p.y) = .ok ls ∧
      ps.map pt.labels.get = ls.map Except.ok := by
  induction ps with
  | nil => exact ⟨[], rfl, rfl⟩
  | cons p ps ih =>
    obtain ⟨ls, h1, h2⟩ := ih (fun q hq => hin q (by simp [hq]))
    obtain ⟨v, h3, h4⟩ := pt.labels.get_of_lt hp (hin p (by simp)).1 (hin p (by simp)).2
    refine ⟨v :: ls, ?_, by simp [h4, h2]⟩
    unfold Partition.membershipOfIndices at h1 ⊢
    rw [List.map_cons, List.mapM_cons, h1, h3]; rfl

/-- C16: for points inside the region, `membership_of_points` reports in the order of the query the
unique index for which `is_member` holds. -/
theorem C16_membership_queries (pt : Partition) (hp : pt.Valid) (ps : List Point)
    (hin : ∀ p ∈ ps, p.x < pt.labels.xLen ∧ p.y < pt.labels.yLen) :
    ∃ ls, pt.membershipOfPoints ps = .ok ls ∧ ls.length = ps.length ∧
      ∀ (n : Nat) (p : Point) (l : Nat), ps[n]? = some p → ls[n]? = some l →
        l < pt.k ∧ ∀ i, pt.isMember p i = .ok (decide (i = l)) := by
  obtain ⟨ls, h1, h2⟩ := pt.membership_of_points_eq hp.wf ps hin
  refine ⟨ls, h1, ?_, ?_⟩
  · have := congrArg List.length h2
    simpa using this.symm
  · intro n p l hp' hl'
    have h3 := congrArg (fun l => l[n]?) h2
    simp only [List.getElem?_map, hp', hl', Option.map_some, Option.some.injEq] at h3
    refine ⟨hp.get_lt h3, ?_⟩
    intro i
    simp only [Partition.isMember, h3, Except.ok.injEq]
    by_cases e : i = l
    · simp [e]
    · have : ¬ l = i := fun h => e h.symm
      simp [e, this]

/-- C16 (indices): `membership_of_point_indices` reports the label at each index in row-major order and raises
IndexError if and only if one of the indices is not one of a point of the region. -/
theorem C16_indices (pt : Partition) (hp : pt.Valid) (idx : List Nat) :
    (∀ n ∈ idx, n < pt.labels.xLen * pt.labels.yLen) ∧
      (∃ ls, pt.membershipOfIndices idx = .ok ls ∧ List.Forall₂ (fun n l => pt.labels.data[n]? = some l) idx ls) ∨
    (∃ n ∈ idx, pt.labels.xLen * pt.labels.yLen ≤ n) ∧ pt.membershipOfIndices idx = .error .indexError := by
  have hlen : pt.labels.data.length = pt.labels.xLen * pt.labels.yLen := hp.wf
  unfold Partition.membershipOfIndices
  induction idx with
  | nil => exact .inl ⟨by simp, [], rfl, .nil⟩
  | cons n rest ih =>
    rw [List.mapM_cons]
    cases hn : pt.labels.data[n]? with
    | none =>
      rw [List.getElem?_eq_none_iff] at hn
      exact .inr ⟨⟨n, by simp, by omega⟩, rfl⟩
    | some l =>
      have hlt := (List.getElem?_eq_some_iff.1 hn).1
      rcases ih with ⟨h1, ls, h2, h3⟩ | ⟨⟨m, hm, h1⟩, h2⟩
      · refine .inl ⟨?_, l :: ls, ?_, .cons hn h3⟩
        · intro m hm
          rcases List.mem_cons.1 hm with rfl | hm
          · omega
          · exact h1 m hm
        · rw [h2]; rfl
      · exact .inr ⟨⟨m, by simp [hm], h1⟩, by rw [h2]; rfl⟩

example : examplePartition.membershipOfIndices [5, 0, 3] = .ok [2, 0, 1] ∧
    examplePartition.membershipOfIndices [5, 6] = .error .indexError := by decide

example : examplePartition.membershipOfPoints [⟨1, 2⟩, ⟨0, 0⟩, ⟨1, 0⟩] = .ok [2, 0, 1] := by decide

/-- C15 (inside the region): the intersecting clusters of a rectangle are exactly the labels of
its points, each once. -/
theorem C15_intersecting_inside (pt : Partition) (hp : pt.labels.WF) (r : Region)
    (hx : r.x2 ≤ pt.labels.xLen) (hy : r.y2 ≤ pt.labels.yLen) :
    ∃ ls, pt.clustersIntersecting r = .ok ls ∧ ls.Nodup ∧
      ∀ l, l ∈ ls ↔ ∃ p : Point, r.x1 ≤ p.x ∧ p.x < r.x2 ∧ r.y1 ≤ p.y ∧ p.y < r.y2 ∧
        pt.labels.get p = .ok l := by
  let ps : List Point := (List.range' r.x1 (r.x2 - r.x1)).flatMap fun x =>
    (List.range' r.y1 (r.y2 - r.y1)).map fun y => ⟨x, y⟩
  have hmem : ∀ p : Point, p ∈ ps ↔ r.x1 ≤ p.x ∧ p.x < r.x2 ∧ r.y1 ≤ p.y ∧ p.y < r.y2 := by
    intro p
    simp only [ps, List.mem_flatMap, List.mem_map, List.mem_range'_1]
    constructor
    · rintro ⟨x, hx, y, hy, rfl⟩; simp only; omega
    · intro h; exact ⟨p.x, by omega, p.y, by omega, rfl⟩
  obtain ⟨ls, h1, h2⟩ := pt.membership_of_points_eq hp ps (by
    intro p hp'
    have := (hmem p).1 hp'
    omega)
  have hidx : ps.map (fun p => p.x * pt.labels.yLen + p.y) =
      (List.range' r.x1 (r.x2 - r.x1)).flatMap fun x =>
        (List.range' r.y1 (r.y2 - r.y1)).map fun y => x * pt.labels.yLen + y := by
    simp [ps, List.map_flatMap, Function.comp_def]
  refine ⟨ls.dedup, ?_, List.nodup_dedup ls, ?_⟩
  · simp only [Partition.clustersIntersecting]
    rw [← hidx, h1]
  · intro l
    rw [List.mem_dedup]
    have : l ∈ ls ↔ (Except.ok l : Except PyErr Nat) ∈ ls.map Except.ok := by
      rw [List.mem_map]; simp
    rw [this, ← h2, List.mem_map]
    constructor
    · rintro ⟨p, hp', hl⟩
      have := (hmem p).1 hp'
      exact ⟨p, this.1, this.2.1, this.2.2.1, this.2.2.2, hl⟩
    · rintro ⟨p, a, b, c, d, hl⟩
      exact ⟨p, (hmem p).2 ⟨a, b, c, d⟩, hl⟩

example : ∃ ls, examplePartition.clustersIntersecting ⟨0, 2, 1, 3⟩ = .ok ls ∧ ls = [0, 2] :=
  ⟨_, rfl, by decide⟩

/-- C15 (medoids): for a rectangle inside the region and a partition with one medoid per cluster,
the medoids found are exactly those of the clusters with a point in the rectangle. -/
theorem C15_medoids_inside (pt : Partition) (hp : pt.Valid) (r : Region)
    (hx : r.x2 ≤ pt.labels.xLen) (hy : r.y2 ≤ pt.labels.yLen) (medoids : List Point)
    (hlen : medoids.length = pt.k) :
    ∃ ms, pt.medoidsIntersecting (some medoids) r = .ok ms ∧
      ∀ m, m ∈ ms ↔ ∃ (p : Point) (l : Nat), r.x1 ≤ p.x ∧ p.x < r.x2 ∧ r.y1 ≤ p.y ∧ p.y < r.y2 ∧
        pt.labels.get p = .ok l ∧ medoids[l]? = some m := by
  obtain ⟨ls, h1, h2, h3⟩ := C15_intersecting_inside pt hp.wf r hx hy
  have hlk : ∀ l ∈ ls, l < medoids.length := by
    intro l hl
    obtain ⟨p, _, _, _, _, hg⟩ := (h3 l).1 hl
    rw [hlen]; exact hp.get_lt hg
  have key : ∀ ls' : List Nat, (∀ l ∈ ls', l < medoids.length) → ∃ ms, (ls'.mapM fun i =>
      match medoids[i]? with
      | some m => (Except.ok m : Except PyErr Point)
      | none => .error .indexError) = .ok ms ∧
      ∀ m, m ∈ ms ↔ ∃ l, l ∈ ls' ∧ medoids[l]? = some m := by
    intro ls'
    induction ls' with
    | nil => intro _; exact ⟨[], rfl, by simp⟩
    | cons l ls' ih =>
      intro hl
      obtain ⟨ms, h4, h5⟩ := ih (fun x hx => hl x (by simp [hx]))
      have hlt := hl l (by simp)
      refine ⟨medoids[l] :: ms, ?_, ?_⟩
      · rw [List.mapM_cons, h4, List.getElem?_eq_getElem hlt]; rfl
      · intro m
        simp only [List.mem_cons, h5]
        constructor
        · rintro (rfl | ⟨l', h6, h7⟩)
          · exact ⟨l, Or.inl rfl, List.getElem?_eq_getElem hlt⟩
          · exact ⟨l', Or.inr h6, h7⟩
        · rintro ⟨l', rfl | h6, h7⟩
          · left
            rw [List.getElem?_eq_getElem hlt] at h7
            simpa using h7.symm
          · exact Or.inr ⟨l', h6, h7⟩
  obtain ⟨ms, h4, h5⟩ := key ls hlk
  refine ⟨ms, by simp only [Partition.medoidsIntersecting, h1]; exact h4, ?_⟩
  intro m
  rw [h5]
  constructor
  · rintro ⟨l, hl, hm⟩
    obtain ⟨p, a, b, c, d, e⟩ := (h3 l).1 hl
    exact ⟨p, l, a, b, c, d, e, hm⟩
  · rintro ⟨p, l, a, b, c, d, e, hm⟩
    exact ⟨l, (h3 l).2 ⟨p, a, b, c, d, e⟩, hm⟩

/-- C15 (partial: the claim is that rectangles which stick out of the region are not given clusters that they
do not intersect). What is returned for any rectangle: the points are replaced by their indices
`x * y_len + y`, whether or not they are points of the region. If one of these indices is not the index of a
point, the call raises IndexError; otherwise the labels at these indices are returned, each once. -/
theorem C15_any_rectangle_partial (pt : Partition) (hp : pt.Valid) (r : Region) :
    ((∃ x y, r.x1 ≤ x ∧ x < r.x2 ∧ r.y1 ≤ y ∧ y < r.y2 ∧
        pt.labels.xLen * pt.labels.yLen ≤ x * pt.labels.yLen + y) →
      pt.clustersIntersecting r = .error .indexError) ∧
    ((∀ x y, r.x1 ≤ x → x < r.x2 → r.y1 ≤ y → y < r.y2 →
        x * pt.labels.yLen + y < pt.labels.xLen * pt.labels.yLen) →
      ∃ ls, pt.clustersIntersecting r = .ok ls ∧ ls.Nodup ∧
        ∀ l, l ∈ ls ↔ ∃ x y, r.x1 ≤ x ∧ x < r.x2 ∧ r.y1 ≤ y ∧ y < r.y2 ∧
          pt.labels.data[x * pt.labels.yLen + y]? = some l) := by
  have hmem : ∀ n, (n ∈ (List.range' r.x1 (r.x2 - r.x1)).flatMap fun x =>
      (List.range' r.y1 (r.y2 - r.y1)).map fun y => x * pt.labels.yLen + y) ↔
      ∃ x y, r.x1 ≤ x ∧ x < r.x2 ∧ r.y1 ≤ y ∧ y < r.y2 ∧ x * pt.labels.yLen + y = n := by
    intro n
    simp only [List.mem_flatMap, List.mem_map, List.mem_range'_1]
    constructor
    · rintro ⟨x, hx, y, hy, rfl⟩; exact ⟨x, y, by omega, by omega, by omega, by omega, rfl⟩
    · rintro ⟨x, y, a, b, c, d, rfl⟩; exact ⟨x, by omega, y, by omega, rfl⟩
  unfold Partition.clustersIntersecting
  rcases C16_indices pt hp ((List.range' r.x1 (r.x2 - r.x1)).flatMap fun x =>
      (List.range' r.y1 (r.y2 - r.y1)).map fun y => x * pt.labels.yLen + y) with
    ⟨h1, ls, h2, h3⟩ | ⟨⟨n, hn, h1⟩, h2⟩
  · constructor
    · rintro ⟨x, y, a, b, c, d, e⟩
      exact absurd (h1 _ ((hmem _).2 ⟨x, y, a, b, c, d, rfl⟩)) (by omega)
    · intro _
      refine ⟨ls.dedup, by simp only [h2], List.nodup_dedup _, fun l => ?_⟩
      rw [List.mem_dedup]
      constructor
      · intro hl
        obtain ⟨n, hn, hnl⟩ := (List.forall₂_iff_get.1 h3 |> fun ⟨hlen, h⟩ => by
          obtain ⟨i, hi, rfl⟩ := List.mem_iff_getElem.1 hl
          exact ⟨_, List.getElem_mem (hlen ▸ hi), h i (hlen ▸ hi) hi⟩ : ∃ n, n ∈ _ ∧
            pt.labels.data[n]? = some l)
        obtain ⟨x, y, a, b, c, d, rfl⟩ := (hmem n).1 hn
        exact ⟨x, y, a, b, c, d, hnl⟩
      · rintro ⟨x, y, a, b, c, d, hl⟩
        have hn := (hmem _).2 ⟨x, y, a, b, c, d, rfl⟩
        obtain ⟨i, hi, he⟩ := List.mem_iff_getElem.1 hn
        obtain ⟨hlen, h⟩ := List.forall₂_iff_get.1 h3
        have := h i hi (hlen ▸ hi)
        simp only [List.get_eq_getElem] at this
        rw [he, hl] at this
        cases this
        exact List.getElem_mem _
  · obtain ⟨x, y, a, b, c, d, rfl⟩ := (hmem n).1 hn
    constructor
    · intro _; simp only [h2]
    · intro h
      exact absurd (h x y a b c d) (by omega)

/-- A rectangle that sticks out to the right, and one that sticks out below. -/
example : examplePartition.clustersIntersecting ⟨0, 1, 2, 4⟩ = .ok [2, 1] ∧
    examplePartition.clustersIntersecting ⟨1, 3, 0, 1⟩ = .error .indexError := by decide

/-- C15 is false outside the region: for every partition with at least two rows, the cell directly
right of the first row (which contains no point of the region) is reported to intersect the
cluster of the first point of the second row. -/
theorem C15_outside_refuted (pt : Partition) (hp : pt.labels.WF) (hx : 2 ≤ pt.labels.xLen)
    (hy : 1 ≤ pt.labels.yLen) :
    ∃ l, pt.labels.get ⟨1, 0⟩ = .ok l ∧
      pt.clustersIntersecting ⟨0, 1, pt.labels.yLen, pt.labels.yLen + 1⟩ = .ok [l] ∧
      ∀ p : Point, p.x < 1 → pt.labels.yLen ≤ p.y → ∀ l', pt.labels.get p ≠ .ok l' := by
  obtain ⟨l, h1, h2⟩ := pt.labels.get_of_lt hp (p := ⟨1, 0⟩) (by simp; omega) hy
  refine ⟨l, h2, ?_, ?_⟩
  · simp only [Nat.one_mul, Nat.add_zero] at h1
    have : pt.membershipOfIndices [pt.labels.yLen] = .ok [l] := by
      simp [Partition.membershipOfIndices, List.mapM_cons, h1]
    simp [Partition.clustersIntersecting, List.range'_succ, this]
  · intro p _ hpy l' hl'
    have := (Grid.get_eq_ok_iff _ _ _).1 hl'
    omega

example : examplePartition.clustersIntersecting ⟨0, 1, 3, 4⟩ = .ok [1] := by decide

/-- C17 is false: the constructor accepts matrices in which labels are missing; for every `k ≥ 2`
the 1 by 1 matrix holding only the label `k - 1` is accepted as a partition with `k` clusters. -/
theorem C17_labels_present_refuted (k : Nat) (hk : 2 ≤ k) :
    ∃ pt, Partition.create ⟨1, 1, [k - 1]⟩ k = .ok pt ∧ pt.k = k ∧
      Partition.fromMembershipArray [k - 1] 1 1 = .ok pt ∧
      ∀ p : Point, pt.labels.get p ≠ .ok 0 := by
  refine ⟨⟨⟨1, 1, [k - 1]⟩, k, 0⟩, ?_, rfl, ?_, ?_⟩
  · simp [Partition.create]; omega
  · have : k - 1 + 1 = k := by omega
    simp [Partition.fromMembershipArray, Partition.create, this]
  · intro p hp
    obtain ⟨h1, h2, h3⟩ := (Grid.get_eq_ok_iff _ _ _).1 hp
    have hx : p.x = 0 := by simpa using h1
    have hy : p.y = 0 := by simpa using h2
    rw [hx, hy] at h3
    simp at h3; omega

/-- C17, what holds: a successfully created partition has a valid matrix (all labels below `k`),
`k ≥ 1` and at least the last label `k - 1` is present; any other `k` is refused. Missing: presence
of the labels below `k - 1`, which the constructor does not check (`C17_labels_present_refuted`). -/
theorem C17_labels_partial (labels : Grid Nat) (k : Nat) (hwf : labels.WF) :
    (∀ pt, Partition.create labels k = .ok pt →
      pt.Valid ∧ pt.labels = labels ∧ pt.k = k ∧ pt.pointIndex = 0 ∧ k - 1 ∈ labels.data) ∧
    (0 < labels.xLen * labels.yLen →
      (∃ pt, Partition.create labels k = .ok pt) ∨
        Partition.create labels k = .error .assertionError) := by
  constructor
  · intro pt h
    unfold Partition.create at h
    cases hm : labels.data.max? with
    | none => rw [hm] at h; cases h
    | some m =>
      rw [hm] at h
      simp only at h
      split at h
      · rename_i hk
        cases h
        obtain ⟨h1, h2⟩ := max?_spec hm
        refine ⟨⟨hwf, by simp only; omega, ?_⟩, rfl, rfl, rfl, by rw [hk]; exact h1⟩
        intro l hl
        have := h2 l hl
        simp only; omega
      · cases h
  · intro hpos
    obtain ⟨m, hm⟩ := max?_some_of_ne_nil (l := labels.data) (by
      intro h
      unfold Grid.WF at hwf
      rw [h] at hwf; simp only [List.length_nil] at hwf; omega)
    unfold Partition.create
    rw [hm]
    simp only
    split
    · exact Or.inl ⟨_, rfl⟩
    · exact Or.inr rfl

/-- C17, exactly which numbers of clusters are accepted: the number is the largest label plus one. -/
theorem C17_accepted_partial (labels : Grid Nat) (k : Nat) :
    (∃ pt, Partition.create labels k = .ok pt) ↔ 1 ≤ k ∧ k - 1 ∈ labels.data ∧ ∀ l ∈ labels.data, l < k := by
  unfold Partition.create
  cases hm : labels.data.max? with
  | none =>
    have : labels.data = [] := List.max?_eq_none_iff.1 hm
    simp [this]
  | some m =>
    obtain ⟨h1, h2⟩ := max?_spec hm
    simp only
    constructor
    · rintro ⟨pt, h⟩
      split at h
      · rename_i hk
        refine ⟨by omega, by rw [hk]; exact h1, fun l hl => ?_⟩
        have := h2 l hl
        omega
      · cases h
    · rintro ⟨k1, k2, k3⟩
      have a1 := k3 m h1
      have a2 := h2 _ k2
      exact ⟨_, if_pos (by omega)⟩

/-- Labels with a gap are accepted for three clusters, not for two. -/
example : (∃ pt, Partition.create ⟨1, 3, [0, 2, 0]⟩ 3 = .ok pt) ∧ ¬ ∃ pt, Partition.create ⟨1, 3, [0, 2, 0]⟩ 2 = .ok pt := by
  rw [C17_accepted_partial, C17_accepted_partial]
  decide

/-- C17 for regular partitions: all `k` labels are present and the partition reports `k`. -/
theorem C17_regular_partition_labels (k xLen yLen : Nat) (hk : 1 ≤ k) (pt : Partition)
    (h : Partition.withRegular k xLen yLen = .ok pt) :
    pt.Valid ∧ pt.k = k ∧ pt.labels.xLen = xLen ∧ pt.labels.yLen = yLen ∧
      ∀ l, l < k → ∃ p, pt.labels.get p = .ok l := by
  unfold Partition.withRegular at h
  cases hr : regularPartitioning xLen yLen k with
  | error e => rw [hr] at h; cases h
  | ok g =>
    rw [hr] at h
    simp only at h
    obtain ⟨h1, h2, h3, h4, _⟩ := C01_regular_partition_covers xLen yLen k hk g hr
    have hpres : ∀ l, l < k → ∃ p, g.get p = .ok l := by
      intro l hl
      obtain ⟨x1, x2, y1, y2, ha, hb, hc, hd, he⟩ := h4 l hl
      exact ⟨⟨x1, y1⟩, (he ⟨x1, y1⟩).2 (by simp; omega)⟩
    have hwf : g.WF := by
      by_cases hs : max xLen yLen < (max 0 0) ∨ False
      · simp at hs
      · obtain ⟨a, b, hab⟩ := C05_balanced_divisors k hk
        obtain ⟨hc1, hc2⟩ := C02_rejects_exactly_small xLen yLen k a b hk hab.2
        by_cases hsm : max xLen yLen < b ∨ min xLen yLen < a
        · have := hc1.2 hsm
          rw [hr] at this; cases this
        · obtain ⟨g', hg', hwf', _⟩ := hc2 hsm
          rw [hr] at hg'; cases hg'; exact hwf'
    unfold Partition.fromMembershipArray at h
    cases hm : g.data.max? with
    | none => rw [hm] at h; cases h
    | some m =>
      rw [hm] at h
      simp only at h
      split at h
      · have hge : (⟨xLen, yLen, g.data⟩ : Grid Nat) = g := by
          cases g; simp only at h1 h2; subst h1; subst h2; rfl
        rw [hge] at h
        obtain ⟨hv, he1, he2, _, _⟩ := (C17_labels_partial g (m + 1) hwf).1 pt h
        have hmk : m + 1 = k := by
          obtain ⟨hm1, hm2⟩ := max?_spec hm
          obtain ⟨p, hp⟩ := hpres (k - 1) (by omega)
          have h5 := hm2 _ (List.mem_of_getElem? ((Grid.get_eq_ok_iff _ _ _).1 hp).2.2)
          obtain ⟨n, hn⟩ := List.getElem?_of_mem hm1
          have hnl : n < xLen * yLen := by
            rw [← h1, ← h2, ← hwf]; exact (List.getElem?_eq_some_iff.1 hn).1
          obtain ⟨l, hl1, hl2⟩ := h3 ⟨n / yLen, n % yLen⟩ (div_lt_of_lt_mul' hnl)
            (mod_lt_of_lt_mul hnl)
          have h6 := ((Grid.get_eq_ok_iff _ _ _).1 hl2).2.2
          rw [h2] at h6
          simp only [idx_of_div_mod] at h6
          rw [hn] at h6
          simp only [Option.some.injEq] at h6
          omega
        refine ⟨hv, by rw [he2, hmk], by rw [he1, h1], by rw [he1, h2], ?_⟩
        rw [he1]; exact hpres
      · cases h

example : ∃ pt, Partition.withRegular 6 5 7 = .ok pt ∧ pt.k = 6 := ⟨_, rfl, by decide +kernel⟩

end Spta
