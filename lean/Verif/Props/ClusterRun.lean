import Mathlib.Algebra.BigOperators.Group.List.Basic
import Mathlib.Algebra.Order.Monoid.WithTop
import Mathlib.Data.List.GetD
import Verif.Props.Clusters
import Verif.Props.Extrema
import Verif.Props.KMedoids
import Verif.Props.Merge
import Verif.Props.RegularPartition
import Verif.Props.SolverTrain
import Verif.Spec.ClusterRun

/-!
# C102–C104: clustering with medoids, its report, and training with it
-/

set_option linter.unusedSectionVars false

namespace Spta

section

variable {K : Type} [Field K] [LinearOrder K] [IsStrictOrderedRing K]

theorem sumIs_coe (f : Point → K) (ps : List Point) (v : WithTop K) :
    SumIs (ps.map fun q => some (f q : WithTop K)) v ↔ v = (((ps.map f).sum : K) : WithTop K) := by
  have h : (ps.map fun q => (f q : WithTop K)).sum = (((ps.map f).sum : K) : WithTop K) := by
    induction ps with
    | nil => rfl
    | cons p ps ih => rw [List.map_cons, List.sum_cons, ih, List.map_cons, List.sum_cons, WithTop.coe_add]
  constructor
  · rintro ⟨vs, h1, rfl⟩
    rw [← h]
    congr 1
    have : (ps.map fun q => (f q : WithTop K)).map some = vs.map some := by rw [← h1, List.map_map]; rfl
    exact (List.map_injective_iff.2 (Option.some_injective _) this).symm
  · rintro rfl
    exact ⟨ps.map fun q => (f q : WithTop K), by rw [List.map_map]; rfl, h.symm⟩

/-- The centroid for finite distances. -/
theorem isCentroid_finite {d : Point → Point → K} {ps : List Point} (hps : ps ≠ [])
    {res : Option (Point × List (Option (WithTop K)))}
    (h : IsCentroid (fun p q => some (d p q : WithTop K)) ps res) :
    ∃ c ds, res = some (c, ds) ∧ IsMedoid d ps c := by
  cases res with
  | none =>
    obtain ⟨p, hp⟩ := List.exists_mem_of_ne_nil ps hps
    have := h p hp _ ((sumIs_coe (d p) ps _).2 rfl)
    exact absurd this WithTop.coe_ne_top
  | some cd =>
    obtain ⟨c, ds⟩ := cd
    obtain ⟨rfl, v, h1, -, h3, pre, post, h4, h5⟩ := h
    refine ⟨c, _, rfl, pre, post, h4, ?_, ?_⟩
    · intro q hq
      have := h3 q hq _ ((sumIs_coe (d q) ps _).2 rfl)
      rw [(sumIs_coe (d c) ps v).1 h1] at this
      exact WithTop.coe_le_coe.1 this
    · intro q hq
      have hq' : q ∈ ps := by rw [h4]; exact List.mem_append_left _ hq
      have hle := h3 q hq' _ ((sumIs_coe (d q) ps _).2 rfl)
      rw [(sumIs_coe (d c) ps v).1 h1] at hle
      refine lt_of_le_of_ne (WithTop.coe_le_coe.1 hle) ?_
      intro e
      apply h5 q hq
      rw [sumIs_coe, (sumIs_coe (d c) ps v).1 h1, e]

/-- The medoids of a valid partition without empty clusters. -/
theorem findMedoids_ok {α : Type} {pt : Partition} (hp : pt.Valid) {g : Grid α} (hg : g.WF)
    (sx : pt.labels.xLen = g.xLen) (sy : pt.labels.yLen = g.yLen)
    (hne : ∀ l, l < pt.k → ∃ p, pt.labels.get p = .ok l)
    {m : Grid (Option (WithTop K))} {d : Point → Point → K} (hm : DistancesOf g.xLen g.yLen d m) :
    ∃ ms : List Point, findMedoidsForPartition m g pt = .ok (ms.map some) ∧ ms.length = pt.k ∧
      ∀ (i : Nat) (p : Point), ms[i]? = some p → IsMedoid d (membersOf pt.labels i) p := by
  have hone : ∀ i, i < pt.k → ∃ p : Point, clusterMedoid m (⟨g, pt, i, 0⟩ : ClusterObj α) = .ok (some p) ∧
      IsMedoid d (membersOf pt.labels i) p := by
    intro i hi
    have hps : (membersOf pt.labels i) =
        (rowMajor g.xLen g.yLen).filter fun p => decide (pt.labels.get p = .ok i) := by
      unfold membersOf; rw [sx, sy]
    obtain ⟨res, h1, h2⟩ := C25_cluster_centroid pt hp g hg i ⟨g, pt, i, 0⟩ (by
      unfold Partition.createCluster; rw [if_pos ⟨sx, sy⟩]) _ hps m (fun p q => some (d p q : WithTop K)) (by
      intro p hp q hq
      rw [hps, List.mem_filter, mem_rowMajor] at hp hq
      exact hm p q hp.1.1 hp.1.2 hq.1.1 hq.1.2)
    have hn : membersOf pt.labels i ≠ [] := by
      obtain ⟨p, hp⟩ := hne i hi
      apply List.ne_nil_of_mem (a := p)
      have hr := (Grid.get_eq_ok_iff _ _ _).1 hp
      exact List.mem_filter.2 ⟨mem_rowMajor.2 ⟨hr.1, hr.2.1⟩, by simpa using hp⟩
    obtain ⟨c, ds, rfl, h3⟩ := isCentroid_finite hn h2
    exact ⟨c, by unfold clusterMedoid; rw [h1], h3⟩
  have : Nonempty Point := ⟨⟨0, 0⟩⟩
  choose! f hf hf' using hone
  refine ⟨(List.range pt.k).map f, ?_, by simp, ?_⟩
  · unfold findMedoidsForPartition
    rw [pt.createAllClusters_eq g sx sy]
    simp only
    rw [List.map_map]
    have : ∀ l : List Nat, (∀ i ∈ l, i < pt.k) →
        (l.map fun i => (⟨g, pt, i, 0⟩ : ClusterObj α)).mapM (clusterMedoid m) = .ok (l.map (some ∘ f)) := by
      intro l
      induction l with
      | nil => intro _; rfl
      | cons i l ih =>
        intro h
        rw [List.map_cons, List.mapM_cons, hf i (h i (by simp)), ih fun j hj => h j (by simp [hj])]
        rfl
    exact this _ fun i hi => List.mem_range.1 hi
  · intro i p hip
    rw [List.getElem?_map] at hip
    have hi : i < pt.k := by
      by_contra hc
      rw [List.getElem?_eq_none (by simpa using hc)] at hip
      cases hip
    rw [List.getElem?_range hi] at hip
    cases hip
    exact hf' i hi

/-- A medoid belongs to its cluster. -/
theorem IsMedoid.label {d : Point → Point → K} {labels : Grid Nat} {i : Nat} {p : Point}
    (h : IsMedoid d (membersOf labels i) p) : labels.get p = .ok i := by
  obtain ⟨pre, post, h1, -⟩ := h
  have : p ∈ membersOf labels i := by rw [h1]; simp
  simpa using (List.mem_filter.1 this).2

/-- **C102**: regular clustering of any region that is not too small for `k ≥ 1` clusters, with finite
distances, gives `k` rectangles that cover the region, and a medoid for each of them: a point of the rectangle
with the least sum of distances to the points of the rectangle, the first of several. -/
theorem C102_regular {α : Type} (k : Nat) (hk : 1 ≤ k) (g : Grid α) (hg : g.WF)
    {a b : Nat} (hab : MostBalanced k a b) (hbig : b ≤ max g.xLen g.yLen ∧ a ≤ min g.xLen g.yLen)
    (m : Grid (Option (WithTop K))) (d : Point → Point → K) (hm : DistancesOf g.xLen g.yLen d m) :
    ∃ (pt : Partition) (ms : List Point), regularPartitionImpl k m g true = .ok (pt, some (ms.map some)) ∧
      regularPartitionImpl k m g false = .ok (pt, none) ∧
      pt.k = k ∧ pt.labels.xLen = g.xLen ∧ pt.labels.yLen = g.yLen ∧ ms.length = k ∧
      (∀ p : Point, p.x < g.xLen → p.y < g.yLen → ∃ l, l < k ∧ pt.labels.get p = .ok l) ∧
      (∀ l, l < k → ∃ x1 x2 y1 y2, LabelIsRect pt.labels l x1 x2 y1 y2) ∧
      ∀ (i : Nat) (p : Point), ms[i]? = some p → IsMedoid d (membersOf pt.labels i) p := by
  obtain ⟨gl, h1, hwf, hx, hy⟩ := (C02_rejects_exactly_small g.xLen g.yLen k a b hk hab).2 (by omega)
  obtain ⟨-, -, h4, h5, -⟩ := C01_regular_partition_covers g.xLen g.yLen k hk gl h1
  have hlt : ∀ l ∈ gl.data, l < k := by
    intro l hl
    obtain ⟨n, hn, e⟩ := List.getElem_of_mem hl
    have hlen : gl.data.length = g.xLen * g.yLen := by rw [hwf, hx, hy]
    have hn' : n < g.xLen * g.yLen := by omega
    have hy0 : 0 < g.yLen := Nat.pos_of_ne_zero fun h0 => by simp [h0] at hn'
    have hxx : n / g.yLen < g.xLen := Nat.div_lt_of_lt_mul (by rw [Nat.mul_comm]; exact hn')
    obtain ⟨l', h6, h7⟩ := h4 ⟨n / g.yLen, n % g.yLen⟩ hxx (Nat.mod_lt _ hy0)
    have h8 := ((Grid.get_eq_ok_iff _ _ _).1 h7).2.2
    rw [hy] at h8
    simp only [Nat.div_add_mod'] at h8
    rw [List.getElem?_eq_getElem hn, e] at h8
    cases h8
    exact h6
  have hmax : gl.data.max? = some (k - 1) := by
    rw [List.max?_eq_some_iff]
    obtain ⟨x1, x2, y1, y2, r1, r2, r3, r4, r5⟩ := h5 (k - 1) (by omega)
    have := ((Grid.get_eq_ok_iff _ _ _).1 ((r5 ⟨x1, y1⟩).2 ⟨le_rfl, r1, le_rfl, r3⟩)).2.2
    exact ⟨List.mem_of_getElem? this, fun l hl => by have := hlt l hl; omega⟩
  have hlen : gl.data.length = g.xLen * g.yLen := by rw [hwf, hx, hy]
  have hgl : gl = ⟨g.xLen, g.yLen, gl.data⟩ := by rw [← hx, ← hy]
  have hpt : Partition.withRegular k g.xLen g.yLen = .ok ⟨gl, k, 0⟩ := by
    unfold Partition.withRegular
    rw [h1]
    simp only [Partition.fromMembershipArray, hmax, hlen, if_true, Partition.create, ← hgl]
    have : k - 1 + 1 = k := by omega
    simp [this]
  have hvalid : (⟨gl, k, 0⟩ : Partition).Valid := ⟨hwf, hk, hlt⟩
  obtain ⟨ms, h6, h7, h8⟩ := findMedoids_ok hvalid hg hx hy (by
    intro l hl
    obtain ⟨x1, x2, y1, y2, r1, r2, r3, r4, r5⟩ := h5 l hl
    exact ⟨⟨x1, y1⟩, (r5 ⟨x1, y1⟩).2 ⟨le_rfl, r1, le_rfl, r3⟩⟩) hm
  refine ⟨⟨gl, k, 0⟩, ms, ?_, ?_, rfl, hx, hy, h7, h4, h5, h8⟩
  · unfold regularPartitionImpl
    rw [hpt]
    simp only [h6, if_true]
  · unfold regularPartitionImpl
    rw [hpt]
    rfl

theorem fromMembershipArray_pointIndex {l : List Nat} {xLen yLen : Nat} {pt : Partition}
    (h : Partition.fromMembershipArray l xLen yLen = .ok pt) :
    pt.pointIndex = 0 := by
  unfold Partition.fromMembershipArray at h
  split at h
  · cases h
  · split at h
    · unfold Partition.create at h
      split at h
      · cases h
      · split at h
        · cases h; rfl
        · cases h
    · cases h

/-! ### The report -/

/-- **C103**: the report of a partition whose labels are below the `k` of the algorithm has one row per
cluster, with the number of its points and their percentage; the points add up to those of the region and the
percentages to 100. -/
theorem C103_report (pt : Partition) (hwf : pt.labels.WF) (k : Nat) (hlt : ∀ l ∈ pt.labels.data, l < k)
    (hpos : 0 < pt.labels.xLen * pt.labels.yLen) :
    ∃ rows : List (Nat × Nat × K), clusteringReport pt k = .ok rows ∧ rows.length = k ∧
      (∀ (i j n : Nat) (c : K), rows[i]? = some (j, n, c) → j = i ∧ n = (membersOf pt.labels i).length ∧
        c * ((pt.labels.xLen * pt.labels.yLen : Nat) : K) = 100 * (n : K)) ∧
      (rows.map fun r => r.2.1).sum = pt.labels.xLen * pt.labels.yLen ∧
      (rows.map fun r => r.2.2).sum = 100 := by
  have h0 : pt.labels.xLen * pt.labels.yLen ≠ 0 := by omega
  have h0' : ((pt.labels.xLen * pt.labels.yLen : Nat) : K) ≠ 0 := by exact_mod_cast h0
  have hsum := sum_count_eq_length pt.labels.data k hlt
  refine ⟨(List.range k).map fun i => (i, pt.clusterLen i,
    ((pt.clusterLen i : Nat) : K) * 100 / ((pt.labels.xLen * pt.labels.yLen : Nat) : K)), ?_, by simp, ?_, ?_, ?_⟩
  · unfold clusteringReport
    exact mapM_ok _ _ _ fun i _ => if_neg h0
  · intro i j n c h
    rw [List.getElem?_map] at h
    by_cases hi : i < k
    · rw [List.getElem?_range hi] at h
      simp only [Option.map_some, Option.some.injEq, Prod.mk.injEq] at h
      obtain ⟨rfl, rfl, rfl⟩ := h
      refine ⟨rfl, ?_, ?_⟩
      · exact Grid.count_eq_filter _ hwf _
      · rw [div_mul_cancel₀ _ h0', mul_comm]
    · rw [List.getElem?_eq_none (by simpa using hi)] at h
      cases h
  · rw [List.map_map]
    exact hsum.trans hwf
  · rw [List.map_map]
    have : ∀ l : List Nat, (l.map ((fun r : Nat × Nat × K => r.2.2) ∘ fun i => (i, pt.clusterLen i,
        ((pt.clusterLen i : Nat) : K) * 100 / ((pt.labels.xLen * pt.labels.yLen : Nat) : K)))).sum =
        (((l.map fun i => pt.labels.data.count i).sum : Nat) : K) * 100 /
          ((pt.labels.xLen * pt.labels.yLen : Nat) : K) := by
      intro l
      induction l with
      | nil => simp
      | cons i l ih =>
        rw [List.map_cons, List.sum_cons, ih, List.map_cons, List.sum_cons, Nat.cast_add, add_mul, add_div]
        rfl
    rw [this, hsum, hwf, mul_div_assoc, mul_div_cancel₀ _ h0']

/-! ### Training with a clustering algorithm -/

variable {P Q M : Type} {t : Trainer K P M} {refitter : Grid (Option M) → Trainer K Q M} {scaled : Bool}
  {s : Stack K} {testLen : Nat}

/-- **C104** (regular clustering): training a solver with regular clustering succeeds; the clusters are
rectangles, and every point gets the models obtained from the medoid of its rectangle, and the error of the
forecasts of that model. -/
theorem C104_regular (ht : TrainersOK t refitter scaled s testLen) (k : Nat) (hk : 1 ≤ k)
    {a b : Nat} (hab : MostBalanced k a b)
    (hbig : b ≤ max s.data.grid.xLen s.data.grid.yLen ∧ a ≤ min s.data.grid.xLen s.data.grid.yLen)
    (m : Grid (Option (WithTop K))) (d : Point → Point → K)
    (hm : DistancesOf s.data.grid.xLen s.data.grid.yLen d m)
    (forecast : M → Nat → Except PyErr (List (Option K)))
    (hf : ∀ q v m, t.train q v = .ok (some m) → ∃ w, forecast m testLen = .ok w ∧ w.length = testLen)
    {errorType : String} {f : ErrorFun K} (hfunc : getErrorFunc errorType = .ok f)
    (hmase : errorType = "MASE" → s.data.tLen ≠ testLen + 1) (zero junk : Option M) :
    ∃ sv pt medoids ge atMedoids,
      trainRegularSolver k m t refitter forecast errorType scaled s testLen zero junk = .ok (sv, pt, medoids) ∧
      (∀ l, l < k → ∃ x1 x2 y1 y2, LabelIsRect pt.labels l x1 x2 y1 y2) ∧
      (∀ (i : Nat) (p : Point), medoids[i]? = some p → IsMedoid d (membersOf pt.labels i) p) ∧
      sv.spt = s ∧ sv.scaled = scaled ∧ sv.testLen = testLen ∧ sv.OK s.data ge ∧
      ∀ p : Point, p.x < s.data.grid.xLen → p.y < s.data.grid.yLen →
        ∃ l training whole, l < k ∧ ModelsAt t refitter s testLen pt medoids atMedoids p l training whole ∧
          sv.training.get p = .ok training ∧ sv.whole.get p = .ok whole ∧
          ∀ raw shown, RawForecast forecast testLen training raw → InUnits s p raw shown →
            ∃ test e, ErrorOf f s testLen p shown test e ∧ ge.get p = .ok e := by
  obtain ⟨hok, -, -⟩ := ht.created.ok
  obtain ⟨pt, ms, h1, -, h2, h3, h4, h5, h6, h7, h8⟩ := C102_regular k hk s.data.grid hok.data_wf.1 hab hbig m d hm
  have hpt : Partition.withRegular k s.data.grid.xLen s.data.grid.yLen = .ok pt := by
    unfold regularPartitionImpl at h1
    cases hw : Partition.withRegular k s.data.grid.xLen s.data.grid.yLen with
    | error e => rw [hw] at h1; cases h1
    | ok pt' =>
      rw [hw] at h1
      simp only [if_true] at h1
      split at h1
      · cases h1
      · cases h1; rfl
  obtain ⟨hv, -⟩ := C17_regular_partition_labels k _ _ hk pt hpt
  have h0 : pt.pointIndex = 0 := by
    unfold Partition.withRegular at hpt
    split at hpt
    · cases hpt
    · exact fromMembershipArray_pointIndex hpt
  have hsetup : TrainingSetup t refitter scaled s testLen pt ms :=
    ⟨ht.created, ht.enough, hv, h0, ⟨h3, h4⟩, by rw [h5, h2], fun i p hp => (h8 i p hp).label, ht.params,
      fun p _ => ht.trains p, ht.refits⟩
  obtain ⟨sv, ge, atM, g1, g2, g3, g4, g5, g6⟩ := C90_train hsetup forecast hf hfunc hmase zero junk
  refine ⟨sv, pt, ms, ge, atM, ?_, h7, h8, g2, g3, g4, g5, ?_⟩
  · unfold trainRegularSolver
    rw [h1]
    have hm' : (ms.map some).mapM medoidOrRaise = .ok ms := by
      clear h1 h5 h8 hsetup g1 g6
      induction ms with
      | nil => rfl
      | cons p ms ih => rw [List.map_cons, List.mapM_cons, ih]; rfl
    simp only [Option.getD_some, hm', g1]
  · intro p hx hy
    obtain ⟨l, tr, wh, k1, k2⟩ := g6 p hx hy
    obtain ⟨l', hl', hl⟩ := h6 p hx hy
    have := k1.label
    rw [hl] at this
    cases this
    exact ⟨_, tr, wh, hl', k1, k2⟩

/-- The partition of k-medoids: valid, with labels below `k`, and every point in the cluster of a nearest
medoid. -/
theorem kmedoidsPartition_spec {S : Type} {dm : Measure S K} {X : List S} {d : Nat → Nat → K}
    (hd : Realises dm X d) {xLen yLen k : Nat} (hXl : X.length = xLen * yLen) (hX : X ≠ [])
    {initial : Option (List Nat)} {outcome : List Nat} {mode : KmMode} {maxIter : Nat} {tol : K} {verbose : Bool}
    (hk : (initialIndices initial outcome).length = k)
    {pt : Partition} {ms : List Point}
    (h : kmedoidsPartition X xLen yLen k dm initial outcome mode maxIter tol verbose = .ok (pt, ms)) :
    pt.Valid ∧ pt.pointIndex = 0 ∧ pt.labels.xLen = xLen ∧ pt.labels.yLen = yLen ∧
      (∀ l ∈ pt.labels.data, l < k) ∧ ms.length = k ∧
      ∀ (p : Point) (l : Nat), pt.labels.get p = .ok l → ∃ m, ms[l]? = some m ∧ ∀ m' ∈ ms,
        d (m.x * yLen + m.y) (p.x * yLen + p.y) ≤ d (m'.x * yLen + m'.y) (p.x * yLen + p.y) := by
  unfold kmedoidsPartition at h
  split at h
  · cases h
  rename_i r hr
  have hs := C26_labels_and_costs hd hX hr
  have hlen : r.medoids.length = k := by
    obtain ⟨st, cc, h1, _, _, _, rfl⟩ := runKmedoids_inv hd hX hr
    rw [← hk, ← h1.length]; simp [getMedoidIndices]
  split at h
  · cases h
  rename_i pt' hpt
  cases h
  have hlab : ∀ l ∈ r.labels, l < k := by
    intro l hl
    obtain ⟨i, hi⟩ := List.mem_iff_getElem?.1 hl
    obtain ⟨m, hm, _⟩ := hs.nearest i l hi
    rw [← hlen]
    exact (List.getElem?_eq_some_iff.1 hm).1
  have h0 := fromMembershipArray_pointIndex hpt
  unfold Partition.fromMembershipArray at hpt
  split at hpt
  · cases hpt
  rename_i mx hmx
  rw [if_pos (by rw [hs.labels_len, hXl])] at hpt
  unfold Partition.create at hpt
  simp only [hmx, if_true, Except.ok.injEq] at hpt
  subst hpt
  have hmx' := List.max?_eq_some_iff.1 hmx
  refine ⟨⟨by unfold Grid.WF; simp only; rw [hs.labels_len, hXl], by simp, fun l hl => ?_⟩, rfl, rfl, rfl, hlab, by
    simp [hlen], ?_⟩
  · have := hmx'.2 l hl
    simp only; omega
  · intro p l hl
    have h1 := ((Grid.get_eq_ok_iff _ _ _).1 hl).2.2
    simp only at h1
    obtain ⟨m, hm, hn⟩ := hs.nearest _ l h1
    refine ⟨⟨m / yLen, m % yLen⟩, by rw [List.getElem?_map, hm]; rfl, ?_⟩
    intro m' hm'
    obtain ⟨n, hn', rfl⟩ := List.mem_map.1 hm'
    obtain ⟨j, hj⟩ := List.mem_iff_getElem?.1 hn'
    simp only [Nat.div_add_mod']
    exact (hn j n hj).1

/-- **C103** for the partition of any k-medoids run, also when some clusters are empty. -/
theorem C103_kmedoids {S : Type} {dm : Measure S K} {X : List S} {d : Nat → Nat → K}
    (hd : Realises dm X d) {xLen yLen k : Nat} (hXl : X.length = xLen * yLen) (hX : X ≠ [])
    {initial : Option (List Nat)} {outcome : List Nat} {mode : KmMode} {maxIter : Nat} {tol : K} {verbose : Bool}
    (hk : (initialIndices initial outcome).length = k)
    {pt : Partition} {ms : List Point}
    (h : kmedoidsPartition X xLen yLen k dm initial outcome mode maxIter tol verbose = .ok (pt, ms)) :
    ∃ rows : List (Nat × Nat × K), clusteringReport pt k = .ok rows ∧ rows.length = k ∧
      (rows.map fun r => r.2.1).sum = xLen * yLen ∧ (rows.map fun r => r.2.2).sum = 100 := by
  obtain ⟨hv, -, rfl, rfl, h1, -⟩ := kmedoidsPartition_spec hd hXl hX hk h
  obtain ⟨rows, r1, r2, -, r3, r4⟩ := C103_report (K := K) pt hv.wf k h1 (by
    rw [← hXl]; exact List.length_pos_iff.2 hX)
  exact ⟨rows, r1, r2, r3, r4⟩

/-- **C103** for regular clustering. -/
theorem C103_regular (k xLen yLen : Nat) (hk : 1 ≤ k) {pt : Partition}
    (h : Partition.withRegular k xLen yLen = .ok pt) :
    ∃ rows : List (Nat × Nat × K), clusteringReport pt k = .ok rows ∧ rows.length = k ∧
      (rows.map fun r => r.2.1).sum = xLen * yLen ∧ (rows.map fun r => r.2.2).sum = 100 ∧
      ∀ r ∈ rows, 0 < r.2.1 := by
  obtain ⟨hv, rfl, rfl, rfl, h1⟩ := C17_regular_partition_labels k xLen yLen hk pt h
  obtain ⟨p, hp⟩ := h1 0 hk
  have hr := (Grid.get_eq_ok_iff _ _ _).1 hp
  obtain ⟨rows, r1, r2, r3, r4, r5⟩ := C103_report (K := K) pt hv.wf pt.k hv.lt
    (Nat.mul_pos (by omega) (by omega))
  refine ⟨rows, r1, r2, r4, r5, ?_⟩
  intro r hr
  obtain ⟨i, hi, e⟩ := List.getElem_of_mem hr
  obtain ⟨-, e2, -⟩ := r3 i r.1 r.2.1 r.2.2 (by rw [List.getElem?_eq_getElem hi, e])
  rw [e2]
  obtain ⟨q, hq⟩ := h1 i (by omega)
  have hqr := (Grid.get_eq_ok_iff _ _ _).1 hq
  exact List.length_pos_of_mem (a := q) (List.mem_filter.2 ⟨mem_rowMajor.2 ⟨hqr.1, hqr.2.1⟩, by simpa using hq⟩)

/-- What is known when the training succeeds: the partition has one cluster for every medoid, and every medoid
is in its own cluster. -/
theorem trainComplete_members {pt : Partition} {medoids : List Point}
    (ht : TrainersOK t refitter scaled s testLen) (hv : pt.Valid)
    (hx : pt.labels.xLen = s.data.grid.xLen) (hy : pt.labels.yLen = s.data.grid.yLen)
    (hin : ∀ m ∈ medoids, m.x < s.data.grid.xLen ∧ m.y < s.data.grid.yLen)
    {forecast : M → Nat → Except PyErr (List (Option K))} {errorType : String} {zero junk : Option M}
    {sv : Solver K M}
    (h : trainCompleteSolver t refitter forecast errorType scaled s testLen pt medoids zero junk = .ok sv) :
    medoids.length = pt.k ∧ ∀ (j : Nat) (q : Point), medoids[j]? = some q → pt.labels.get q = .ok j := by
  obtain ⟨hok, hser, -⟩ := ht.created.ok
  obtain ⟨hp1, hp2, hp3⟩ := ht.params
  obtain ⟨-, -, hsplit, -, -, -, -⟩ := C45_split s hok testLen ht.enough
  have hsOK : (splitLast s testLen).1.OK := hok.intervalSubset _
  have hx1 : (splitLast s testLen).1.data.grid.xLen = s.data.grid.xLen := by
    simp only [splitLast]; rw [Stack.intervalSubset_eq, Stack.data_new]; rfl
  have hy1 : (splitLast s testLen).1.data.grid.yLen = s.data.grid.yLen := by
    simp only [splitLast]; rw [Stack.intervalSubset_eq, Stack.data_new]; rfl
  obtain ⟨g, items, a1, a2, a3, a4, -⟩ := trainApply_ok hsOK t.params.xLen t.params.yLen
    (by rw [hx1, hp2]) (by rw [hy1, hp3]) (t.functionAtRepresentatives medoids) zero (by
      intro p v hv
      by_cases hpm : p ∈ medoids
      · simp only [Trainer.functionAtRepresentatives, if_pos hpm, Trainer.functionAt]
        obtain ⟨h1, h2⟩ := hin p hpm
        obtain ⟨q, hq⟩ := t.params.exists_get hp1 (p := p) (by rw [hp2]; exact h1) (by rw [hp3]; exact h2)
        obtain ⟨w, hw⟩ := s.data.grid.exists_get hok.data_wf.1 h1 h2
        have hw' : s.seriesAt p = .ok w := by rw [ht.created.seriesAt, hw]
        obtain ⟨x, y, hxy, -, hxy', hl⟩ := hsplit p w hw'
        rw [hv] at hxy; cases hxy
        rw [hq]
        have := ht.trains p q w hq hw'
        rwa [← hxy', List.length_append, hl, Nat.add_sub_cancel, List.take_left' rfl] at this
      · exact ⟨none, by simp only [Trainer.functionAtRepresentatives, if_neg hpm]⟩)
  unfold trainCompleteSolver at h
  rw [Trainer.applyAtRepresentatives, a1] at h
  simp only at h
  obtain ⟨cs, c1, c2, c3⟩ := C14_rejected pt hv g a2 (by rw [hx, a3, hp2]) (by rw [hy, a4, hp3]) medoids junk
  have hrep : ∃ gT, pt.mergeWithRepresentatives cs medoids junk = .ok gT := by
    rw [replicateModels, c1] at h
    simp only at h
    cases hm : pt.mergeWithRepresentatives cs medoids junk with
    | error e => rw [hm] at h; cases h
    | ok gT => exact ⟨gT, rfl⟩
  obtain ⟨gT, hgT⟩ := hrep
  have hlen : medoids.length = pt.k := by
    by_contra hne
    rw [c2 hne] at hgT
    cases hgT
  refine ⟨hlen, fun j => ?_⟩
  induction j using Nat.strong_induction_on with
  | _ j ih =>
    intro q hq
    obtain ⟨h1, h2⟩ := hin q (List.mem_of_getElem? hq)
    obtain ⟨l, hl⟩ := pt.labels.exists_get hv.wf (p := q) (by rw [hx]; exact h1) (by rw [hy]; exact h2)
    by_cases hlj : l = j
    · rw [hl, hlj]
    · rw [(c3 hlen j q hq ih).2 l hl hlj] at hgT
      cases hgT

/-- **C105** (partial, for all data): exactly when the training of a solver with k-medoids succeeds. The
clustering itself has a result. If no medoid is nearer to another medoid than this one is to itself, and no
earlier one as near, then the training succeeds, every point gets the models obtained from the nearest medoid,
and the error of the forecasts of that model. Otherwise the training stops with an error. -/
theorem C105_when_partial (ht : TrainersOK t refitter scaled s testLen) (k : Nat) (hk : 1 ≤ k)
    (m : Grid K) (d : Nat → Nat → K) (hd : Realises (.matrix m) s.data.grid.data d)
    {initial : Option (List Nat)} {outcome : List Nat} (hlen : (initialIndices initial outcome).length = k)
    (hn : (initialIndices initial outcome).Nodup)
    (hi : ∀ i ∈ initialIndices initial outcome, i < s.data.grid.data.length)
    {mode : KmMode} (hmode : mode ≠ .other) (maxIter : Nat) (tol : K) (verbose : Bool)
    (forecast : M → Nat → Except PyErr (List (Option K)))
    (hf : ∀ q v m, t.train q v = .ok (some m) → ∃ w, forecast m testLen = .ok w ∧ w.length = testLen)
    {errorType : String} {f : ErrorFun K} (hfunc : getErrorFunc errorType = .ok f)
    (hmase : errorType = "MASE" → s.data.tLen ≠ testLen + 1) (zero junk : Option M) :
    ∃ r, runKmedoids s.data.grid.data k (.matrix m) initial outcome mode maxIter tol false = .ok r ∧
    ((∀ (i a j b : Nat), r.medoids[i]? = some a → r.medoids[j]? = some b →
        d a a ≤ d b a ∧ (j < i → d a a < d b a)) →
    ∃ sv pt medoids ge atMedoids,
      trainKmedoidsSolver k m initial outcome mode maxIter tol verbose t refitter forecast errorType scaled s
        testLen zero junk = .ok (sv, pt, medoids) ∧
      medoids.length = k ∧ sv.spt = s ∧ sv.scaled = scaled ∧ sv.testLen = testLen ∧ sv.OK s.data ge ∧
      ∀ p : Point, p.x < s.data.grid.xLen → p.y < s.data.grid.yLen →
        ∃ l training whole medoid, medoids[l]? = some medoid ∧
          (∀ m' ∈ medoids, d (medoid.x * s.data.grid.yLen + medoid.y) (p.x * s.data.grid.yLen + p.y) ≤
            d (m'.x * s.data.grid.yLen + m'.y) (p.x * s.data.grid.yLen + p.y)) ∧
          ModelsAt t refitter s testLen pt medoids atMedoids p l training whole ∧
          sv.training.get p = .ok training ∧ sv.whole.get p = .ok whole ∧
          ∀ raw shown, RawForecast forecast testLen training raw → InUnits s p raw shown →
            ∃ test e, ErrorOf f s testLen p shown test e ∧ ge.get p = .ok e) ∧
    ((∃ (i a j b : Nat), r.medoids[i]? = some a ∧ r.medoids[j]? = some b ∧
        (d b a < d a a ∨ (j < i ∧ d b a ≤ d a a))) →
      ∃ e, trainKmedoidsSolver k m initial outcome mode maxIter tol verbose t refitter forecast errorType scaled s
        testLen zero junk = .error e) := by
  obtain ⟨hok, -, -⟩ := ht.created.ok
  have hXl : s.data.grid.data.length = s.data.grid.xLen * s.data.grid.yLen := hok.data_wf.1
  have hkn : k ≤ s.data.grid.data.length := by
    have : (initialIndices initial outcome).Subperm (List.range s.data.grid.data.length) :=
      List.subperm_of_subset hn fun i h => List.mem_range.2 (hi i h)
    simpa [hlen] using this.length_le
  have hX : s.data.grid.data ≠ [] := by
    intro h; rw [h] at hkn; simp at hkn; omega
  obtain ⟨r, hr⟩ := C26_returns (maxIter := maxIter) (tol := tol) hd hmode hi hlen hk hkn
  obtain ⟨w1, w2, w3⟩ := C30_when_partial hd hX hr hlen hn
  obtain ⟨a1, -, a3⟩ := C28_distinct_medoids hd hX hr hlen hn
  have hs := C26_labels_and_costs hd hX hr
  have hpart : ∃ pt, Partition.fromMembershipArray r.labels s.data.grid.xLen s.data.grid.yLen = .ok pt ∧
      pt.labels.data = r.labels ∧ (∃ mx, r.labels.max? = some mx ∧ pt.k = mx + 1) := by
    unfold Partition.fromMembershipArray
    cases hmx : r.labels.max? with
    | none =>
      rw [List.max?_eq_none_iff] at hmx
      have := hs.labels_len
      rw [hmx] at this
      exact absurd (List.length_eq_zero_iff.1 this.symm) hX
    | some mx =>
      simp only [hs.labels_len, hXl, if_true, Partition.create, hmx]
      exact ⟨_, rfl, rfl, mx, rfl, rfl⟩
  obtain ⟨pt, hpt, hdata, mx, hmx, hptk⟩ := hpart
  have hmx' := List.max?_eq_some_iff.1 hmx
  have hpk : kmedoidsPartition s.data.grid.data s.data.grid.xLen s.data.grid.yLen k (.matrix m)
      initial outcome mode maxIter tol false =
      .ok (pt, r.medoids.map fun n => ⟨n / s.data.grid.yLen, n % s.data.grid.yLen⟩) := by
    unfold kmedoidsPartition
    rw [hr]
    simp only [hpt]
  obtain ⟨hv, h0, h3, h4, h5, h6, h7⟩ := kmedoidsPartition_spec hd hXl hX hlen hpk
  have hget : ∀ n, n ∈ r.medoids → ∀ l, (pt.labels.get ⟨n / s.data.grid.yLen, n % s.data.grid.yLen⟩ = .ok l ↔
      r.labels[n]? = some l) := by
    intro n hn l
    have := a3 n hn
    rw [hXl] at this
    rw [Grid.get_eq_ok_iff, h3, h4, hdata]
    simp only [Nat.div_add_mod']
    exact ⟨fun h => h.2.2, fun h => ⟨div_lt_of_lt_mul' this, mod_lt_of_lt_mul this, h⟩⟩
  refine ⟨r, hr, fun hown => ?_, ?_⟩
  · have hlab : ∀ (j n : Nat), r.medoids[j]? = some n → r.labels[n]? = some j := fun j n hj =>
      (w1 j n hj).2 fun j' n' hj' => hown j n j' n' hj hj'
    have hall : ∀ j < k, j ∈ r.labels := by
      intro j hj
      rw [← a1] at hj
      exact List.mem_of_getElem? (hlab j _ (List.getElem?_eq_getElem hj))
    have hp : kmedoidsPartition s.data.grid.data s.data.grid.xLen s.data.grid.yLen k (.matrix m)
        initial outcome mode maxIter tol verbose =
        .ok (pt, r.medoids.map fun n => ⟨n / s.data.grid.yLen, n % s.data.grid.yLen⟩) := by
      cases verbose with
      | false => exact hpk
      | true =>
        unfold kmedoidsPartition
        rw [w2 hall]
        simp only [hpt]
    have b1 : pt.k = k := by
      have h1 := hmx'.2 (k - 1) (hall (k - 1) (by omega))
      have h2 := h5 mx (by rw [hdata]; exact hmx'.1)
      omega
    have b3 : ∀ (j : Nat) (p : Point),
        (r.medoids.map fun n => (⟨n / s.data.grid.yLen, n % s.data.grid.yLen⟩ : Point))[j]? = some p →
        pt.labels.get p = .ok j := by
      intro j p hj
      rw [List.getElem?_map, Option.map_eq_some_iff] at hj
      obtain ⟨n, hn, rfl⟩ := hj
      exact (hget n (List.mem_of_getElem? hn) j).2 (hlab j n hn)
    have hsetup : TrainingSetup t refitter scaled s testLen pt
        (r.medoids.map fun n => ⟨n / s.data.grid.yLen, n % s.data.grid.yLen⟩) :=
      ⟨ht.created, ht.enough, hv, h0, ⟨h3, h4⟩, by rw [b1, h6], b3, ht.params,
        fun p _ => ht.trains p, ht.refits⟩
    obtain ⟨sv, ge, atM, g1, g2, g3, g4, g5, g6⟩ := C90_train hsetup forecast hf hfunc hmase zero junk
    refine ⟨sv, pt, _, ge, atM, ?_, h6, g2, g3, g4, g5, ?_⟩
    · unfold trainKmedoidsSolver
      rw [hp]
      simp only [g1]
    · intro p hx hy
      obtain ⟨l, tr, wh, k1, k2⟩ := g6 p hx hy
      obtain ⟨medoid, e1, e2⟩ := h7 p l k1.label
      exact ⟨l, tr, wh, medoid, e1, e2, k1, k2⟩
  · rintro ⟨i, a, j, b, ha, hb, hab⟩
    have hbad : r.labels[a]? ≠ some i := by
      intro hl
      obtain ⟨h1, h2⟩ := (w1 i a ha).1 hl j b hb
      rcases hab with h | ⟨h, h'⟩
      · exact absurd h1 (not_le.2 h)
      · exact absurd (h2 h) (not_lt.2 h')
    have hcont : ∀ (sv : Solver K M), trainCompleteSolver t refitter forecast errorType scaled s testLen pt
        (r.medoids.map fun n => ⟨n / s.data.grid.yLen, n % s.data.grid.yLen⟩) zero junk ≠ .ok sv := by
      intro sv hsv
      obtain ⟨-, hmem⟩ := trainComplete_members ht hv h3 h4 (by
        intro q hq
        obtain ⟨n, hn, rfl⟩ := List.mem_map.1 hq
        have := a3 n hn
        rw [hXl] at this
        exact ⟨div_lt_of_lt_mul' this, mod_lt_of_lt_mul this⟩) hsv
      exact hbad ((hget a (List.mem_of_getElem? ha) i).1 (hmem i _ (by rw [List.getElem?_map, ha]; rfl)))
    have hrunv : (∃ e, runKmedoids s.data.grid.data k (.matrix m) initial outcome mode maxIter tol verbose =
        .error e) ∨ runKmedoids s.data.grid.data k (.matrix m) initial outcome mode maxIter tol verbose =
        .ok r := by
      cases verbose with
      | false => exact Or.inr hr
      | true =>
        by_cases hall : ∀ j < k, j ∈ r.labels
        · exact Or.inr (w2 hall)
        · push Not at hall
          exact Or.inl ⟨_, w3 hall⟩
    unfold trainKmedoidsSolver kmedoidsPartition
    rcases hrunv with ⟨e, he⟩ | he
    · rw [he]
      exact ⟨e, rfl⟩
    · rw [he]
      simp only [hpt]
      cases hc : trainCompleteSolver t refitter forecast errorType scaled s testLen pt
        (r.medoids.map fun n => ⟨n / s.data.grid.yLen, n % s.data.grid.yLen⟩) zero junk with
      | error e => exact ⟨e, rfl⟩
      | ok sv => exact absurd hc (hcont sv)

/-- **C105** (partial): training a solver with k-medoids succeeds when every series is nearer to itself than
to the other ones (so that no two series are equal); every point gets the models obtained from the nearest
medoid, and the error of the forecasts of that model. -/
theorem C105_kmedoids_partial (ht : TrainersOK t refitter scaled s testLen) (k : Nat) (hk : 1 ≤ k)
    (m : Grid K) (d : Nat → Nat → K) (hd : Realises (.matrix m) s.data.grid.data d)
    (hpos : ∀ a < s.data.grid.data.length, ∀ b < s.data.grid.data.length, a ≠ b → d a a < d b a)
    {initial : Option (List Nat)} {outcome : List Nat} (hlen : (initialIndices initial outcome).length = k)
    (hn : (initialIndices initial outcome).Nodup)
    (hi : ∀ i ∈ initialIndices initial outcome, i < s.data.grid.data.length)
    {mode : KmMode} (hmode : mode ≠ .other) (maxIter : Nat) (tol : K) (verbose : Bool)
    (forecast : M → Nat → Except PyErr (List (Option K)))
    (hf : ∀ q v m, t.train q v = .ok (some m) → ∃ w, forecast m testLen = .ok w ∧ w.length = testLen)
    {errorType : String} {f : ErrorFun K} (hfunc : getErrorFunc errorType = .ok f)
    (hmase : errorType = "MASE" → s.data.tLen ≠ testLen + 1) (zero junk : Option M) :
    ∃ sv pt medoids ge atMedoids,
      trainKmedoidsSolver k m initial outcome mode maxIter tol verbose t refitter forecast errorType scaled s
        testLen zero junk = .ok (sv, pt, medoids) ∧
      medoids.length = k ∧ sv.spt = s ∧ sv.scaled = scaled ∧ sv.testLen = testLen ∧ sv.OK s.data ge ∧
      ∀ p : Point, p.x < s.data.grid.xLen → p.y < s.data.grid.yLen →
        ∃ l training whole medoid, medoids[l]? = some medoid ∧
          (∀ m' ∈ medoids, d (medoid.x * s.data.grid.yLen + medoid.y) (p.x * s.data.grid.yLen + p.y) ≤
            d (m'.x * s.data.grid.yLen + m'.y) (p.x * s.data.grid.yLen + p.y)) ∧
          ModelsAt t refitter s testLen pt medoids atMedoids p l training whole ∧
          sv.training.get p = .ok training ∧ sv.whole.get p = .ok whole ∧
          ∀ raw shown, RawForecast forecast testLen training raw → InUnits s p raw shown →
            ∃ test e, ErrorOf f s testLen p shown test e ∧ ge.get p = .ok e := by
  obtain ⟨hok, -, -⟩ := ht.created.ok
  have hkn : k ≤ s.data.grid.data.length := by
    have : (initialIndices initial outcome).Subperm (List.range s.data.grid.data.length) :=
      List.subperm_of_subset hn fun i h => List.mem_range.2 (hi i h)
    simpa [hlen] using this.length_le
  have hX : s.data.grid.data ≠ [] := by
    intro h; rw [h] at hkn; simp at hkn; omega
  obtain ⟨r, hr, hyes, -⟩ := C105_when_partial ht k hk m d hd hlen hn hi hmode maxIter tol verbose forecast hf
    hfunc hmase zero junk
  obtain ⟨-, a2, a3⟩ := C28_distinct_medoids hd hX hr hlen hn
  refine hyes fun i a j b ha hb => ?_
  have ha' := a3 a (List.mem_of_getElem? ha)
  have hb' := a3 b (List.mem_of_getElem? hb)
  by_cases hab : a = b
  · subst hab
    refine ⟨le_refl _, fun hji => ?_⟩
    have := (List.getElem?_inj (List.getElem?_eq_some_iff.1 hb).1 a2).1 (hb.trans ha.symm)
    omega
  · have := hpos a ha' b hb' hab
    exact ⟨this.le, fun _ => this⟩

end

/-- The distances between the points at 0, 1 and 5 of a line. -/
def exampleDistances : Grid (Option (WithTop ℚ)) :=
  ⟨3, 3, [0, 1, 5, 1, 0, 4, 5, 4, 0].map fun q : ℚ => some (q : WithTop ℚ)⟩

/-- The hypotheses of C102, C104 and C105 hold of the region `trainedRegion`, with two clusters. -/
example : TrainersOK meanTrainer meanTrainer.sameRefitter true trainedRegion 1 where
  created := .scaled (by decide +kernel) (by decide +kernel) (by decide +kernel) rfl rfl rfl rfl
  enough := by decide +kernel
  params := ⟨by decide, rfl, rfl⟩
  trains := fun _ _ _ _ _ => ⟨_, rfl⟩
  refits := fun _ _ _ _ => ⟨show Grid.WF (Grid.const 1 3 2) by decide, rfl, rfl, fun _ _ _ _ _ => ⟨_, rfl⟩⟩

example : MostBalanced 2 1 2 := by
  refine ⟨rfl, by omega, ?_⟩
  intro c d h hle
  have : c = 1 := by
    have : c ≤ 1 := by
      by_contra hc
      have : 2 * 2 ≤ c * d := Nat.mul_le_mul (by omega) (by omega)
      omega
    have : c ≠ 0 := by rintro rfl; simp at h
    omega
  subst this
  omega

example : DistancesOf 1 3 (fun p q => lineDist p.y q.y) exampleDistances := by
  rintro ⟨px, py⟩ ⟨qx, qy⟩ h1 h2 h3 h4
  simp only at h1 h2 h3 h4
  have e1 : px = 0 := by omega
  have e2 : qx = 0 := by omega
  subst e1; subst e2
  have : ∀ a < 3, ∀ b < 3, exampleDistances.get ⟨0 * 3 + a, 0 * 3 + b⟩ =
      .ok (some ((lineDist a b : ℚ) : WithTop ℚ)) := by decide +kernel
  exact this py h2 qy h4

set_option synthInstance.maxSize 512 in
example : regularPartitionImpl 2
    (⟨3, 3, [some 0, some 1, some 5, some 1, some 0, some 4, some 5, some 4, some 0]⟩ : Grid (Option (WithTop ℕ)))
    trainedRegion.data.grid true =
    .ok (⟨⟨1, 3, [0, 0, 1]⟩, 2, 0⟩, some [some ⟨0, 0⟩, some ⟨0, 2⟩]) := by decide +kernel

example : clusteringReport (K := ℚ) ⟨⟨1, 3, [0, 1, 1]⟩, 2, 0⟩ 2 =
    .ok [(0, 1, 100 / 3), (1, 2, 200 / 3)] := by decide +kernel

example : Realises (.matrix lineDistances) trainedRegion.data.grid.data lineDist :=
  ⟨rfl, rfl, by decide +kernel⟩

/-- A region with two equal series. -/
def equalRegion : Stack ℚ := .plain ⟨2, ⟨1, 2, [[some 1, some 2], [some 1, some 2]]⟩⟩

theorem error_of_test {α : Type} {x : Except PyErr α} {e : PyErr}
    (h : (match x with | .error e' => decide (e' = e) | .ok _ => false) = true) : x = .error e := by
  cases x with
  | ok v => cases h
  | error e' => rw [of_decide_eq_true h]

/-- **C105** refuted for equal series: with two medoids on the same series, the partition has one cluster only
and the training stops with an AssertionError, or already during the clustering with an IndexError when
`verbose` is set (the default). -/
theorem C105_refuted : trainKmedoidsSolver 2 (⟨2, 2, [0, 0, 0, 0]⟩ : Grid ℚ) (some [0, 1]) [] .lite 1000
      (1 / 1000) false (Trainer.constant 2 1 2 meanOfPast) (Trainer.constant 2 1 2 meanOfPast).sameRefitter
      repeatMean "MSE" false equalRegion 1 none none = .error .assertionError ∧
    trainKmedoidsSolver 2 (⟨2, 2, [0, 0, 0, 0]⟩ : Grid ℚ) (some [0, 1]) [] .lite 1000
      (1 / 1000) true (Trainer.constant 2 1 2 meanOfPast) (Trainer.constant 2 1 2 meanOfPast).sameRefitter
      repeatMean "MSE" false equalRegion 1 none none = .error .indexError :=
  ⟨error_of_test (by decide +kernel), error_of_test (by decide +kernel)⟩

end Spta
