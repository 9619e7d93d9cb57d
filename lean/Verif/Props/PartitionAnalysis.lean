import Verif.Model.PartitionAnalysis
import Verif.Spec.PartitionAnalysis
import Verif.Props.Clustering
import Verif.Props.Cost
import Verif.Props.Suite
import Verif.Props.ClusterRun

/-!
# C106 – C108: analysis of the partitions of a suite
-/

set_option linter.unusedSectionVars false

namespace Spta

variable {α K : Type} [Field K] [LinearOrder K] [IsStrictOrderedRing K]

/-! ### C106 -/

/-- The indices of the points of the cluster `i`, in ascending order. -/
def indicesOf (labels : List Nat) (i : Nat) : List Nat :=
  (List.range labels.length).filter fun j => labels[j]? == some i

theorem allPointIndices_eq {c : ClusterObj α} (hc : c.OK) :
    c.allPointIndices = .ok (indicesOf c.part.labels.data c.index) := by
  have hlen : c.part.labels.data.length = c.region.xLen * c.region.yLen := by
    rw [hc.wfL, hc.sx, hc.sy]
  have hall : c.part.membershipOfIndices (List.range (c.region.xLen * c.region.yLen)) =
      .ok c.part.labels.data := by
    apply Partition.membershipOfIndices_eq
    apply List.ext_getElem
    · simp [hlen]
    · intro n h3 h4
      simp only [List.length_map, List.length_range] at h3
      simp [hlen, h3]
  simp only [ClusterObj.allPointIndices, hall, indicesOf]

/-- The entries of the matrix for the distances of the samples from the medoids of their clusters are the
values of `f`. -/
def OwnEntries (m : Grid (Option K)) (labels : List Nat) (yLen : Nat) (medoids : List Point)
    (f : Nat → Option K) : Prop :=
  ∀ (j l : Nat) (p : Point), labels[j]? = some l → medoids[l]? = some p →
    m.get ⟨p.x * yLen + p.y, j⟩ = .ok (f j)

theorem analyzeLoop_eq (r : Region) (pt : Partition) (hp : pt.Valid) (g : Grid α) (hg : g.WF)
    (sx : pt.labels.xLen = g.xLen) (sy : pt.labels.yLen = g.yLen) (ms : List Point)
    (m : Grid (Option K)) (f : Nat → Option K)
    (hf : OwnEntries m pt.labels.data g.yLen ms f) (mp : Nat → Point)
    (is : List Nat) (hi : ∀ i ∈ is, i < pt.k ∧ ms[i]? = some (mp i)) :
    ∀ (text : Str) (costs : List (Option K)),
      analyzeLoop r m g.yLen ms ((List.range pt.k).map fun i => (⟨g, pt, i, 0⟩ : ClusterObj α)) is text
        costs =
      .ok (text ++ is.flatMap (fun i => pointColumn (absolutePosition r (mp i))),
        costs ++ is.map fun i => floatSum ((indicesOf pt.labels.data i).map f)) := by
  induction is with
  | nil => intro text costs; simp [analyzeLoop]
  | cons i is ih =>
    intro text costs
    obtain ⟨h1, h2⟩ := hi i (by simp)
    have hc : ((List.range pt.k).map fun i => (⟨g, pt, i, 0⟩ : ClusterObj α))[i]? = some ⟨g, pt, i, 0⟩ := by
      rw [List.getElem?_map, List.getElem?_range h1]; rfl
    have hds : distancesToPointWithMatrix m g.yLen (mp i) (indicesOf pt.labels.data i) =
        .ok ((indicesOf pt.labels.data i).map f) := by
      unfold distancesToPointWithMatrix
      apply mapM_ok
      intro j hj
      have := (List.mem_filter.1 hj).2
      simp only [beq_iff_eq] at this
      exact hf j i (mp i) this h2
    rw [analyzeLoop, hc]
    simp only [h2, allPointIndices_eq (c := (⟨g, pt, i, 0⟩ : ClusterObj α)) ⟨hg, hp.wf, sx, sy⟩, hds]
    rw [ih fun j hj => hi j (by simp [hj])]
    simp

theorem parseMedoids_flatMap (r : Region) (ps : List Point) :
    parseMedoids (ps.flatMap fun p => pointColumn (absolutePosition r p)) = .ok (datasetPoints r ps) := by
  induction ps with
  | nil => rfl
  | cons p ps ih =>
    rw [List.flatMap_cons, pointColumn, parseMedoids_cons, ih]
    simp [datasetPoints, absolutePosition, Nat.add_comm]

theorem range_flatMap_medoids (ms : List Point) (f : Point → Str) (d : Point) :
    (List.range ms.length).flatMap (fun i => f (ms.getD i d)) = ms.flatMap f := by
  have : (List.range ms.length).map (fun i => ms.getD i d) = ms := by
    apply List.ext_getElem
    · simp
    · intro n h1 h2
      simp only [List.getElem_map, List.getElem_range]
      simp [h2]
  conv_rhs => rw [← this]
  rw [List.flatMap_map]

/-- The sum over the clusters of the sums within them. -/
theorem sum_indices (labels : List Nat) (k : Nat) (h : ∀ l ∈ labels, l < k) (f : Nat → K) :
    ((List.range k).map fun i => ((indicesOf labels i).map f).sum).sum =
      ((List.range labels.length).map f).sum := by
  rw [← sum_classes (List.range labels.length) (fun j => labels.getD j 0) f k]
  · congr 1
    apply List.map_congr_left
    intro i _
    congr 2
    apply List.filter_congr
    intro j hj
    have := List.mem_range.1 hj
    simp [this]
  · intro j hj
    have hj := List.mem_range.1 hj
    simp only [List.getD, List.getElem?_eq_getElem hj, Option.getD_some]
    exact h _ (List.getElem_mem hj)

/-- **C106** for one partition with as many clusters and medoids as the clustering asks for: the row has the
representation of the clustering; its third field, read as the suite reads it, gives the medoids with their
coordinates in the dataset; its second field is the sum, over all points of the region, of the distance from
the medoid of the cluster of the point (NaN if one of them is NaN). -/
theorem C106_partition (showCost : Option K → Str) (r : Region) (g : Grid α) (hg : g.WF)
    (m : Grid (Option K)) (c : ClusterMeta) (pt : Partition) (hp : pt.Valid)
    (sx : pt.labels.xLen = g.xLen) (sy : pt.labels.yLen = g.yLen) (ms : List Point)
    (hk : c.k = pt.k) (hms : ms.length = pt.k) :
    ∃ text, parseMedoids text = .ok (datasetPoints r ms) ∧
      (∀ d : Nat → Nat → K, (∀ (j l : Nat) (p : Point), pt.labels.data[j]? = some l → ms[l]? = some p →
          m.get ⟨p.x * g.yLen + p.y, j⟩ = .ok (some (d (p.x * g.yLen + p.y) j))) →
        ∃ total, OwnDistances d pt.labels.data (ms.map fun p => p.x * g.yLen + p.y) total ∧
          analyzePartition showCost r g m c pt ms = .ok [c.repr, showCost (some total), text]) ∧
      (∀ f : Nat → Option K, OwnEntries m pt.labels.data g.yLen ms f →
        (∃ j < pt.labels.data.length, f j = none) →
          analyzePartition showCost r g m c pt ms = .ok [c.repr, showCost none, text]) := by
  have hrun : ∀ f : Nat → Option K, OwnEntries m pt.labels.data g.yLen ms f →
      analyzePartition showCost r g m c pt ms =
        .ok [c.repr, showCost (floatSum ((List.range pt.k).map fun i =>
            floatSum ((indicesOf pt.labels.data i).map f))),
          ms.flatMap fun p => pointColumn (absolutePosition r p)] := by
    intro f hf
    unfold analyzePartition
    rw [createClustersWithMedoids_eq pt g ms sx sy (by omega)]
    simp only [hk, Int.toNat_natCast]
    rw [analyzeLoop_eq r pt hp g hg sx sy ms m f hf (fun i => ms.getD i ⟨0, 0⟩)]
    · simp only [List.nil_append]
      rw [← hms, range_flatMap_medoids ms (fun p => pointColumn (absolutePosition r p))]
    · intro i hi
      have hi := List.mem_range.1 hi
      refine ⟨hi, ?_⟩
      rw [← hms] at hi
      simp [hi]
  refine ⟨_, parseMedoids_flatMap r ms, ?_, ?_⟩
  · intro d hd'
    have hd : OwnEntries m pt.labels.data g.yLen ms
        (fun j => (ms[pt.labels.data.getD j 0]?).map fun p => d (p.x * g.yLen + p.y) j) := by
      intro j l p h1 h2
      rw [hd' j l p h1 h2]
      simp [List.getD, h1, h2]
    have hown : ∀ j < pt.labels.data.length, ∃ l a, pt.labels.data[j]? = some l ∧
        (ms.map fun p => p.x * g.yLen + p.y)[l]? = some a ∧
        (ms[pt.labels.data.getD j 0]?).map (fun p => d (p.x * g.yLen + p.y) j) = some (d a j) := by
      intro j hj
      have hl : pt.labels.data[j] < ms.length := by rw [hms]; exact hp.lt _ (List.getElem_mem hj)
      refine ⟨pt.labels.data[j], ms[pt.labels.data[j]].x * g.yLen + ms[pt.labels.data[j]].y,
        List.getElem?_eq_getElem hj, ?_, ?_⟩
      · rw [List.getElem?_map, List.getElem?_eq_getElem hl]; rfl
      · simp only [List.getD, List.getElem?_eq_getElem hj, Option.getD_some, List.getElem?_eq_getElem hl,
          Option.map_some]
    let own : Nat → K := fun j =>
      ((ms[pt.labels.data.getD j 0]?).map fun p => d (p.x * g.yLen + p.y) j).getD 0
    have hown' : ∀ j < pt.labels.data.length,
        (ms[pt.labels.data.getD j 0]?).map (fun p => d (p.x * g.yLen + p.y) j) = some (own j) := by
      intro j hj
      obtain ⟨l, a, -, -, h3⟩ := hown j hj
      simp only [own, h3, Option.getD_some]
    refine ⟨((List.range pt.labels.data.length).map own).sum, ⟨own, ?_, rfl⟩, ?_⟩
    · intro j hj
      obtain ⟨l, a, h1, h2, h3⟩ := hown j hj
      refine ⟨l, a, h1, h2, ?_⟩
      rw [hown' j hj] at h3
      exact Option.some.inj h3
    · rw [hrun _ hd]
      have e : ∀ i, (indicesOf pt.labels.data i).map
          (fun j => (ms[pt.labels.data.getD j 0]?).map fun p => d (p.x * g.yLen + p.y) j) =
          ((indicesOf pt.labels.data i).map own).map some := by
        intro i
        rw [List.map_map]
        apply List.map_congr_left
        intro j hj
        exact hown' j (List.mem_range.1 (List.mem_filter.1 hj).1)
      have e2 : ((List.range pt.k).map fun i => floatSum ((indicesOf pt.labels.data i).map
          fun j => (ms[pt.labels.data.getD j 0]?).map fun p => d (p.x * g.yLen + p.y) j)) =
          ((List.range pt.k).map fun i => ((indicesOf pt.labels.data i).map own).sum).map some := by
        rw [List.map_map]
        apply List.map_congr_left
        intro i _
        rw [e, floatSum_some]; rfl
      rw [e2, floatSum_some, sum_indices _ _ hp.lt]
  · rintro f hf ⟨j, hj, hn⟩
    rw [hrun f hf, floatSum_none]
    refine List.mem_map.2 ⟨pt.labels.data[j], List.mem_range.2 (hp.lt _ (List.getElem_mem hj)), ?_⟩
    apply floatSum_none
    refine List.mem_map.2 ⟨j, List.mem_filter.2 ⟨List.mem_range.2 hj, ?_⟩, hn⟩
    simp [List.getElem?_eq_getElem hj]

/-- The partition of the clustering `c` can be analysed: it is a partition of the region into as many clusters
as the clustering asks for, with one medoid for each, and the matrix has the distances from the medoids. -/
structure Analysable (g : Grid α) (m : Grid (Option K)) (d : Nat → Nat → K) (c : ClusterMeta)
    (pt : Partition) (ms : List Point) : Prop where
  valid : pt.Valid
  sx : pt.labels.xLen = g.xLen
  sy : pt.labels.yLen = g.yLen
  clusters : c.k = pt.k
  medoids : ms.length = pt.k
  distances : ∀ (j l : Nat) (p : Point), pt.labels.data[j]? = some l → ms[l]? = some p →
    m.get ⟨p.x * g.yLen + p.y, j⟩ = .ok (some (d (p.x * g.yLen + p.y) j))

/-- A line of the file about the clustering `c` with the total cost `total` and the medoids `ms`. -/
def LineOf (showCost : Option K → Str) (r : Region) (c : ClusterMeta) (total : K) (ms : List Point)
    (line : Str) : Prop :=
  ∃ text, csvReadRow line = .ok [c.repr, showCost (some total), text] ∧
    parseMedoids text = .ok (datasetPoints r ms)

theorem analyzeSuiteLoop_ok (partitionOf : ClusterMeta → Except PyErr (Partition × List Point))
    (showCost : Option K → Str) (r : Region) (g : Grid α) (hg : g.WF) (m : Grid (Option K))
    (d : Nat → Nat → K) (suite : List ClusterMeta) (part : ClusterMeta → Partition)
    (ms : ClusterMeta → List Point) (h : ∀ c ∈ suite, partitionOf c = .ok (part c, ms c) ∧
      Analysable g m d c (part c) (ms c)) :
    ∃ (total : ClusterMeta → K) (text : ClusterMeta → Str),
      (∀ c ∈ suite, OwnDistances d (part c).labels.data ((ms c).map fun p => p.x * g.yLen + p.y) (total c) ∧
        parseMedoids (text c) = .ok (datasetPoints r (ms c))) ∧
      ∀ rest file, analyzeSuiteLoop partitionOf showCost r g m (suite ++ rest) file =
        analyzeSuiteLoop partitionOf showCost r g m rest (file ++ suite.map fun c =>
          suiteLine c.repr (showCost (some (total c))) (text c)) := by
  have hex : ∀ c, ∃ (total : K) (text : Str), c ∈ suite →
      OwnDistances d (part c).labels.data ((ms c).map fun p => p.x * g.yLen + p.y) total ∧
      parseMedoids text = .ok (datasetPoints r (ms c)) ∧
      analyzePartition showCost r g m c (part c) (ms c) = .ok [c.repr, showCost (some total), text] := by
    intro c
    by_cases hc : c ∈ suite
    · obtain ⟨-, ha⟩ := h c hc
      obtain ⟨text, h1, h2, -⟩ := C106_partition showCost r g hg m c (part c) ha.valid ha.sx ha.sy (ms c)
        ha.clusters ha.medoids
      obtain ⟨total, h3, h4⟩ := h2 d ha.distances
      exact ⟨total, text, fun _ => ⟨h3, h1, h4⟩⟩
    · exact ⟨0, [], fun h => absurd h hc⟩
  choose total text hall using hex
  refine ⟨total, text, fun c hc => ⟨(hall c hc).1, (hall c hc).2.1⟩, ?_⟩
  have hrow : ∀ c ∈ suite, partitionOf c = .ok (part c, ms c) ∧
      analyzePartition showCost r g m c (part c) (ms c) =
        .ok [c.repr, showCost (some (total c)), text c] := fun c hc => ⟨(h c hc).1, (hall c hc).2.2⟩
  clear h hall
  induction suite with
  | nil => intro rest file; simp
  | cons c cs ih =>
    intro rest file
    obtain ⟨h1, h2⟩ := hrow c (by simp)
    rw [List.cons_append, analyzeSuiteLoop, h1]
    simp only [h2]
    rw [ih fun c' h => hrow c' (by simp [h])]
    simp [suiteLine]

/-- **C106** for a suite of clusterings with different representations whose partitions can be analysed: the
analysis succeeds; reading its file as the suite does gives the representation of every clustering, in
order, with the coordinates of its medoids in the dataset; the line of each clustering has the total
distance of the points from the medoids of their clusters. -/
theorem C106_suite (partitionOf : ClusterMeta → Except PyErr (Partition × List Point))
    (showCost : Option K → Str) (r : Region) (g : Grid α) (hg : g.WF) (m : Grid (Option K))
    (d : Nat → Nat → K) (suite : List ClusterMeta) (part : ClusterMeta → Partition)
    (ms : ClusterMeta → List Point) (h : ∀ c ∈ suite, partitionOf c = .ok (part c, ms c) ∧
      Analysable g m d c (part c) (ms c)) (hn : (suite.map ClusterMeta.repr).Nodup) :
    ∃ file, analyzeSuite partitionOf showCost r g m suite = (.ok (), file) ∧
      retrieveSuiteResult (some file) = .ok (suite.map fun c => (c.repr, datasetPoints r (ms c))) ∧
      file.length = suite.length + 1 ∧
      ∀ (i : Nat) (c : ClusterMeta), suite[i]? = some c → ∃ line total, file[i + 1]? = some line ∧
        LineOf showCost r c total (ms c) line ∧
        OwnDistances d (part c).labels.data ((ms c).map fun p => p.x * g.yLen + p.y) total := by
  obtain ⟨total, text, h1, h2⟩ := analyzeSuiteLoop_ok partitionOf showCost r g hg m d suite part ms h
  have h3 := h2 [] [analysisHeader]
  rw [List.append_nil] at h3
  refine ⟨_, h3, ?_, ?_, ?_⟩
  · have := readSuiteRows_ok
      (suite.map fun c => (c.repr, showCost (some (total c)), text c, datasetPoints r (ms c)))
      (by intro w hw; obtain ⟨c, hc, rfl⟩ := List.mem_map.1 hw; exact (h1 c hc).2) []
      (by rw [List.map_map]; exact hn)
    simp only [List.nil_append, List.map_map] at this
    rw [List.singleton_append, retrieveSuiteResult]
    exact this
  · simp
  · intro i c hi
    refine ⟨_, total c, ?_, ⟨text c, csvReadRow_csvRow, (h1 c (List.mem_of_getElem? hi)).2⟩,
      (h1 c (List.mem_of_getElem? hi)).1⟩
    rw [List.singleton_append, List.getElem?_cons_succ, List.getElem?_map, hi]
    rfl

/-- **C106** (interrupted analysis): when a clustering of the suite raises an error, the analysis raises it
too; the file left behind can be read and has exactly the clusterings before. -/
theorem C106_interrupted (partitionOf : ClusterMeta → Except PyErr (Partition × List Point))
    (showCost : Option K → Str) (r : Region) (g : Grid α) (hg : g.WF) (m : Grid (Option K))
    (d : Nat → Nat → K) (pre : List ClusterMeta) (c : ClusterMeta) (post : List ClusterMeta)
    (part : ClusterMeta → Partition) (ms : ClusterMeta → List Point)
    (h : ∀ c ∈ pre, partitionOf c = .ok (part c, ms c) ∧ Analysable g m d c (part c) (ms c))
    (hn : (pre.map ClusterMeta.repr).Nodup) (e : PyErr) (he : partitionOf c = .error e) :
    ∃ file, analyzeSuite partitionOf showCost r g m (pre ++ c :: post) = (.error e, file) ∧
      retrieveSuiteResult (some file) = .ok (pre.map fun c => (c.repr, datasetPoints r (ms c))) := by
  obtain ⟨total, text, h1, h2⟩ := analyzeSuiteLoop_ok partitionOf showCost r g hg m d pre part ms h
  have h3 := h2 (c :: post) [analysisHeader]
  refine ⟨_, by rw [analyzeSuite, h3, analyzeSuiteLoop, he], ?_⟩
  have := readSuiteRows_ok
    (pre.map fun c => (c.repr, showCost (some (total c)), text c, datasetPoints r (ms c)))
    (by intro w hw; obtain ⟨c, hc, rfl⟩ := List.mem_map.1 hw; exact (h1 c hc).2) []
    (by rw [List.map_map]; exact hn)
  simp only [List.nil_append, List.map_map] at this
  rw [List.singleton_append, retrieveSuiteResult]
  exact this

/-! ### C107 -/

theorem kmedoidsPartition_returns {S : Type} {dm : Measure S K} {X : List S} {d : Nat → Nat → K}
    (hd : Realises dm X d) {xLen yLen k : Nat} (hXl : X.length = xLen * yLen) (hk : 1 ≤ k)
    (hpos : ∀ a < X.length, ∀ b < X.length, a ≠ b → d a a < d b a)
    {initial : Option (List Nat)} {outcome : List Nat} (hlen : (initialIndices initial outcome).length = k)
    (hn : (initialIndices initial outcome).Nodup)
    (hi : ∀ i ∈ initialIndices initial outcome, i < X.length)
    {mode : KmMode} (hmode : mode ≠ .other) (maxIter : Nat) (tol : K) (verbose : Bool) :
    ∃ pt ms, kmedoidsPartition X xLen yLen k dm initial outcome mode maxIter tol verbose = .ok (pt, ms) := by
  have hkn : k ≤ X.length := by
    have : (initialIndices initial outcome).Subperm (List.range X.length) :=
      List.subperm_of_subset hn fun i h => List.mem_range.2 (hi i h)
    simpa [hlen] using this.length_le
  have hX : X ≠ [] := by
    intro h; rw [h] at hkn; simp at hkn; omega
  obtain ⟨r, hr⟩ := C26_returns (maxIter := maxIter) (tol := tol) hd hmode hi hlen hk hkn
  have hr' : runKmedoids X k dm initial outcome mode maxIter tol verbose = .ok r := by
    cases verbose with
    | false => exact hr
    | true => exact C30_verbose_report_partial hd hX hpos hr hlen hn
  have hs := C26_labels_and_costs hd hX hr'
  unfold kmedoidsPartition
  rw [hr']
  simp only
  unfold Partition.fromMembershipArray
  cases hmx : r.labels.max? with
  | none =>
    rw [List.max?_eq_none_iff] at hmx
    have := hs.labels_len
    rw [hmx] at this
    exact absurd (List.length_eq_zero_iff.1 this.symm) hX
  | some mx =>
    simp only [hs.labels_len, hXl, if_true, Partition.create, hmx]
    exact ⟨_, _, rfl⟩

/-- The medoid of the cluster of a point is one of the nearest. -/
theorem kmedoidsPartition_nearest {S : Type} {dm : Measure S K} {X : List S} {d : Nat → Nat → K}
    (hd : Realises dm X d) {xLen yLen k : Nat} (hXl : X.length = xLen * yLen) (hX : X ≠ [])
    {initial : Option (List Nat)} {outcome : List Nat} {mode : KmMode} {maxIter : Nat} {tol : K} {verbose : Bool}
    (hk : (initialIndices initial outcome).length = k) {pt : Partition} {ms : List Point}
    (h : kmedoidsPartition X xLen yLen k dm initial outcome mode maxIter tol verbose = .ok (pt, ms))
    {i l : Nat} {p q : Point} (e1 : pt.labels.data[i]? = some l) (e2 : ms[l]? = some p) (hq : q ∈ ms) :
    d (p.x * yLen + p.y) i ≤ d (q.x * yLen + q.y) i := by
  obtain ⟨hv, -, h3, h4, -, -, h7⟩ := kmedoidsPartition_spec hd hXl hX hk h
  have hi' : i < xLen * yLen := by
    have := (List.getElem?_eq_some_iff.1 e1).1
    have hw : pt.labels.data.length = pt.labels.xLen * pt.labels.yLen := hv.wf
    rw [hw, h3, h4] at this
    exact this
  have hy : 0 < yLen := by
    rcases Nat.eq_zero_or_pos yLen with h0 | h0
    · rw [h0] at hi'; simp at hi'
    · exact h0
  have hget : pt.labels.get ⟨i / yLen, i % yLen⟩ = .ok l := by
    rw [Grid.get_eq_ok_iff]
    refine ⟨by rw [h3]; exact div_lt_of_lt_mul' hi', by rw [h4]; exact Nat.mod_lt _ hy, ?_⟩
    simp only [h4, Nat.div_add_mod']
    exact e1
  obtain ⟨md, g1, g2⟩ := h7 _ l hget
  rw [g1] at e2
  cases e2
  have := g2 q hq
  simpa only [Nat.div_add_mod'] using this

/-- The distances of the points from the medoids of their clusters are those from the nearest ones. -/
theorem ownDistances_nearest {S : Type} {dm : Measure S K} {X : List S} {d : Nat → Nat → K}
    (hd : Realises dm X d) {xLen yLen k : Nat} (hXl : X.length = xLen * yLen) (hX : X ≠ [])
    {initial : Option (List Nat)} {outcome : List Nat} {mode : KmMode} {maxIter : Nat} {tol : K} {verbose : Bool}
    (hk : (initialIndices initial outcome).length = k) {pt : Partition} {ms : List Point}
    (h : kmedoidsPartition X xLen yLen k dm initial outcome mode maxIter tol verbose = .ok (pt, ms))
    {c : K} (hc : OwnDistances d pt.labels.data (ms.map fun p => p.x * yLen + p.y) c) :
    TotalCost d X.length (ms.map fun p => p.x * yLen + p.y) c := by
  obtain ⟨hv, -, h3, h4, -⟩ := kmedoidsPartition_spec hd hXl hX hk h
  obtain ⟨own, ho, rfl⟩ := hc
  have hwf : pt.labels.data.length = X.length := by rw [hXl, ← h3, ← h4]; exact hv.wf
  refine ⟨own, fun i hi => ?_, by rw [hwf]⟩
  rw [← hwf] at hi
  obtain ⟨l, a, e1, e2, e3⟩ := ho i hi
  refine ⟨⟨a, List.mem_of_getElem? e2, e3⟩, fun b hb => ?_⟩
  obtain ⟨q, hq, rfl⟩ := List.mem_map.1 hb
  rw [List.getElem?_map] at e2
  cases hp : ms[l]? with
  | none => rw [hp] at e2; cases e2
  | some p =>
    rw [hp] at e2
    cases e2
    rw [e3]
    exact kmedoidsPartition_nearest hd hXl hX hk h e1 hp hq

/-- What a suite of k-medoids clusterings needs: different numbers of clusters and different seeds, one of the
two modes, and for every clustering `k` different initial medoids of the region. -/
structure SuiteOK (p : SuiteParams) (ks : List Int) (outcome : Int → Int → List Nat) (n : Nat) : Prop where
  given : p.ks = some ks
  ks_nodup : ks.Nodup
  seeds_nodup : p.seeds.seeds.Nodup
  mode : p.mode = ['l', 'i', 't', 'e'] ∨ p.mode = ['r', 'o', 'b', 'u', 's', 't']
  pos : ∀ k ∈ ks, 1 ≤ k
  initial_nat : ∀ im, p.initial = some im → ∀ i ∈ im, 0 ≤ i
  initial : ∀ k ∈ ks, ∀ s ∈ p.seeds.seeds,
    (initialIndices (p.initial.map (·.map Int.toNat)) (outcome k s)).length = k.toNat ∧
    (initialIndices (p.initial.map (·.map Int.toNat)) (outcome k s)).Nodup ∧
    ∀ i ∈ initialIndices (p.initial.map (·.map Int.toNat)) (outcome k s), i < n

theorem SuiteOK.known {p : SuiteParams} {ks : List Int} {outcome : Int → Int → List Nat} {n : Nat}
    (h : SuiteOK p ks outcome n) : kmModeOf p.mode ≠ .other ∧ '_' ∉ p.mode := by
  rcases h.mode with e | e <;> rw [e] <;> decide

/-- Every clustering of such a suite gives a partition that can be analysed. -/
theorem SuiteOK.partition {S : Type} {g : Grid S} (hg : g.WF) {dm : Measure S K} {d : Nat → Nat → K}
    (hd : Realises dm g.data d)
    (hpos : ∀ a < g.data.length, ∀ b < g.data.length, a ≠ b → d a a < d b a)
    {m : Grid (Option K)} (hm : ∀ a < g.data.length, ∀ i < g.data.length, m.get ⟨a, i⟩ = .ok (some (d a i)))
    {p : SuiteParams} {ks : List Int} {outcome : Int → Int → List Nat} (tol : K) (verbose : Bool)
    (hs : SuiteOK p ks outcome g.data.length) {k : Int} (hk : k ∈ ks) {s : Int} (hs' : s ∈ p.seeds.seeds) :
    ∃ pt ms, kmedoidsPartitionOf g dm outcome tol verbose (.kmedoids ⟨k, s, p.mode, p.initial, p.maxIter⟩) =
        .ok (pt, ms) ∧
      Analysable g m d (.kmedoids ⟨k, s, p.mode, p.initial, p.maxIter⟩) pt ms ∧
      (∀ (i l : Nat) (p q : Point), pt.labels.data[i]? = some l → ms[l]? = some p → q ∈ ms →
        d (p.x * g.yLen + p.y) i ≤ d (q.x * g.yLen + q.y) i) ∧
      ∀ total, OwnDistances d pt.labels.data (ms.map fun p => p.x * g.yLen + p.y) total →
        TotalCost d g.data.length (ms.map fun p => p.x * g.yLen + p.y) total := by
  obtain ⟨i1, i2, i3⟩ := hs.initial k hk s hs'
  have hk1 := hs.pos k hk
  have hk1' : 1 ≤ k.toNat := by omega
  obtain ⟨pt, ms, hp⟩ := kmedoidsPartition_returns hd hg hk1' hpos i1 i2 i3 hs.known.1 p.maxIter tol verbose
  have hX : g.data ≠ [] := by
    intro h0
    rw [h0] at i3
    have : initialIndices (p.initial.map (·.map Int.toNat)) (outcome k s) ≠ [] := by
      intro e; rw [e] at i1; simp at i1; omega
    obtain ⟨x, hx⟩ := List.exists_mem_of_ne_nil _ this
    exact absurd (i3 x hx) (by simp)
  obtain ⟨hv, -, v3, v4, -, -, -⟩ := kmedoidsPartition_spec hd hg hX i1 hp
  obtain ⟨b1, b2, -, -, b3⟩ := C30_partition_has_k_clusters_partial hd hg hX hpos i1 i2 pt ms hp
  refine ⟨pt, ms, hp, ⟨hv, v3, v4, ?_, by omega, ?_⟩,
    fun i l p q e1 e2 hq => kmedoidsPartition_nearest hd hg hX i1 hp e1 e2 hq, ?_⟩
  · rw [b1]; simp only [ClusterMeta.k]; omega
  · intro j l q e1 e2
    have hq := (Grid.get_eq_ok_iff _ _ _).1 (b3 l q e2)
    rw [v3, v4] at hq
    have hj := (List.getElem?_eq_some_iff.1 e1).1
    have hw : pt.labels.data.length = g.data.length := by
      have a1 : pt.labels.data.length = pt.labels.xLen * pt.labels.yLen := hv.wf
      have a2 : g.data.length = g.xLen * g.yLen := hg
      rw [a1, a2, v3, v4]
    refine hm _ ?_ _ (by rw [← hw]; exact hj)
    have a2 : g.data.length = g.xLen * g.yLen := hg
    rw [a2]
    exact idx_lt hq.1 hq.2.1
  · intro total ht
    exact ownDistances_nearest hd hg hX i1 hp ht

/-- **C107** (partial): the analysis of a suite of k-medoids clusterings succeeds when every series is nearer
to itself than to the other ones; its file has one line for every pair of number of clusters and seed, with
the coordinates of its medoids and the total distance of the points from their nearest medoids. -/
theorem C107_kmedoids_suite_partial {S : Type} (showCost : Option K → Str) (r : Region) (g : Grid S)
    (hg : g.WF) (dm : Measure S K) (d : Nat → Nat → K) (hd : Realises dm g.data d)
    (hpos : ∀ a < g.data.length, ∀ b < g.data.length, a ≠ b → d a a < d b a)
    (m : Grid (Option K)) (hm : ∀ a < g.data.length, ∀ i < g.data.length, m.get ⟨a, i⟩ = .ok (some (d a i)))
    (p : SuiteParams) (ks : List Int) (outcome : Int → Int → List Nat) (tol : K) (verbose : Bool)
    (hs : SuiteOK p ks outcome g.data.length) :
    ∃ (suite : List ClusterMeta) (file : List Str) (medoids : ClusterMeta → List Point), createSuite sKmedoids p = .ok suite ∧
      (∀ c, c ∈ suite ↔ ∃ k ∈ ks, ∃ s ∈ p.seeds.seeds, c = .kmedoids ⟨k, s, p.mode, p.initial, p.maxIter⟩) ∧
      analyzeSuite (kmedoidsPartitionOf g dm outcome tol verbose) showCost r g m suite = (.ok (), file) ∧
      retrieveSuiteResult (some file) = .ok (suite.map fun c => (c.repr, datasetPoints r (medoids c))) ∧
      file.length = suite.length + 1 ∧
      ∀ (i : Nat) (c : ClusterMeta), suite[i]? = some c → ∃ pt line total, file[i + 1]? = some line ∧
        kmedoidsPartitionOf g dm outcome tol verbose c = .ok (pt, medoids c) ∧
        ((medoids c).length : Int) = c.k ∧
        LineOf showCost r c total (medoids c) line ∧
        TotalCost d g.data.length ((medoids c).map fun p => p.x * g.yLen + p.y) total := by
  obtain ⟨suite, h1, h2, h3⟩ := C52_pairs p hs.given
  have hrun : ∀ c, ∃ pt ms, c ∈ suite → kmedoidsPartitionOf g dm outcome tol verbose c = .ok (pt, ms) ∧
      Analysable g m d c pt ms ∧
      ∀ total, OwnDistances d pt.labels.data (ms.map fun p => p.x * g.yLen + p.y) total →
        TotalCost d g.data.length (ms.map fun p => p.x * g.yLen + p.y) total := by
    intro c
    by_cases hc : c ∈ suite
    · obtain ⟨k, hk, s, hs', rfl⟩ := (h2 c).1 hc
      obtain ⟨pt, ms, a1, a2, -, a3⟩ := hs.partition hg hd hpos hm tol verbose hk hs'
      exact ⟨pt, ms, fun _ => ⟨a1, a2, a3⟩⟩
    · exact ⟨⟨⟨0, 0, []⟩, 0, 0⟩, [], fun h => absurd h hc⟩
  choose part med hall using hrun
  have hnodup : (suite.map ClusterMeta.repr).Nodup := by
    refine List.Nodup.map_on ?_ (h3 hs.ks_nodup hs.seeds_nodup)
    intro a ha b hb hab
    obtain ⟨k, hk, s, hs1, rfl⟩ := (h2 a).1 ha
    obtain ⟨k', hk', s', hs2, rfl⟩ := (h2 b).1 hb
    have hmd := hs.known.2
    obtain ⟨e1, e2, -, -⟩ := KmMeta.repr_inj (m := ⟨k, s, p.mode, p.initial, p.maxIter⟩)
      (m' := ⟨k', s', p.mode, p.initial, p.maxIter⟩) hmd hmd hs.initial_nat hs.initial_nat hab
    simp only at e1 e2
    rw [e1, e2]
  obtain ⟨file, f1, f2, f3, f4⟩ := C106_suite (kmedoidsPartitionOf g dm outcome tol verbose) showCost r g hg m
    d suite part med (fun c hc => ⟨(hall c hc).1, (hall c hc).2.1⟩) hnodup
  refine ⟨suite, file, med, h1, h2, f1, f2, f3, ?_⟩
  intro i c hi
  have hc := List.mem_of_getElem? hi
  obtain ⟨line, total, l1, l2, l3⟩ := f4 i c hi
  refine ⟨part c, line, total, l1, (hall c hc).1, ?_, l2, (hall c hc).2.2 total l3⟩
  have := (hall c hc).2.1
  rw [this.clusters, this.medoids]

theorem analyzeLoop_missing (r : Region) (m : Grid (Option K)) (yLen : Nat) (medoids : List Point)
    (clusters : List (ClusterObj α)) {is : List Nat} {i : Nat} (hi : i ∈ is) (hc : clusters.length ≤ i)
    (text : Str) (costs : List (Option K)) :
    ∃ e, analyzeLoop r m yLen medoids clusters is text costs = .error e := by
  induction is generalizing text costs with
  | nil => cases hi
  | cons j js ih =>
    rw [analyzeLoop]
    rcases List.mem_cons.1 hi with rfl | hi
    · rw [List.getElem?_eq_none hc]
      exact ⟨_, rfl⟩
    · cases clusters[j]? with
      | none => exact ⟨_, rfl⟩
      | some c =>
        simp only
        cases medoids[j]? with
        | none => exact ⟨_, rfl⟩
        | some medoid =>
          simp only
          cases c.allPointIndices with
          | error e => exact ⟨e, rfl⟩
          | ok indices =>
            simp only
            cases distancesToPointWithMatrix m yLen medoid indices with
            | error e => exact ⟨e, rfl⟩
            | ok ds => exact ih hi _ _

theorem analyzeSuiteLoop_error {partitionOf : ClusterMeta → Except PyErr (Partition × List Point)}
    {showCost : Option K → Str} {r : Region} {g : Grid α} {m : Grid (Option K)} {c : ClusterMeta}
    (hbad : ∀ pt ms, partitionOf c = .ok (pt, ms) → ∃ e, analyzePartition showCost r g m c pt ms = .error e)
    {suite : List ClusterMeta} (hc : c ∈ suite) (file : List Str) :
    ∃ e file', analyzeSuiteLoop partitionOf showCost r g m suite file = (.error e, file') := by
  induction suite generalizing file with
  | nil => cases hc
  | cons a rest ih =>
    rw [analyzeSuiteLoop]
    cases hp : partitionOf a with
    | error e => exact ⟨e, file, rfl⟩
    | ok v =>
      obtain ⟨pt, ms⟩ := v
      simp only
      cases ha : analyzePartition showCost r g m a pt ms with
      | error e => exact ⟨e, file, rfl⟩
      | ok row =>
        rcases List.mem_cons.1 hc with rfl | hc
        · obtain ⟨e, he⟩ := hbad pt ms hp
          rw [ha] at he
          cases he
        · exact ih hc _

/-- **C107** (partial, for all data): exactly when the analysis of a suite of k-medoids clusterings succeeds.
If for every pair of number of clusters and seed the clustering has a result in which the last cluster has a
member, the file has one line for every pair, with the coordinates of the medoids and the total distance of
the points from their nearest medoids. Otherwise the analysis stops with an error. (With `verbose` the
clustering has a result if and only if all clusters have members, C30.) -/
theorem C107_when_partial {S : Type} (showCost : Option K → Str) (r : Region) (g : Grid S)
    (hg : g.WF) (dm : Measure S K) (d : Nat → Nat → K) (hd : Realises dm g.data d)
    (m : Grid (Option K)) (hm : ∀ a < g.data.length, ∀ i < g.data.length, m.get ⟨a, i⟩ = .ok (some (d a i)))
    (p : SuiteParams) (ks : List Int) (outcome : Int → Int → List Nat) (tol : K) (verbose : Bool)
    (hs : SuiteOK p ks outcome g.data.length) :
    ∃ (suite : List ClusterMeta), createSuite sKmedoids p = .ok suite ∧
      (∀ c, c ∈ suite ↔ ∃ k ∈ ks, ∃ s ∈ p.seeds.seeds, c = .kmedoids ⟨k, s, p.mode, p.initial, p.maxIter⟩) ∧
      ((∀ k ∈ ks, ∀ s ∈ p.seeds.seeds, ∃ result, runKmedoids g.data k.toNat dm
            (p.initial.map (·.map Int.toNat)) (outcome k s) (kmModeOf p.mode) p.maxIter tol verbose =
            .ok result ∧ k.toNat - 1 ∈ result.labels) →
        ∃ (file : List Str) (medoids : ClusterMeta → List Point),
          analyzeSuite (kmedoidsPartitionOf g dm outcome tol verbose) showCost r g m suite = (.ok (), file) ∧
          retrieveSuiteResult (some file) = .ok (suite.map fun c => (c.repr, datasetPoints r (medoids c))) ∧
          file.length = suite.length + 1 ∧
          ∀ (i : Nat) (c : ClusterMeta), suite[i]? = some c → ∃ pt line total, file[i + 1]? = some line ∧
            kmedoidsPartitionOf g dm outcome tol verbose c = .ok (pt, medoids c) ∧
            ((medoids c).length : Int) = c.k ∧
            LineOf showCost r c total (medoids c) line ∧
            TotalCost d g.data.length ((medoids c).map fun p => p.x * g.yLen + p.y) total) ∧
      ((∃ k ∈ ks, ∃ s ∈ p.seeds.seeds, ∀ result, runKmedoids g.data k.toNat dm
            (p.initial.map (·.map Int.toNat)) (outcome k s) (kmModeOf p.mode) p.maxIter tol verbose =
            .ok result → k.toNat - 1 ∉ result.labels) →
        ∃ e file, analyzeSuite (kmedoidsPartitionOf g dm outcome tol verbose) showCost r g m suite =
          (.error e, file)) := by
  obtain ⟨suite, h1, h2, h3⟩ := C52_pairs p hs.given
  have hX : ∀ k ∈ ks, ∀ s ∈ p.seeds.seeds, g.data ≠ [] := by
    intro k hk s hs' h0
    obtain ⟨i1, i2, i3⟩ := hs.initial k hk s hs'
    have hk1 := hs.pos k hk
    rw [h0] at i3
    have : initialIndices (p.initial.map (·.map Int.toNat)) (outcome k s) ≠ [] := by
      intro e; rw [e] at i1; simp at i1; omega
    obtain ⟨x, hx⟩ := List.exists_mem_of_ne_nil _ this
    exact absurd (i3 x hx) (by simp)
  have hpart : ∀ k ∈ ks, ∀ s ∈ p.seeds.seeds, ∀ pt ms,
      kmedoidsPartitionOf g dm outcome tol verbose (.kmedoids ⟨k, s, p.mode, p.initial, p.maxIter⟩) =
        .ok (pt, ms) → ∃ result, runKmedoids g.data k.toNat dm
            (p.initial.map (·.map Int.toNat)) (outcome k s) (kmModeOf p.mode) p.maxIter tol verbose =
            .ok result ∧ ms = (result.medoids.map fun n => ⟨n / g.yLen, n % g.yLen⟩) ∧
          (∀ l ∈ result.labels, l < pt.k) ∧ pt.k - 1 ∈ result.labels := by
    intro k hk s hs' pt ms h
    unfold kmedoidsPartitionOf kmedoidsPartition at h
    simp only at h
    split at h
    · cases h
    rename_i result hr
    split at h
    · cases h
    rename_i pt' hpt
    cases h
    refine ⟨result, hr, rfl, ?_⟩
    unfold Partition.fromMembershipArray at hpt
    split at hpt
    · cases hpt
    rename_i mx hmx
    have hl := C26_labels_and_costs hd (hX k hk s hs') hr
    rw [if_pos (by rw [hl.labels_len]; exact hg)] at hpt
    unfold Partition.create at hpt
    simp only [hmx, if_true, Except.ok.injEq] at hpt
    subst hpt
    have hmx' := List.max?_eq_some_iff.1 hmx
    refine ⟨fun l hl => ?_, by simpa using hmx'.1⟩
    have := hmx'.2 l hl
    simp only
    omega
  refine ⟨suite, h1, h2, fun hlast => ?_, ?_⟩
  · have hrun : ∀ c, ∃ pt ms, c ∈ suite → kmedoidsPartitionOf g dm outcome tol verbose c = .ok (pt, ms) ∧
        Analysable g m d c pt ms ∧
        ∀ total, OwnDistances d pt.labels.data (ms.map fun p => p.x * g.yLen + p.y) total →
          TotalCost d g.data.length (ms.map fun p => p.x * g.yLen + p.y) total := by
      intro c
      by_cases hc : c ∈ suite
      · obtain ⟨k, hk, s, hs', rfl⟩ := (h2 c).1 hc
        obtain ⟨i1, i2, i3⟩ := hs.initial k hk s hs'
        have hk1 := hs.pos k hk
        obtain ⟨result, hr, hl⟩ := hlast k hk s hs'
        have hX' := hX k hk s hs'
        have hlab := C26_labels_and_costs hd hX' hr
        have hex : ∃ pt ms, kmedoidsPartition g.data g.xLen g.yLen k.toNat dm
            (p.initial.map (·.map Int.toNat)) (outcome k s) (kmModeOf p.mode) p.maxIter tol verbose =
            .ok (pt, ms) := by
          unfold kmedoidsPartition
          rw [hr]
          simp only
          unfold Partition.fromMembershipArray
          cases hmx : result.labels.max? with
          | none =>
            rw [List.max?_eq_none_iff] at hmx
            rw [hmx] at hl
            cases hl
          | some mx =>
            have hw : result.labels.length = g.xLen * g.yLen := by rw [hlab.labels_len]; exact hg
            simp only [hw, if_true, Partition.create, hmx]
            exact ⟨_, _, rfl⟩
        obtain ⟨pt, ms, hp⟩ := hex
        obtain ⟨hv, -, v3, v4, v5, v6, -⟩ := kmedoidsPartition_spec hd hg hX' i1 hp
        obtain ⟨result', hr', hms, q1, q2⟩ := hpart k hk s hs' pt ms hp
        rw [hr] at hr'
        cases hr'
        obtain ⟨a1, -, a3⟩ := C28_distinct_medoids hd hX' hr i1 i2
        have hptk : pt.k = k.toNat := by
          have e1 := q1 _ hl
          have e2 : pt.k - 1 < k.toNat := by
            obtain ⟨i, hi⟩ := List.mem_iff_getElem?.1 q2
            obtain ⟨x, hx, -⟩ := hlab.nearest i _ hi
            rw [← a1]
            exact (List.getElem?_eq_some_iff.1 hx).1
          have := hv.pos
          omega
        refine ⟨pt, ms, fun _ => ⟨hp, ⟨hv, v3, v4, ?_, by omega, ?_⟩,
          fun total ht => ownDistances_nearest hd hg hX' i1 hp ht⟩⟩
        · rw [hptk]; simp only [ClusterMeta.k]; omega
        · intro j l q e1 e2
          have hj := (List.getElem?_eq_some_iff.1 e1).1
          have hw : pt.labels.data.length = g.data.length := by
            have a1 : pt.labels.data.length = pt.labels.xLen * pt.labels.yLen := hv.wf
            have a2 : g.data.length = g.xLen * g.yLen := hg
            rw [a1, a2, v3, v4]
          rw [hms, List.getElem?_map, Option.map_eq_some_iff] at e2
          obtain ⟨n, hn, rfl⟩ := e2
          simp only [Nat.div_add_mod']
          exact hm n (a3 n (List.mem_of_getElem? hn)) j (by rw [← hw]; exact hj)
      · exact ⟨⟨⟨0, 0, []⟩, 0, 0⟩, [], fun h => absurd h hc⟩
    choose part med hall using hrun
    have hnodup : (suite.map ClusterMeta.repr).Nodup := by
      refine List.Nodup.map_on ?_ (h3 hs.ks_nodup hs.seeds_nodup)
      intro a ha b hb hab
      obtain ⟨k, hk, s, hs1, rfl⟩ := (h2 a).1 ha
      obtain ⟨k', hk', s', hs2, rfl⟩ := (h2 b).1 hb
      have hmd := hs.known.2
      obtain ⟨e1, e2, -, -⟩ := KmMeta.repr_inj (m := ⟨k, s, p.mode, p.initial, p.maxIter⟩)
        (m' := ⟨k', s', p.mode, p.initial, p.maxIter⟩) hmd hmd hs.initial_nat hs.initial_nat hab
      simp only at e1 e2
      rw [e1, e2]
    obtain ⟨file, f1, f2, f3, f4⟩ := C106_suite (kmedoidsPartitionOf g dm outcome tol verbose) showCost r g hg m
      d suite part med (fun c hc => ⟨(hall c hc).1, (hall c hc).2.1⟩) hnodup
    refine ⟨file, med, f1, f2, f3, ?_⟩
    intro i c hi
    have hc := List.mem_of_getElem? hi
    obtain ⟨line, total, l1, l2, l3⟩ := f4 i c hi
    refine ⟨part c, line, total, l1, (hall c hc).1, ?_, l2, (hall c hc).2.2 total l3⟩
    have := (hall c hc).2.1
    rw [this.clusters, this.medoids]
  · rintro ⟨k, hk, s, hs', hbad⟩
    obtain ⟨i1, i2, i3⟩ := hs.initial k hk s hs'
    have hX' := hX k hk s hs'
    have hk1 := hs.pos k hk
    refine analyzeSuiteLoop_error (c := .kmedoids ⟨k, s, p.mode, p.initial, p.maxIter⟩) (fun pt ms hp => ?_)
      ((h2 _).2 ⟨k, hk, s, hs', rfl⟩) _
    obtain ⟨result, hr, hms, q1, q2⟩ := hpart k hk s hs' pt ms hp
    obtain ⟨hv, -, v3, v4, v5, v6, -⟩ := kmedoidsPartition_spec hd hg hX' i1 hp
    have hlab := C26_labels_and_costs hd hX' hr
    obtain ⟨a1, -, a3⟩ := C28_distinct_medoids hd hX' hr i1 i2
    have hlt : pt.k < k.toNat := by
      have e2 : pt.k - 1 < k.toNat := by
        obtain ⟨i, hi⟩ := List.mem_iff_getElem?.1 q2
        obtain ⟨x, hx, -⟩ := hlab.nearest i _ hi
        rw [← a1]
        exact (List.getElem?_eq_some_iff.1 hx).1
      by_contra hge
      have := hv.pos
      exact hbad result hr (by rwa [show k.toNat - 1 = pt.k - 1 by omega])
    unfold analyzePartition
    rw [createClustersWithMedoids_eq pt g ms v3 v4 (by omega)]
    simp only
    obtain ⟨e, he⟩ := analyzeLoop_missing r m g.yLen ms
      ((List.range pt.k).map fun i => (⟨g, pt, i, 0⟩ : ClusterObj S))
      (is := List.range (ClusterMeta.kmedoids ⟨k, s, p.mode, p.initial, p.maxIter⟩).k.toNat)
      (i := pt.k) (List.mem_range.2 hlt) (by simp) [] []
    rw [he]
    exact ⟨e, rfl⟩

/-- Two equal series. -/
def equalGrid : Grid Unit := ⟨1, 2, [(), ()]⟩

/-- **C107 refuted** for equal series: with two medoids on them, the partition of k-medoids has one cluster
only, and the analysis of the suite stops with an IndexError; the file has its header only. -/
theorem C107_refuted (showCost : Option ℚ → Str) :
    createSuite sKmedoids { ks := some [2], initial := some [0, 1] } =
      .ok [.kmedoids { k := 2, seed := 1, initial := some [0, 1] }] ∧
    analyzeSuite (kmedoidsPartitionOf (K := ℚ) equalGrid (.matrix ⟨2, 2, [0, 0, 0, 0]⟩) (fun _ _ => []) (1 / 1000) false)
      showCost ⟨0, 1, 0, 2⟩ equalGrid ⟨2, 2, [some 0, some 0, some 0, some 0]⟩
      [.kmedoids { k := 2, seed := 1, initial := some [0, 1] }] = (.error .indexError, [analysisHeader]) := by
  refine ⟨by decide +kernel, ?_⟩
  have h1 : kmedoidsPartitionOf equalGrid (.matrix (⟨2, 2, [0, 0, 0, 0]⟩ : Grid ℚ)) (fun _ _ => []) (1 / 1000)
      false (.kmedoids { k := 2, seed := 1, initial := some [0, 1] }) =
      .ok (⟨⟨1, 2, [0, 0]⟩, 1, 0⟩, [⟨0, 0⟩, ⟨0, 1⟩]) := by decide +kernel
  have h2 : analyzeLoop ⟨0, 1, 0, 2⟩ (⟨2, 2, [some 0, some 0, some 0, some 0]⟩ : Grid (Option ℚ)) 2
      [⟨0, 0⟩, ⟨0, 1⟩] [(⟨equalGrid, ⟨⟨1, 2, [0, 0]⟩, 1, 0⟩, 0, 0⟩ : ClusterObj Unit)] [0, 1] [] [] =
      .error .indexError := by decide +kernel
  have h3 : (⟨⟨1, 2, [0, 0]⟩, 1, 0⟩ : Partition).createClustersWithMedoids equalGrid [⟨0, 0⟩, ⟨0, 1⟩] =
      .ok [⟨equalGrid, ⟨⟨1, 2, [0, 0]⟩, 1, 0⟩, 0, 0⟩] := by decide +kernel
  rw [analyzeSuite, analyzeSuiteLoop, h1]
  simp only [analyzePartition, h3]
  rw [show List.range (ClusterMeta.kmedoids { k := 2, seed := 1, initial := some [0, 1] }).k.toNat = [0, 1]
    from rfl, show equalGrid.yLen = 2 from rfl, h2]

/-- The points at 0, 1 and 5 of a line at offset (43, 85), clustered around the points 1 and 2: the hypotheses
of C106 and C107 hold, and the row is the one expected. -/
example : Analysable (⟨1, 3, [(), (), ()]⟩ : Grid Unit)
    (⟨3, 3, [some 0, some 1, some 5, some 1, some 0, some 4, some 5, some 4, some 0]⟩ : Grid (Option ℚ))
    lineDist (.kmedoids { k := 2, seed := 1 }) ⟨⟨1, 3, [0, 0, 1]⟩, 2, 0⟩ [⟨0, 1⟩, ⟨0, 2⟩] where
  valid := ⟨by decide, by decide, by decide⟩
  sx := rfl
  sy := rfl
  clusters := rfl
  medoids := rfl
  distances := by
    intro j l p h1 h2
    have hj := (List.getElem?_eq_some_iff.1 h1).1
    have hl := (List.getElem?_eq_some_iff.1 h2).1
    have : ∀ j < 3, ∀ l < 2, ∀ p ∈ [(⟨0, 1⟩ : Point), ⟨0, 2⟩],
      (⟨3, 3, [some 0, some 1, some 5, some 1, some 0, some 4, some 5, some 4, some 0]⟩ :
        Grid (Option ℚ)).get ⟨p.x * 3 + p.y, j⟩ = .ok (some (lineDist (p.x * 3 + p.y) j)) := by
      decide +kernel
    exact this j hj l hl p (List.mem_of_getElem? h2)

example : analyzePartition (fun v => if v = some 1 then ['1', '.', '0', '0', '0'] else ['n', 'a', 'n'])
    ⟨43, 44, 85, 88⟩ (⟨1, 3, [(), (), ()]⟩ : Grid Unit)
    (⟨3, 3, [some 0, some 1, some 5, some 1, some 0, some 4, some 5, some 4, some 0]⟩ : Grid (Option ℚ))
    (.kmedoids { k := 2, seed := 1 }) ⟨⟨1, 3, [0, 0, 1]⟩, 2, 0⟩ [⟨0, 1⟩, ⟨0, 2⟩] =
    .ok ["kmedoids_k2_seed1_lite".toList, "1.000".toList, "(43,86) (43,87) ".toList] := by decide +kernel

example : SuiteOK { ks := some [2, 1], seeds := .many [0, 1] } [2, 1]
    (fun k _ => if k = 2 then [0, 2] else [1]) 3 where
  given := rfl
  ks_nodup := by decide
  seeds_nodup := by decide
  mode := by decide
  pos := by decide
  initial_nat := fun _ h => by cases h
  initial := by decide

/-! ### C108 -/

theorem medoidDistanceRow_eq {m : Grid (Option K)} {yLen k : Nat} {medoids : List Point} (hlen : medoids.length = k)
    {d : Point → Point → Option K}
    (hd : ∀ p ∈ medoids, ∀ q ∈ medoids, m.get ⟨p.x * yLen + p.y, q.x * yLen + q.y⟩ = .ok (d p q)) :
    ∀ i ∈ List.range k, medoidDistanceRow m yLen k medoids i = .ok (medoids.map (d (medoids.getD i ⟨0, 0⟩))) := by
  intro i hi
  have hi : i < medoids.length := by rw [hlen]; exact List.mem_range.1 hi
  have hds : distancesToPointWithMatrix m yLen medoids[i] (medoids.map fun p => p.x * yLen + p.y) =
      .ok (medoids.map (d medoids[i])) := by
    unfold distancesToPointWithMatrix
    have : ∀ (ps : List Point), (∀ p ∈ ps, p ∈ medoids) →
        (ps.map fun p => p.x * yLen + p.y).mapM
          (fun j => m.get ⟨medoids[i].x * yLen + medoids[i].y, j⟩) = .ok (ps.map (d medoids[i])) := by
      intro ps
      induction ps with
      | nil => intro _; rfl
      | cons p ps ih =>
        intro h
        rw [List.map_cons, List.mapM_cons, hd _ (List.getElem_mem hi) p (h p (by simp)),
          ih fun q hq => h q (by simp [hq])]
        rfl
    exact this medoids fun _ h => h
  rw [medoidDistanceRow, List.getElem?_eq_getElem hi]
  simp only [hds, assignRow, List.length_map, hlen, if_true, List.getD, List.getElem?_eq_getElem hi,
    Option.getD_some]

/-- **C108**: for `k` medoids whose distances are in the matrix, the file has a header with the numbers of the
clusters, and for every cluster a line with its number and the distances of its medoid from all medoids, in
the order of the clusters. -/
theorem C108_file (showDistance : Option K → Str) (m : Grid (Option K)) (yLen k : Nat) (hk : 1 ≤ k)
    (medoids : List Point) (hlen : medoids.length = k) (d : Point → Point → Option K)
    (hd : ∀ p ∈ medoids, ∀ q ∈ medoids, m.get ⟨p.x * yLen + p.y, q.x * yLen + q.y⟩ = .ok (d p q)) :
    ∃ file, medoidDistancesFile showDistance m yLen k medoids = .ok file ∧ file.length = k + 1 ∧
      (∃ header, file[0]? = some header ∧ csvReadRow header = .ok (['k'] :: (List.range k).map natStr)) ∧
      ∀ (i : Nat) (p : Point), medoids[i]? = some p → ∃ line, file[i + 1]? = some line ∧
        csvReadRow line = .ok (natStr i :: medoids.map fun q => showDistance (d p q)) := by
  have hrow := medoidDistanceRow_eq hlen hd
  refine ⟨_, by rw [medoidDistancesFile, mapM_ok _ _ _ hrow], ?_, ⟨_, rfl, ?_⟩, ?_⟩
  · simp
  · obtain ⟨k', rfl⟩ : ∃ k', k = k' + 1 := ⟨k - 1, by omega⟩
    rw [List.range_succ_eq_map, List.map_cons]
    exact csvReadRow_csvRow
  · intro i p hp
    obtain ⟨hi, rfl⟩ := List.getElem?_eq_some_iff.1 hp
    refine ⟨csvRow (natStr i :: medoids.map fun q => showDistance (d medoids[i] q)), ?_, ?_⟩
    · rw [List.getElem?_cons_succ, List.zipWith_map_right, List.zipWith_self, List.getElem?_map,
        List.getElem?_range (by omega)]
      simp [hi, Function.comp_def]
    · cases medoids with
      | nil => simp at hi
      | cons q qs => exact csvReadRow_csvRow

/-- **C108** (symmetry): if the distances are symmetric, so is the file; if each medoid is at distance zero
from itself, the diagonal has zeros only. -/
theorem C108_symmetric (showDistance : Option K → Str) (m : Grid (Option K)) (yLen k : Nat) (hk : 1 ≤ k)
    (medoids : List Point) (hlen : medoids.length = k) (d : Point → Point → Option K)
    (hd : ∀ p ∈ medoids, ∀ q ∈ medoids, m.get ⟨p.x * yLen + p.y, q.x * yLen + q.y⟩ = .ok (d p q))
    (hsym : ∀ p ∈ medoids, ∀ q ∈ medoids, d p q = d q p) (hzero : ∀ p ∈ medoids, d p p = some 0) :
    ∃ (file : List Str) (cell : Nat → Nat → Str),
      medoidDistancesFile showDistance m yLen k medoids = .ok file ∧
      (∀ i < k, ∃ line, file[i + 1]? = some line ∧
        csvReadRow line = .ok (natStr i :: (List.range k).map (cell i))) ∧
      (∀ i < k, ∀ j < k, cell i j = cell j i) ∧ ∀ i < k, cell i i = showDistance (some 0) := by
  obtain ⟨file, h1, -, -, h2⟩ := C108_file showDistance m yLen k hk medoids hlen d hd
  refine ⟨file, fun i j => showDistance (d (medoids.getD i ⟨0, 0⟩) (medoids.getD j ⟨0, 0⟩)), h1, ?_, ?_, ?_⟩
  · intro i hi
    rw [← hlen] at hi
    obtain ⟨line, e1, e2⟩ := h2 i _ (List.getElem?_eq_getElem hi)
    refine ⟨line, e1, ?_⟩
    rw [e2]
    congr 2
    apply List.ext_getElem
    · simp [hlen]
    · intro n h3 h4
      simp only [List.length_map] at h3
      simp [hi, h3]
  · intro i hi j hj
    rw [← hlen] at hi hj
    simp only [List.getD, List.getElem?_eq_getElem hi, List.getElem?_eq_getElem hj, Option.getD_some]
    rw [hsym _ (List.getElem_mem hi) _ (List.getElem_mem hj)]
  · intro i hi
    rw [← hlen] at hi
    simp only [List.getD, List.getElem?_eq_getElem hi, Option.getD_some]
    rw [hzero _ (List.getElem_mem hi)]

/-- **C108** (rejected inputs): no file is written for another number of medoids than clusters. -/
theorem C108_rejected (showDistance : Option K → Str) (m : Grid (Option K)) (yLen k : Nat) (hk : 1 ≤ k)
    (medoids : List Point) (hlen : medoids.length ≠ k) :
    ∃ e, medoidDistancesFile showDistance m yLen k medoids = .error e := by
  have hmem : ∀ (is : List Nat) (i : Nat), i ∈ is → (∃ e, medoidDistanceRow m yLen k medoids i = .error e) →
      ∃ e, is.mapM (medoidDistanceRow m yLen k medoids) = .error e := by
    intro is i
    induction is with
    | nil => intro h; simp at h
    | cons a is ih =>
      intro h he
      rw [List.mapM_cons]
      cases ha : medoidDistanceRow m yLen k medoids a with
      | error e => exact ⟨e, rfl⟩
      | ok v =>
        rcases List.mem_cons.1 h with rfl | h
        · obtain ⟨e, he⟩ := he
          rw [he] at ha; cases ha
        · obtain ⟨e, he'⟩ := ih h he
          exact ⟨e, by rw [he']; rfl⟩
  suffices h : ∃ i ∈ List.range k, ∃ e, medoidDistanceRow m yLen k medoids i = .error e by
    obtain ⟨i, h1, h2⟩ := h
    obtain ⟨e, he⟩ := hmem _ i h1 h2
    exact ⟨e, by rw [medoidDistancesFile, he]⟩
  rcases Nat.lt_or_ge medoids.length k with hlt | hge
  · refine ⟨medoids.length, List.mem_range.2 hlt, .indexError, ?_⟩
    rw [medoidDistanceRow, List.getElem?_eq_none (le_refl _)]
  · have h0 : 0 < medoids.length := by omega
    refine ⟨0, List.mem_range.2 (by omega), ?_⟩
    rw [medoidDistanceRow, List.getElem?_eq_getElem h0]
    cases hds : distancesToPointWithMatrix m yLen medoids[0] (medoids.map fun p => p.x * yLen + p.y) with
    | error e => exact ⟨e, by simp only [hds]⟩
    | ok ds =>
      have hl : ds.length = medoids.length := by
        have := (mapM_eq_ok.1 hds).length_eq
        simpa using this.symm
      refine ⟨.valueError, ?_⟩
      simp only [hds, assignRow]
      rw [if_neg (by omega)]
      match ds, hl with
      | [], _ => rfl
      | [_], hl => simp at hl; omega
      | _ :: _ :: _, _ => rfl

/-- **C108** for every run of k-medoids, also if some clusters are empty: the file is written. -/
theorem C108_kmedoids {S : Type} {dm : Measure S K} {X : List S} {d : Nat → Nat → K}
    (hd : Realises dm X d) {xLen yLen k : Nat} (hXl : X.length = xLen * yLen) (hX : X ≠ []) (h1 : 1 ≤ k)
    {initial : Option (List Nat)} {outcome : List Nat} {mode : KmMode} {maxIter : Nat} {tol : K} {verbose : Bool}
    (hk : (initialIndices initial outcome).length = k) {pt : Partition} {ms : List Point}
    (h : kmedoidsPartition X xLen yLen k dm initial outcome mode maxIter tol verbose = .ok (pt, ms))
    (m : Grid (Option K)) (hm : ∀ a < X.length, ∀ i < X.length, m.get ⟨a, i⟩ = .ok (some (d a i)))
    (showDistance : Option K → Str) :
    ∃ file, medoidDistancesFile showDistance m yLen k ms = .ok file ∧ file.length = k + 1 ∧
      ∀ (i : Nat) (p : Point), ms[i]? = some p → ∃ line, file[i + 1]? = some line ∧
        csvReadRow line = .ok (natStr i :: ms.map fun q =>
          showDistance (some (d (p.x * yLen + p.y) (q.x * yLen + q.y)))) := by
  obtain ⟨-, -, -, -, -, hlen, -⟩ := kmedoidsPartition_spec hd hXl hX hk h
  have hmed : ∀ p ∈ ms, p.x * yLen + p.y < X.length := by
    unfold kmedoidsPartition at h
    split at h
    · cases h
    rename_i r hr
    split at h
    · cases h
    cases h
    intro p hp
    obtain ⟨n, hn, rfl⟩ := List.mem_map.1 hp
    simp only [Nat.div_add_mod']
    obtain ⟨st, cc, h1, _, _, _, rfl⟩ := runKmedoids_inv hd hX hr
    obtain ⟨md, hmd, rfl⟩ := List.mem_map.1 hn
    exact (List.getElem?_eq_some_iff.1 (h1.medoids md hmd)).1
  obtain ⟨file, f1, f2, -, f3⟩ := C108_file showDistance m yLen k h1 ms hlen
    (fun p q => some (d (p.x * yLen + p.y) (q.x * yLen + q.y)))
    fun p hp q hq => hm _ (hmed p hp) _ (hmed q hq)
  exact ⟨file, f1, f2, f3⟩

example : medoidDistancesFile (fun v => if v = some 4 then ['4', '.', '0'] else ['0', '.', '0'])
    (⟨3, 3, [some 0, some 1, some 5, some 1, some 0, some 4, some 5, some 4, some 0]⟩ : Grid (Option ℚ)) 3 2
    [⟨0, 1⟩, ⟨0, 2⟩] = .ok ["k 0 1".toList, "0 0.0 4.0".toList, "1 4.0 0.0".toList] := by decide +kernel

end Spta
