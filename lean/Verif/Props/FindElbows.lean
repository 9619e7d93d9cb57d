import Verif.Model.FindElbows
import Verif.Spec.FindElbows
import Verif.Props.Catalogue
import Verif.Props.Cost

/-!
# C124: the elbows that are printed
-/

namespace Spta

section

variable {K : Type} [Field K] [LinearOrder K] [IsStrictOrderedRing K] {P : Type}

theorem allPartitions_congr {f g : ClusterMeta → Except PyErr P} (suite : List ClusterMeta)
    (h : ∀ c ∈ suite, f c = g c) (d : List (ClusterMeta × P)) : allPartitions f suite d = allPartitions g suite d := by
  induction suite generalizing d with
  | nil => rfl
  | cons c cs ih =>
    rw [allPartitions, allPartitions, h c (by simp)]
    cases g c with
    | error e => rfl
    | ok p => exact ih (fun c hc => h c (by simp [hc])) _

theorem mem_metaDictSet {key : ClusterMeta} {v : P} {d : List (ClusterMeta × P)} {e : ClusterMeta × P}
    (h : e ∈ metaDictSet key v d) : e.2 = v ∨ e ∈ d := by
  induction d with
  | nil => simp [metaDictSet] at h; left; rw [h]
  | cons x d ih =>
    obtain ⟨a, b⟩ := x
    rw [metaDictSet] at h
    split at h
    · rcases List.mem_cons.1 h with rfl | h
      · left; rfl
      · right; simp [h]
    · rcases List.mem_cons.1 h with rfl | h
      · right; simp
      · rcases ih h with h | h
        · left; exact h
        · right; simp [h]

theorem allPartitions_values {f : ClusterMeta → Except PyErr P} (suite : List ClusterMeta)
    (d r : List (ClusterMeta × P)) (h : allPartitions f suite d = .ok r) (e : ClusterMeta × P) (he : e ∈ r) :
    e ∈ d ∨ ∃ c ∈ suite, f c = .ok e.2 := by
  induction suite generalizing d with
  | nil => cases h; left; exact he
  | cons c cs ih =>
    rw [allPartitions] at h
    cases hc : f c with
    | error x => rw [hc] at h; cases h
    | ok p =>
      rw [hc] at h
      rcases ih _ h with h1 | ⟨c', h1, h2⟩
      · rcases mem_metaDictSet h1 with h2 | h2
        · right; exact ⟨c, by simp, by rw [hc, h2]⟩
        · left; exact h2
      · right; exact ⟨c', by simp [h1], h2⟩

theorem allCosts_congr {f g : P → Except PyErr (Option K)} (l : List (ClusterMeta × P))
    (h : ∀ e ∈ l, f e.2 = g e.2) (d : List (ClusterMeta × Option K)) : allCosts f l d = allCosts g l d := by
  induction l generalizing d with
  | nil => rfl
  | cons x xs ih =>
    obtain ⟨c, p⟩ := x
    have h1 := h (c, p) (by simp)
    rw [allCosts, allCosts, h1]
    cases g p with
    | error e => rfl
    | ok v => exact ih (fun e he => h e (by simp [he])) _

theorem calculateElbows_congr {f f' : ClusterMeta → Except PyErr P} {g g' : P → Except PyErr (Option K)}
    {suite : List ClusterMeta} (h1 : ∀ c ∈ suite, f c = f' c)
    (h2 : ∀ c ∈ suite, ∀ p, f' c = .ok p → g p = g' p) :
    calculateElbows f g suite = calculateElbows f' g' suite := by
  unfold calculateElbows
  rw [allPartitions_congr suite h1]
  cases hp : allPartitions f' suite [] with
  | error e => rfl
  | ok parts =>
    simp only
    rw [allCosts_congr parts (fun e he => ?_)]
    rcases allPartitions_values suite [] parts hp e he with h | ⟨c, hc, h⟩
    · simp at h
    · exact h2 c hc _ h

end

section

variable {K : Type} [Field K] [LinearOrder K] [IsStrictOrderedRing K]

/-- The cost of a partition whose points are in the clusters of their nearest medoids is the sum of the squared
distances from these. -/
theorem intraClusterCost_nearest {α : Type} {g : Grid α} (hg : g.WF) {m : Grid (Option K)} {d : Nat → Nat → K}
    {c : ClusterMeta} {pt : Partition} {ms : List Point} (h : Analysable g m d c pt ms)
    (hnear : ∀ (i l : Nat) (p q : Point), pt.labels.data[i]? = some l → ms[l]? = some p → q ∈ ms →
        d (p.x * g.yLen + p.y) i ≤ d (q.x * g.yLen + q.y) i) :
    ∃ cost, intraClusterCost pt (some ms) g m = .ok (some cost) ∧
      SquaredCost d g.data.length (ms.map fun p => p.x * g.yLen + p.y) cost := by
  have hw : pt.labels.data.length = g.data.length := by
    have a1 : pt.labels.data.length = pt.labels.xLen * pt.labels.yLen := h.valid.wf
    have a2 : g.data.length = g.xLen * g.yLen := hg
    rw [a1, a2, h.sx, h.sy]
  have hown : ∀ i, ∃ v : K, i < g.data.length → ∃ l p, pt.labels.data[i]? = some l ∧ ms[l]? = some p ∧
      v = d (p.x * g.yLen + p.y) i := by
    intro i
    by_cases hi : i < g.data.length
    · rw [← hw] at hi
      have hl := h.valid.lt _ (List.getElem_mem hi)
      rw [← h.medoids] at hl
      exact ⟨_, fun _ => ⟨_, _, List.getElem?_eq_getElem hi, List.getElem?_eq_getElem hl, rfl⟩⟩
    · exact ⟨0, fun h => absurd h hi⟩
  choose own hown using hown
  refine ⟨_, (C76_intra_cluster_cost pt h.valid g hg h.sx h.sy ms h.medoids.ge m).1
    (fun p => own (p.x * g.yLen + p.y)) ?_, own, ?_, ?_⟩
  · intro p l md hx hy hl hmd
    have hp := ((Grid.get_eq_ok_iff _ _ _).1 hl).2.2
    rw [h.sy] at hp
    have hi : p.x * g.yLen + p.y < g.data.length := by
      have a2 : g.data.length = g.xLen * g.yLen := hg
      rw [a2]; exact idx_lt hx hy
    obtain ⟨l', p', e1, e2, e3⟩ := hown _ hi
    rw [hp] at e1
    cases e1
    rw [hmd] at e2
    cases e2
    rw [e3]
    exact h.distances _ _ _ hp hmd
  · intro i hi
    obtain ⟨l, p, e1, e2, e3⟩ := hown i hi
    refine ⟨⟨_, List.mem_map_of_mem (List.mem_of_getElem? e2), e3⟩, fun b hb => ?_⟩
    obtain ⟨q, hq, rfl⟩ := List.mem_map.1 hb
    rw [e3]
    exact hnear i l p q e1 e2 hq
  · have a2 : g.data.length = g.xLen * g.yLen := hg
    rw [rowMajor_eq_map, List.map_map, a2]
    simp only [Function.comp_def, Nat.div_add_mod']

/-- What the program prints, with the costs of the clusterings of all seeds. -/
theorem findElbowsProgram_all {S : Type} (g : Grid S) (hg : g.WF) (dm : Measure S K) (d : Nat → Nat → K)
    (hd : Realises dm g.data d) (hpos : ∀ a < g.data.length, ∀ b < g.data.length, a ≠ b → d a a < d b a)
    (m : Grid (Option K)) (hm : ∀ a < g.data.length, ∀ i < g.data.length, m.get ⟨a, i⟩ = .ok (some (d a i)))
    (p : SuiteParams) (ks : List Int) (outcome : Int → Int → List Nat) (tol : K) (verbose : Bool)
    (hs : SuiteOK p ks outcome g.data.length) (h3 : 3 ≤ ks.length) {last : Int}
    (hlast : p.seeds.seeds.getLast? = some last) :
    ∃ (suite : List ClusterMeta) (part : Int → Int → Partition) (medoids : Int → Int → List Point)
      (cost : Int → Int → K) (i : Nat) (k : Int),
      createSuite sKmedoids p = .ok suite ∧
      (∀ k ∈ ks, ∀ s ∈ p.seeds.seeds,
        kmedoidsPartitionOf g dm outcome tol verbose (.kmedoids ⟨k, s, p.mode, p.initial, p.maxIter⟩) =
          .ok (part k s, medoids k s) ∧ ((medoids k s).length : Int) = k ∧
        SquaredCost d g.data.length ((medoids k s).map fun p => p.x * g.yLen + p.y) (cost k s)) ∧
      (ks.insertionSort (· ≤ ·))[i]? = some k ∧
      IsElbow ((ks.insertionSort (· ≤ ·)).map fun k => (k, some (cost k last))) i ∧
      findElbowsProgram (kmedoidsPartitionOf g dm outcome tol verbose) g m suite =
        .ok (p.seeds.seeds.map fun s => (s, ks.insertionSort (· ≤ ·),
          (ClusterMeta.kmedoids ⟨k, s, p.mode, p.initial, p.maxIter⟩).repr)) := by
  have h0 : sKmedoids ≠ sRegular := by decide
  set km := kmMeta p.mode p.initial p.maxIter with hkm
  have hf : ∀ k s, factoryInstance sKmedoids k s p = .ok (km k s) := by
    intro k s; simp [factoryInstance, h0, hkm, kmMeta]
  have hsuite : createSuite sKmedoids p = .ok (ks.flatMap fun k => p.seeds.seeds.map (km k)) := by
    rw [createSuite, hs.given]
    have := suiteOuter_eq hf ks []
    rwa [List.nil_append] at this
  have hrun : ∀ k s, ∃ (q : Partition × List Point) (cost : K), k ∈ ks → s ∈ p.seeds.seeds →
      kmedoidsPartitionOf g dm outcome tol verbose (km k s) = .ok q ∧ (q.2.length : Int) = k ∧
      intraClusterCost q.1 (some q.2) g m = .ok (some cost) ∧
      SquaredCost d g.data.length (q.2.map fun p => p.x * g.yLen + p.y) cost := by
    intro k s
    by_cases hk : k ∈ ks ∧ s ∈ p.seeds.seeds
    · obtain ⟨pt, ms, a1, a2, a3, -⟩ := hs.partition hg hd hpos hm tol verbose hk.1 hk.2
      obtain ⟨cost, b1, b2⟩ := intraClusterCost_nearest hg a2 a3
      refine ⟨(pt, ms), cost, fun _ _ => ⟨a1, ?_, b1, b2⟩⟩
      simp only [a2.medoids, ← a2.clusters, ClusterMeta.k]
    · exact ⟨(⟨⟨0, 0, []⟩, 0, 0⟩, []), 0, fun h1 h2 => absurd ⟨h1, h2⟩ hk⟩
  choose q cost hall using hrun
  have hmem : last ∈ p.seeds.seeds := List.mem_of_getLast? hlast
  set p' : ClusterMeta → Partition × List Point := fun c => match c with
    | .kmedoids c => q c.k c.seed
    | .regular k => q k 0 with hp'
  set c' : Partition × List Point → Option K := fun x =>
    match intraClusterCost x.1 (some x.2) g m with
    | .ok v => v
    | .error _ => none with hc'
  obtain ⟨i, k, e1, e2, e3⟩ := C53_suite p' c' (mode := p.mode) (initial := p.initial) (maxIter := p.maxIter)
    hs.ks_nodup h3 hs.seeds_nodup hlast
  have hcost : (ks.insertionSort (· ≤ ·)).map (fun k =>
      (k, c' (p' (.kmedoids ⟨k, last, p.mode, p.initial, p.maxIter⟩)))) =
      (ks.insertionSort (· ≤ ·)).map fun k => (k, some (cost k last)) := by
    refine List.map_congr_left fun k hk => ?_
    have hk' : k ∈ ks := (List.perm_insertionSort _ _).subset hk
    simp only [hp', hc', (hall k last hk' hmem).2.2.1]
  rw [hcost] at e2
  have hel : calculateElbows (kmedoidsPartitionOf g dm outcome tol verbose)
      (fun q => intraClusterCost q.1 (some q.2) g m) (ks.flatMap fun k => p.seeds.seeds.map (km k)) =
      .ok (p.seeds.seeds.map fun s => (s, .kmedoids ⟨k, s, p.mode, p.initial, p.maxIter⟩)) := by
    rw [← e3]
    refine calculateElbows_congr ?_ ?_
    · intro c hc
      obtain ⟨k, hk, hc⟩ := List.mem_flatMap.1 hc
      obtain ⟨s, hs', rfl⟩ := List.mem_map.1 hc
      exact (hall k s hk hs').1
    · intro c hc x hx
      obtain ⟨k, hk, hc⟩ := List.mem_flatMap.1 hc
      obtain ⟨s, hs', rfl⟩ := List.mem_map.1 hc
      cases hx
      simp only [hc']
      have := (hall k s hk hs').2.2.1
      simp only [hp', hkm, kmMeta, this]
  have hne : ks ≠ [] := by rintro rfl; simp at h3
  refine ⟨_, fun k s => (q k s).1, fun k s => (q k s).2, cost, i, k, hsuite, ?_, e1,
    e2.isElbow (by simpa using h3), ?_⟩
  · intro k hk s hs'
    obtain ⟨a1, a2, -, a3⟩ := hall k s hk hs'
    exact ⟨a1, a2, a3⟩
  · rw [findElbowsProgram, hel]
    simp only
    rw [hkm, organizeSuite_product hne hs.seeds_nodup]
    simp only
    have hlook : ∀ (seeds : List Int) (f : Int → List ClusterMeta) (s : Int), s ∈ seeds →
        (seeds.map fun s => (s, f s)).lookup s = some (f s) := by
      intro seeds f s hs
      induction seeds with
      | nil => simp at hs
      | cons t ts ih =>
        by_cases hst : s = t
        · subst hst; simp
        · have : (s == t) = false := by simpa using hst
          rw [List.map_cons, List.lookup_cons, this]
          exact ih (by simpa [hst] using hs)
    have := mapM_ok (fun s => elbowReport (p.seeds.seeds.map fun s =>
        (s, (ks.insertionSort (· ≤ ·)).map fun k => kmMeta p.mode p.initial p.maxIter k s))
          (s, ClusterMeta.kmedoids ⟨k, s, p.mode, p.initial, p.maxIter⟩))
      (fun s => (s, ks.insertionSort (· ≤ ·), (ClusterMeta.kmedoids ⟨k, s, p.mode, p.initial, p.maxIter⟩).repr))
      p.seeds.seeds (by
        intro s hs
        simp only [elbowReport]
        rw [hlook _ (fun s => (ks.insertionSort (· ≤ ·)).map fun k => kmMeta p.mode p.initial p.maxIter k s) s hs]
        simp only [List.map_map, Function.comp_def, kmMeta, ClusterMeta.k, List.map_id'])
    rw [List.mapM_map]
    exact this

/-- **C124** (partial: the claim is that the elbow printed for a seed is the elbow of the costs of that seed, see
`C124_refuted`). The program prints for every seed the values of k in increasing order and the clustering of the
seed with the k of the elbow of the costs of the last seed. The cost of a clustering is the sum of the squared
distances of the points from their nearest medoids. -/
theorem C124_program_partial {S : Type} (g : Grid S) (hg : g.WF) (dm : Measure S K) (d : Nat → Nat → K)
    (hd : Realises dm g.data d) (hpos : ∀ a < g.data.length, ∀ b < g.data.length, a ≠ b → d a a < d b a)
    (m : Grid (Option K)) (hm : ∀ a < g.data.length, ∀ i < g.data.length, m.get ⟨a, i⟩ = .ok (some (d a i)))
    (p : SuiteParams) (ks : List Int) (outcome : Int → Int → List Nat) (tol : K) (verbose : Bool)
    (hs : SuiteOK p ks outcome g.data.length) (h3 : 3 ≤ ks.length) {last : Int}
    (hlast : p.seeds.seeds.getLast? = some last) :
    ∃ (suite : List ClusterMeta) (part : Int → Partition) (medoids : Int → List Point) (cost : Int → K) (i : Nat)
      (k : Int),
      createSuite sKmedoids p = .ok suite ∧
      (∀ k ∈ ks, kmedoidsPartitionOf g dm outcome tol verbose (.kmedoids ⟨k, last, p.mode, p.initial, p.maxIter⟩) =
          .ok (part k, medoids k) ∧ ((medoids k).length : Int) = k ∧
        SquaredCost d g.data.length ((medoids k).map fun p => p.x * g.yLen + p.y) (cost k)) ∧
      (ks.insertionSort (· ≤ ·))[i]? = some k ∧
      IsElbow ((ks.insertionSort (· ≤ ·)).map fun k => (k, some (cost k))) i ∧
      findElbowsProgram (kmedoidsPartitionOf g dm outcome tol verbose) g m suite =
        .ok (p.seeds.seeds.map fun s => (s, ks.insertionSort (· ≤ ·),
          (ClusterMeta.kmedoids ⟨k, s, p.mode, p.initial, p.maxIter⟩).repr)) := by
  obtain ⟨suite, part, medoids, cost, i, k, h1, h2, h4, h5, h6⟩ :=
    findElbowsProgram_all g hg dm d hd hpos m hm p ks outcome tol verbose hs h3 hlast
  exact ⟨suite, fun k => part k last, fun k => medoids k last, fun k => cost k last, i, k, h1,
    fun k hk => h2 k hk last (List.mem_of_getLast? hlast), h4, h5, h6⟩

/-- **C124** exactly (partial): the clustering that is printed for a seed is at the elbow of the costs of that seed if
and only if these have their elbow where the costs of the last seed have theirs. -/
theorem C124_exactly_partial {S : Type} (g : Grid S) (hg : g.WF) (dm : Measure S K) (d : Nat → Nat → K)
    (hd : Realises dm g.data d) (hpos : ∀ a < g.data.length, ∀ b < g.data.length, a ≠ b → d a a < d b a)
    (m : Grid (Option K)) (hm : ∀ a < g.data.length, ∀ i < g.data.length, m.get ⟨a, i⟩ = .ok (some (d a i)))
    (p : SuiteParams) (ks : List Int) (outcome : Int → Int → List Nat) (tol : K) (verbose : Bool)
    (hs : SuiteOK p ks outcome g.data.length) (h3 : 3 ≤ ks.length) {last : Int}
    (hlast : p.seeds.seeds.getLast? = some last) :
    ∃ (suite : List ClusterMeta) (part : Int → Int → Partition) (medoids : Int → Int → List Point)
      (cost : Int → Int → K) (k : Int),
      createSuite sKmedoids p = .ok suite ∧
      (∀ k ∈ ks, ∀ s ∈ p.seeds.seeds,
        kmedoidsPartitionOf g dm outcome tol verbose (.kmedoids ⟨k, s, p.mode, p.initial, p.maxIter⟩) =
          .ok (part k s, medoids k s) ∧ ((medoids k s).length : Int) = k ∧
        SquaredCost d g.data.length ((medoids k s).map fun p => p.x * g.yLen + p.y) (cost k s)) ∧
      findElbowsProgram (kmedoidsPartitionOf g dm outcome tol verbose) g m suite =
        .ok (p.seeds.seeds.map fun s => (s, ks.insertionSort (· ≤ ·),
          (ClusterMeta.kmedoids ⟨k, s, p.mode, p.initial, p.maxIter⟩).repr)) ∧
      ∀ s, (∃ j : Nat, (ks.insertionSort (· ≤ ·))[j]? = some k ∧
          IsElbow ((ks.insertionSort (· ≤ ·)).map fun k => (k, some (cost k s))) j) ↔
        ∃ j, IsElbow ((ks.insertionSort (· ≤ ·)).map fun k => (k, some (cost k s))) j ∧
          IsElbow ((ks.insertionSort (· ≤ ·)).map fun k => (k, some (cost k last))) j := by
  obtain ⟨suite, part, medoids, cost, i, k, h1, h2, h4, h5, h6⟩ :=
    findElbowsProgram_all g hg dm d hd hpos m hm p ks outcome tol verbose hs h3 hlast
  refine ⟨suite, part, medoids, cost, k, h1, h2, h6, fun s => ⟨?_, ?_⟩⟩
  · rintro ⟨j, hj, he⟩
    have hnd : (ks.insertionSort (· ≤ ·)).Nodup := (List.perm_insertionSort _ _).nodup_iff.2 hs.ks_nodup
    have hji : j = i := by
      obtain ⟨b1, c1⟩ := List.getElem?_eq_some_iff.1 hj
      obtain ⟨b2, c2⟩ := List.getElem?_eq_some_iff.1 h4
      exact (hnd.getElem_inj_iff).1 (c1.trans c2.symm)
    exact ⟨j, he, by rw [hji]; exact h5⟩
  · rintro ⟨j, hj, hj'⟩
    exact ⟨i, h4, by rw [IsElbow.unique h5 hj']; exact hj⟩

/-- **C124** for suites with one seed: the elbow printed is the elbow of the costs of that seed. -/
theorem C124_single_seed_partial {S : Type} (g : Grid S) (hg : g.WF) (dm : Measure S K) (d : Nat → Nat → K)
    (hd : Realises dm g.data d) (hpos : ∀ a < g.data.length, ∀ b < g.data.length, a ≠ b → d a a < d b a)
    (m : Grid (Option K)) (hm : ∀ a < g.data.length, ∀ i < g.data.length, m.get ⟨a, i⟩ = .ok (some (d a i)))
    (p : SuiteParams) (ks : List Int) (outcome : Int → Int → List Nat) (tol : K) (verbose : Bool)
    (hs : SuiteOK p ks outcome g.data.length) (h3 : 3 ≤ ks.length) {s : Int} (hseed : p.seeds.seeds = [s]) :
    ∃ (suite : List ClusterMeta) (part : Int → Partition) (medoids : Int → List Point) (cost : Int → K) (i : Nat)
      (k : Int),
      createSuite sKmedoids p = .ok suite ∧
      (∀ k ∈ ks, kmedoidsPartitionOf g dm outcome tol verbose (.kmedoids ⟨k, s, p.mode, p.initial, p.maxIter⟩) =
          .ok (part k, medoids k) ∧ ((medoids k).length : Int) = k ∧
        SquaredCost d g.data.length ((medoids k).map fun p => p.x * g.yLen + p.y) (cost k)) ∧
      (ks.insertionSort (· ≤ ·))[i]? = some k ∧
      IsElbow ((ks.insertionSort (· ≤ ·)).map fun k => (k, some (cost k))) i ∧
      findElbowsProgram (kmedoidsPartitionOf g dm outcome tol verbose) g m suite =
        .ok [(s, ks.insertionSort (· ≤ ·), (ClusterMeta.kmedoids ⟨k, s, p.mode, p.initial, p.maxIter⟩).repr)] := by
  have := C124_program_partial g hg dm d hd hpos m hm p ks outcome tol verbose hs h3 (last := s)
    (by rw [hseed]; rfl)
  rw [hseed] at this
  exact this

/-- With fewer than three numbers of clusters the program fails: nothing is printed. -/
theorem C124_too_few (partitionOf : ClusterMeta → Except PyErr (Partition × List Point)) {α : Type} (g : Grid α)
    (m : Grid (Option K)) {suite : List ClusterMeta} {seed : Int} {ordered : List ClusterMeta}
    {rest : List (Int × List ClusterMeta)} (ho : organizeSuite suite = .ok ((seed, ordered) :: rest))
    (hlen : ordered.length < 3) :
    ∃ e, findElbowsProgram partitionOf g m suite = .error e := by
  rw [findElbowsProgram, calculateElbows]
  cases allPartitions partitionOf suite [] with
  | error e => exact ⟨e, rfl⟩
  | ok parts =>
    simp only
    cases allCosts (fun q => intraClusterCost q.1 (some q.2) g m) parts [] with
    | error e => exact ⟨e, rfl⟩
    | ok costs =>
      simp only [elbowsBySeed, ho, elbowsLoop]
      cases ordered.mapM fun m => metaDictGet m costs with
      | error e => exact ⟨e, rfl⟩
      | ok ys =>
        simp only [C53_rejected costs ordered (.inr hlen)]
        exact ⟨_, rfl⟩

end

/-- The suite quick, which the parser accepts, has only two numbers of clusters: the program always fails. -/
theorem C124_quick {K : Type} [Field K] [LinearOrder K] [IsStrictOrderedRing K]
    (partitionOf : ClusterMeta → Except PyErr (Partition × List Point)) {α : Type} (g : Grid α)
    (m : Grid (Option K)) : ∃ suite e, getSuite sKmedoids "quick".toList = .ok suite ∧
      findElbowsProgram partitionOf g m suite = .error e := by
  have h1 : getSuite sKmedoids "quick".toList = .ok
      [.kmedoids { k := 2, seed := 0 }, .kmedoids { k := 2, seed := 1 }, .kmedoids { k := 3, seed := 0 },
        .kmedoids { k := 3, seed := 1 }] := by decide +kernel
  obtain ⟨e, he⟩ := C124_too_few partitionOf g m (seed := 0)
    (ordered := [.kmedoids { k := 2, seed := 0 }, .kmedoids { k := 3, seed := 0 }])
    (rest := [(1, [.kmedoids { k := 2, seed := 1 }, .kmedoids { k := 3, seed := 1 }])])
    (suite := [.kmedoids { k := 2, seed := 0 }, .kmedoids { k := 2, seed := 1 }, .kmedoids { k := 3, seed := 0 },
        .kmedoids { k := 3, seed := 1 }]) (by decide +kernel) (by decide)
  exact ⟨_, e, h1, he⟩

theorem mem_intRange {start stop : Nat} {k : Int} :
    k ∈ intRange start stop 1 ↔ (start : Int) ≤ k ∧ k < stop := by
  simp only [intRange, List.mem_map, List.mem_range, Nat.sub_self, Nat.add_zero, Nat.div_one, Nat.mul_one]
  constructor
  · rintro ⟨i, hi, rfl⟩; omega
  · rintro ⟨h1, h2⟩
    exact ⟨(k - start).toNat, by omega, by omega⟩

theorem intRange_nodup (start stop : Nat) : (intRange start stop 1).Nodup := by
  refine List.Nodup.map ?_ List.nodup_range
  intro a b h
  simp only at h
  omega

theorem findElbowsArgs_suite {id : Str} {lo hi n : Nat}
    (h : dictAt kmedoidsSuites id = .ok { ks := some (intRange lo hi 1), seeds := .many (intRange 0 n 1) })
    {e : Str × RegionMeta} (he : e ∈ predefinedRegions) :
    ∃ suite, findElbowsArgs e.1 id = .ok (e.2, suite) ∧ suite.Nodup ∧
      ∀ c, c ∈ suite ↔ ∃ k s : Int, (lo : Int) ≤ k ∧ k < hi ∧ 0 ≤ s ∧ s < n ∧ c = .kmedoids { k := k, seed := s } := by
  have hd : ∀ e ∈ predefinedRegions, dictAt predefinedRegions e.1 = .ok e.2 := by decide +kernel
  obtain ⟨suite, h1, h2, h3⟩ := C52_pairs
    { ks := some (intRange lo hi 1), seeds := .many (intRange 0 n 1) } (ks := intRange lo hi 1) rfl
  refine ⟨suite, ?_, h3 (intRange_nodup _ _) (intRange_nodup _ _), fun c => ?_⟩
  · rw [findElbowsArgs, hd e he, getSuite, if_pos rfl, h]
    simp only [h1]
  · rw [h2]
    simp only [SeedParam.seeds, mem_intRange]
    constructor
    · rintro ⟨k, hk, s, hs, rfl⟩
      exact ⟨k, s, hk.1, hk.2, by simpa using hs.1, hs.2, rfl⟩
    · rintro ⟨k, s, h1, h2, h3, h4, rfl⟩
      exact ⟨k, ⟨h1, h2⟩, s, ⟨by simpa using h3, h4⟩, rfl⟩

/-- The suites of the program: quick has k = 2, 3 with seeds 0, 1; large has k = 12, 13, 14 with seeds 0, 1; all has
k = 2, ..., 150 with seeds 0, 1, 2. All are k-medoids clusterings with the default parameters. -/
theorem C124_args (e : Str × RegionMeta) (he : e ∈ predefinedRegions) :
    ∀ x ∈ [("quick".toList, 2, 4, 2), ("large".toList, 12, 15, 2), ("all".toList, 2, 151, 3)], ∃ suite,
      findElbowsArgs e.1 x.1 = .ok (e.2, suite) ∧ suite.Nodup ∧
      ∀ c, c ∈ suite ↔ ∃ k s : Int, ((x.2.1 : Nat) : Int) ≤ k ∧ k < (x.2.2.1 : Nat) ∧ 0 ≤ s ∧ s < (x.2.2.2 : Nat) ∧
        c = .kmedoids { k := k, seed := s } := by
  intro x hx
  simp only [List.mem_cons, List.not_mem_nil, or_false] at hx
  obtain rfl | rfl | rfl := hx
  · exact findElbowsArgs_suite rfl he
  · exact findElbowsArgs_suite rfl he
  · exact findElbowsArgs_suite rfl he

/-- Nine series at these positions, in three groups. -/
def elbowPositions : List ℚ := [0, 1, 2, 1000, 1001, 1002, 1100, 1101, 1102]

/-- Their distances. -/
def elbowMatrix : List ℚ := elbowPositions.flatMap fun a => elbowPositions.map fun b => |a - b|

/-- Nine points. -/
def elbowGrid : Grid Unit := ⟨1, 9, List.replicate 9 ()⟩

/-- Initial medoids: the ones of seed 1 for k = 3 are badly chosen. -/
def elbowOutcome (k s : Int) : List Nat :=
  if k = 2 then [1, 4]
  else if k = 3 then (if s = 0 then [1, 4, 7] else [0, 2, 4])
  else if k = 4 then [0, 1, 4, 7] else [0, 1, 2, 4, 7]

/-- **C124 refuted**: with seed 0 only, the elbow is printed at k = 3; with the seeds 0 and 1 the same clusterings
are made for seed 0, but its elbow is printed at k = 4, where the costs of seed 1 have theirs. -/
theorem C124_refuted :
    (createSuite sKmedoids { ks := some [2, 3, 4, 5], seeds := .many [0] }).bind
      (findElbowsProgram (kmedoidsPartitionOf elbowGrid (.matrix ⟨9, 9, elbowMatrix⟩) elbowOutcome (1 / 1000) true)
        elbowGrid ⟨9, 9, elbowMatrix.map some⟩) =
      .ok [(0, [2, 3, 4, 5], "kmedoids_k3_seed0_lite".toList)] ∧
    (createSuite sKmedoids { ks := some [2, 3, 4, 5], seeds := .many [0, 1] }).bind
      (findElbowsProgram (kmedoidsPartitionOf elbowGrid (.matrix ⟨9, 9, elbowMatrix⟩) elbowOutcome (1 / 1000) true)
        elbowGrid ⟨9, 9, elbowMatrix.map some⟩) =
      .ok [(0, [2, 3, 4, 5], "kmedoids_k4_seed0_lite".toList), (1, [2, 3, 4, 5], "kmedoids_k4_seed1_lite".toList)] := by
  constructor <;> decide +kernel

/-- The suites of `C124_refuted` meet the hypotheses of `C124_program_partial`. -/
example : SuiteOK { ks := some [2, 3, 4, 5], seeds := .many [0, 1] } [2, 3, 4, 5] elbowOutcome
    elbowGrid.data.length :=
  ⟨rfl, by decide, by decide, .inl rfl, by decide, by simp, by decide +kernel⟩

end Spta
