import Mathlib.Data.List.TakeWhile
import Verif.Spec.Catalogue
import Verif.Props.ClusterRun
import Verif.Props.PartitionAnalysis
import Verif.Props.Suite

/-!
# C122: analysis of suites of regular clusterings; C123: the arguments of the programs and the catalogues
-/

namespace Spta

/-! ### C122 -/

section

variable {K : Type} [Field K] [LinearOrder K] [IsStrictOrderedRing K] {α : Type}

theorem mapM_medoids (ms : List Point) : (ms.map some).mapM medoidOrAttribute = .ok ms := by
  induction ms with
  | nil => rfl
  | cons p ps ih => rw [List.map_cons, List.mapM_cons, ih]; rfl

/-- What a regular clustering of the region gives: rectangles and their medoids. -/
structure RegularResult (g : Grid α) (d : Nat → Nat → K) (k : Int) (pt : Partition) (ms : List Point) : Prop where
  rects : ∀ l, l < k.toNat → ∃ x1 x2 y1 y2, LabelIsRect pt.labels l x1 x2 y1 y2
  number : ms.length = k.toNat
  medoids : ∀ (i : Nat) (p : Point), ms[i]? = some p →
    IsMedoid (fun p q => d (p.x * g.yLen + p.y) (q.x * g.yLen + q.y)) (membersOf pt.labels i) p

theorem regularPartitionOf_ok (g : Grid α) (hg : g.WF) (d : Nat → Nat → K) (m : Grid (Option K))
    (hm : ∀ a < g.data.length, ∀ i < g.data.length, m.get ⟨a, i⟩ = .ok (some (d a i))) {k : Int} (hk : 1 ≤ k)
    (hr : RoomFor g.xLen g.yLen k.toNat) :
    ∃ pt ms, regularPartitionOf g m (.regular k) = .ok (pt, ms) ∧ Analysable g m d (.regular k) pt ms ∧
      RegularResult g d k pt ms := by
  obtain ⟨a, b, hab, hbig⟩ := hr
  have hlen : g.data.length = g.xLen * g.yLen := hg
  have hd : DistancesOf g.xLen g.yLen (fun p q => d (p.x * g.yLen + p.y) (q.x * g.yLen + q.y))
      (⟨m.xLen, m.yLen, m.data.map (Option.map ((↑) : K → WithTop K))⟩ : Grid (Option (WithTop K))) := by
    intro p q h1 h2 h3 h4
    rw [Grid.get_map, hm _ (by rw [hlen]; exact idx_lt h1 h2) _ (by rw [hlen]; exact idx_lt h3 h4)]
    rfl
  have hk' : 1 ≤ k.toNat := by omega
  obtain ⟨pt, ms, h1, h2, h3, h4, h5, h6, h7, h8, h9⟩ := C102_regular k.toNat hk' g hg hab hbig _ _ hd
  have hreg : regularPartitionOf g m (.regular k) = .ok (pt, ms) := by
    unfold regularPartitionOf
    simp only [h1, Option.getD_some, mapM_medoids]
  have hpt : Partition.withRegular k.toNat g.xLen g.yLen = .ok pt := by
    unfold regularPartitionImpl at h2
    cases hw : Partition.withRegular k.toNat g.xLen g.yLen with
    | error e => rw [hw] at h2; simp at h2
    | ok pt' => rw [hw] at h2; simp only [Bool.false_eq_true, if_false] at h2; cases h2; rfl
  obtain ⟨hv, -⟩ := C17_regular_partition_labels k.toNat _ _ hk' pt hpt
  refine ⟨pt, ms, hreg, ⟨hv, h4, h5, ?_, by rw [h6, h3], ?_⟩, ⟨h8, h6, h9⟩⟩
  · rw [h3]; simp only [ClusterMeta.k]; omega
  · intro j l p e1 e2
    have hp := (Grid.get_eq_ok_iff _ _ _).1 (h9 l p e2).label
    rw [h4, h5] at hp
    have hj := (List.getElem?_eq_some_iff.1 e1).1
    have hw : pt.labels.data.length = g.data.length := by
      have a1 : pt.labels.data.length = pt.labels.xLen * pt.labels.yLen := hv.wf
      rw [a1, hlen, h4, h5]
    exact hm _ (by rw [hlen]; exact idx_lt hp.1 hp.2.1) _ (by rw [← hw]; exact hj)

theorem regularPartitionOf_small (g : Grid α) (m : Grid (Option K)) {k : Int} (hk : 1 ≤ k)
    (hr : ¬ RoomFor g.xLen g.yLen k.toNat) : regularPartitionOf g m (.regular k) = .error .valueError := by
  obtain ⟨a, b, -, hab⟩ := C05_balanced_divisors k.toNat (by omega)
  have h := (C02_rejects_exactly_small g.xLen g.yLen k.toNat a b (by omega) hab).1.2 (by
    by_contra hc
    exact hr ⟨a, b, hab, by omega, by omega⟩)
  simp only [regularPartitionOf, regularPartitionImpl, Partition.withRegular, h]

theorem regular_repr_inj {k k' : Int} (h : (ClusterMeta.regular k).repr = (ClusterMeta.regular k').repr) : k = k' := by
  have h1 := C50_regular k
  rw [h, C50_regular k'] at h1
  cases h1
  rfl

/-- **C122** (suite): the analysis of a suite of regular clusterings stops with a ValueError at the first number
of clusters for which the region has no room, and succeeds if there is none. The file it leaves can be read, and
has exactly the clusterings before; the line of each has the coordinates of the medoids of its rectangles and
the total distance of the points from the medoids of their rectangles. -/
theorem C122_suite (showCost : Option K → Str) (r : Region) (g : Grid α) (hg : g.WF) (d : Nat → Nat → K)
    (m : Grid (Option K))
    (hm : ∀ a < g.data.length, ∀ i < g.data.length, m.get ⟨a, i⟩ = .ok (some (d a i)))
    {ks : List Int} (hpos : ∀ k ∈ ks, 1 ≤ k) (hn : ks.Nodup) :
    ∃ (done rest : List Int) (part : Int → Partition) (medoids : Int → List Point) (outcome : Except PyErr Unit)
      (file : List Str),
      ks = done ++ rest ∧ (∀ k ∈ done, RoomFor g.xLen g.yLen k.toNat) ∧
      (∀ k rest', rest = k :: rest' → ¬ RoomFor g.xLen g.yLen k.toNat) ∧
      createSuite sRegular { ks := some ks } = .ok (ks.map .regular) ∧
      analyzeSuite (regularPartitionOf g m) showCost r g m (ks.map .regular) = (outcome, file) ∧
      (rest = [] → outcome = .ok ()) ∧ (rest ≠ [] → outcome = .error .valueError) ∧
      retrieveSuiteResult (some file) =
        .ok (done.map fun k => ((ClusterMeta.regular k).repr, datasetPoints r (medoids k))) ∧
      ∀ (i : Nat) (k : Int), done[i]? = some k → ∃ line total, file[i + 1]? = some line ∧
        RegularResult g d k (part k) (medoids k) ∧
        LineOf showCost r (.regular k) total (medoids k) line ∧
        OwnDistances d (part k).labels.data ((medoids k).map fun p => p.x * g.yLen + p.y) total := by
  classical
  set fits : Int → Bool := fun k => decide (RoomFor g.xLen g.yLen k.toNat) with hfits
  have hsplit : ks = ks.takeWhile fits ++ ks.dropWhile fits := (List.takeWhile_append_dropWhile).symm
  have hdone : ∀ k ∈ ks.takeWhile fits, RoomFor g.xLen g.yLen k.toNat := by
    intro k hk
    simpa [hfits] using List.mem_takeWhile_imp hk
  have hmem : ∀ k ∈ ks.takeWhile fits, 1 ≤ k := fun k hk => hpos k (List.takeWhile_prefix _ |>.subset hk)
  have hrun : ∀ k, ∃ pt ms, k ∈ ks.takeWhile fits → regularPartitionOf g m (.regular k) = .ok (pt, ms) ∧
      Analysable g m d (.regular k) pt ms ∧ RegularResult g d k pt ms := by
    intro k
    by_cases hk : k ∈ ks.takeWhile fits
    · obtain ⟨pt, ms, h⟩ := regularPartitionOf_ok g hg d m hm (hmem k hk) (hdone k hk)
      exact ⟨pt, ms, fun _ => h⟩
    · exact ⟨⟨⟨0, 0, []⟩, 0, 0⟩, [], fun h => absurd h hk⟩
  choose part med hall using hrun
  set done := ks.takeWhile fits with hdef
  set rest := ks.dropWhile fits with hrdef
  have hnd : done.Nodup := by rw [hsplit] at hn; exact (List.nodup_append.1 hn).1
  have hsuite : createSuite sRegular { ks := some ks } = .ok (ks.map .regular) := by
    rw [C52_regular _ rfl]
    simp [SeedParam.seeds, ← List.map_eq_flatMap]
  have hreprs : ((done.map ClusterMeta.regular).map ClusterMeta.repr).Nodup := by
    rw [List.map_map]
    exact hnd.map_on fun a _ b _ h => regular_repr_inj h
  have hall' : ∀ c ∈ done.map ClusterMeta.regular, regularPartitionOf g m c = .ok (part c.k, med c.k) ∧
      Analysable g m d c (part c.k) (med c.k) := by
    intro c hc
    obtain ⟨k, hk, rfl⟩ := List.mem_map.1 hc
    exact ⟨(hall k hk).1, (hall k hk).2.1⟩
  obtain ⟨total, text, h1, h2⟩ := analyzeSuiteLoop_ok (regularPartitionOf g m) showCost r g hg m d
    (done.map ClusterMeta.regular) (fun c => part c.k) (fun c => med c.k) hall'
  set file : List Str := [analysisHeader] ++ (done.map ClusterMeta.regular).map fun c =>
    suiteLine c.repr (showCost (some (total c))) (text c) with hfile
  have hrest : ∀ k rest', rest = k :: rest' → ¬ RoomFor g.xLen g.yLen k.toNat := by
    intro k rest' h
    have := List.head_dropWhile_not (l := ks) fits (by rw [← hrdef, h]; simp)
    rw [show (ks.dropWhile fits).head _ = k from
      (List.head_eq_iff_head?_eq_some _).2 (by rw [← hrdef, h]; rfl)] at this
    simpa [hfits] using this
  have hread : retrieveSuiteResult (some file) =
      .ok (done.map fun k => ((ClusterMeta.regular k).repr, datasetPoints r (med k))) := by
    have := readSuiteRows_ok
      ((done.map ClusterMeta.regular).map fun c =>
        (c.repr, showCost (some (total c)), text c, datasetPoints r (med c.k)))
      (by intro w hw; obtain ⟨c, hc, rfl⟩ := List.mem_map.1 hw; exact (h1 c hc).2) []
      (by rw [List.map_map]; exact hreprs)
    simp only [List.nil_append, List.map_map] at this
    rw [hfile, List.singleton_append, retrieveSuiteResult, List.map_map]
    exact this
  have hloop : analyzeSuite (regularPartitionOf g m) showCost r g m (ks.map .regular) =
      analyzeSuiteLoop (regularPartitionOf g m) showCost r g m (rest.map .regular) file := by
    rw [hsplit, List.map_append]
    exact h2 _ _
  have hlines : ∀ (i : Nat) (k : Int), done[i]? = some k → ∃ line total, file[i + 1]? = some line ∧
      RegularResult g d k (part k) (med k) ∧ LineOf showCost r (.regular k) total (med k) line ∧
      OwnDistances d (part k).labels.data ((med k).map fun p => p.x * g.yLen + p.y) total := by
    intro i k hi
    have hk := List.mem_of_getElem? hi
    have := h1 _ (List.mem_map_of_mem (f := ClusterMeta.regular) hk)
    refine ⟨_, total (.regular k), ?_, (hall k hk).2.2, ⟨text (.regular k), csvReadRow_csvRow, this.2⟩, this.1⟩
    rw [hfile, List.singleton_append, List.getElem?_cons_succ, List.getElem?_map, List.getElem?_map, hi]
    rfl
  cases hr : rest with
  | nil =>
    refine ⟨done, rest, part, med, .ok (), file, hsplit, hdone, hrest, hsuite, ?_, fun _ => rfl, fun h => absurd hr h,
      hread, hlines⟩
    rw [hloop, hr]; rfl
  | cons k rest' =>
    refine ⟨done, rest, part, med, .error .valueError, file, hsplit, hdone, hrest, hsuite, ?_,
      fun h => absurd h (by rw [hr]; simp), fun _ => rfl, hread, hlines⟩
    rw [hloop, hr, List.map_cons, analyzeSuiteLoop, regularPartitionOf_small g m
      (hpos k (by rw [hsplit, hr]; simp)) (hrest k rest' hr)]

end

/-- The factors of `k`, as found by the code, fit in the sides. -/
def roomTest (xLen yLen k : Nat) : Bool :=
  match findTwoBalancedDivisors k with
  | .ok (a, b) => decide (b ≤ max xLen yLen) && decide (a ≤ min xLen yLen)
  | .error _ => false

theorem roomTest_iff {xLen yLen k : Nat} (hk : 1 ≤ k) : roomTest xLen yLen k = true ↔ RoomFor xLen yLen k := by
  obtain ⟨a, b, h, hab⟩ := C05_balanced_divisors k hk
  simp only [roomTest, h, Bool.and_eq_true, decide_eq_true_eq]
  constructor
  · rintro ⟨h1, h2⟩
    exact ⟨a, b, hab, h1, h2⟩
  · rintro ⟨a', b', hab', h1, h2⟩
    obtain ⟨rfl, rfl⟩ := hab.unique hab'
    exact ⟨h1, h2⟩

theorem roomForAll_iff {r : Region} {ks : List Int} (hk : ∀ k ∈ ks, 1 ≤ k) :
    RoomForAll r ks ↔ ∀ k ∈ ks, roomTest (r.x2 - r.x1) (r.y2 - r.y1) k.toNat = true := by
  refine forall_congr' fun k => forall_congr' fun h => ?_
  rw [roomTest_iff (by have := hk k h; omega)]

theorem intRange_part1 : (intRange 2 96 1).Nodup ∧ ∀ k ∈ intRange 2 96 1, 1 ≤ k := by decide +kernel

theorem intRange_part2 : (intRange 96 151 2).Nodup ∧ ∀ k ∈ intRange 96 151 2, 1 ≤ k := by decide +kernel

/-- **C122** (catalogues): the suite quick has room in every predefined region; the suite part1, with 2 to 95
clusters, only in the regions named whole_real_brazil; the suite part2, with the even numbers from 96 to 150,
only in these and in the regions named whole_brazil. -/
theorem C122_catalogue : ∀ e ∈ predefinedRegions,
    RoomForAll e.2.region [2, 3] ∧
    (RoomForAll e.2.region (intRange 2 96 1) ↔ e.2.name = "whole_real_brazil".toList) ∧
    (RoomForAll e.2.region (intRange 96 151 2) ↔
      e.2.name = "whole_brazil".toList ∨ e.2.name = "whole_real_brazil".toList) := by
  simp only [roomForAll_iff intRange_part1.2, roomForAll_iff intRange_part2.2,
    roomForAll_iff (ks := [2, 3]) (by decide)]
  decide +kernel

/-- The suites of the programs are the ones of `C122_catalogue`. -/
theorem C122_suites :
    getSuite sRegular "quick".toList = .ok ([2, 3].map .regular) ∧
    getSuite sRegular "part1".toList = .ok ((intRange 2 96 1).map .regular) ∧
    getSuite sRegular "part2".toList = .ok ((intRange 96 151 2).map .regular) := by
  refine ⟨by decide +kernel, by decide +kernel, by decide +kernel⟩

section

variable {K : Type} [Field K] [LinearOrder K] [IsStrictOrderedRing K] {α : Type}

/-- The analysis of a regular suite succeeds exactly if the region has room for all its clusterings; otherwise it
raises a ValueError. -/
theorem C122_outcome (showCost : Option K → Str) (r : Region) (g : Grid α) (hg : g.WF) (d : Nat → Nat → K)
    (m : Grid (Option K))
    (hm : ∀ a < g.data.length, ∀ i < g.data.length, m.get ⟨a, i⟩ = .ok (some (d a i)))
    (hx : g.xLen = r.x2 - r.x1) (hy : g.yLen = r.y2 - r.y1)
    {ks : List Int} (hpos : ∀ k ∈ ks, 1 ≤ k) (hn : ks.Nodup) :
    (RoomForAll r ks →
      (analyzeSuite (regularPartitionOf g m) showCost r g m (ks.map .regular)).1 = .ok ()) ∧
    (¬ RoomForAll r ks →
      (analyzeSuite (regularPartitionOf g m) showCost r g m (ks.map .regular)).1 = .error .valueError) := by
  obtain ⟨done, rest, part, med, outcome, file, h1, h2, h3, -, h4, h5, h6, -⟩ :=
    C122_suite showCost r g hg d m hm hpos hn
  rw [h4]
  cases rest with
  | nil =>
    refine ⟨fun _ => h5 rfl, fun h => absurd ?_ h⟩
    rw [List.append_nil] at h1
    intro k hk
    rw [← hx, ← hy]
    exact h2 k (h1 ▸ hk)
  | cons k rest =>
    refine ⟨fun h => absurd (h k (by rw [h1]; simp)) ?_, fun _ => h6 (by simp)⟩
    rw [← hx, ← hy]
    exact h3 k rest rfl

/-- **C122** (program): which suites of regular clusterings the program can analyse on which predefined
regions. -/
theorem C122_program {name : Str} {md : RegionMeta} (he : (name, md) ∈ predefinedRegions)
    (showCost : Option K → Str) (g : Grid α) (hg : g.WF) (d : Nat → Nat → K) (m : Grid (Option K))
    (hm : ∀ a < g.data.length, ∀ i < g.data.length, m.get ⟨a, i⟩ = .ok (some (d a i)))
    (hx : g.xLen = md.region.x2 - md.region.x1) (hy : g.yLen = md.region.y2 - md.region.y1) :
    ∃ quick part1 part2, suiteArgs name sRegular "quick".toList = .ok (md, quick) ∧
      suiteArgs name sRegular "part1".toList = .ok (md, part1) ∧
      suiteArgs name sRegular "part2".toList = .ok (md, part2) ∧
      (analyzeSuite (regularPartitionOf g m) showCost md.region g m quick).1 = .ok () ∧
      (analyzeSuite (regularPartitionOf g m) showCost md.region g m part1).1 =
        (if md.name = "whole_real_brazil".toList then .ok () else .error .valueError) ∧
      (analyzeSuite (regularPartitionOf g m) showCost md.region g m part2).1 =
        (if md.name = "whole_brazil".toList ∨ md.name = "whole_real_brazil".toList then .ok ()
         else .error .valueError) := by
  have hd : dictAt predefinedRegions name = .ok md := by
    have : ∀ e ∈ predefinedRegions, dictAt predefinedRegions e.1 = .ok e.2 := by decide +kernel
    exact this _ he
  obtain ⟨s1, s2, s3⟩ := C122_suites
  obtain ⟨c1, c2, c3⟩ := C122_catalogue _ he
  refine ⟨_, _, _, by rw [suiteArgs, hd, s1], by rw [suiteArgs, hd, s2], by rw [suiteArgs, hd, s3], ?_, ?_, ?_⟩
  · exact (C122_outcome showCost md.region g hg d m hm hx hy (by decide) (by decide)).1 c1
  · have := C122_outcome showCost md.region g hg d m hm hx hy intRange_part1.2 intRange_part1.1
    split_ifs with h
    · exact this.1 (c2.2 h)
    · exact this.2 fun h' => h (c2.1 h')
  · have := C122_outcome showCost md.region g hg d m hm hx hy intRange_part2.2 intRange_part2.1
    split_ifs with h
    · exact this.1 (c3.2 h)
    · exact this.2 fun h' => h (c3.1 h')

end

/-- Example of C122: on a region of 2 x 2 points the suite of 2, 3 and 4 rectangles stops at 3, and the file has
the result of 2 rectangles. -/
example : RoomFor 2 2 2 ∧ ¬ RoomFor 2 2 3 := by
  rw [← roomTest_iff (by decide), ← roomTest_iff (by decide)]
  decide +kernel

example :
    (analyzeSuite (regularPartitionOf (⟨2, 2, [0, 1, 2, 3]⟩ : Grid Nat)
      (⟨4, 4, [some 0, some 1, some 2, some 3, some 1, some 0, some 1, some 2,
        some 2, some 1, some 0, some 1, some 3, some 2, some 1, some 0]⟩ : Grid (Option ℚ)))
      (fun c => if c = some 2 then "2.0".toList else []) ⟨10, 12, 20, 22⟩
      (⟨2, 2, [0, 1, 2, 3]⟩ : Grid Nat)
      (⟨4, 4, [some 0, some 1, some 2, some 3, some 1, some 0, some 1, some 2,
        some 2, some 1, some 0, some 1, some 3, some 2, some 1, some 0]⟩ : Grid (Option ℚ))
      ([2, 3, 4].map ClusterMeta.regular)).1 = .error .valueError := by decide +kernel

/-! ### C123 -/

/-- **C123** (suites): a suite of clusterings is found exactly for the pairs of type and identifier that are
defined; the parser accepts more pairs, and for these a KeyError is raised. -/
theorem C123_suites : ∀ t ∈ [sKmedoids, sRegular], ∀ s ∈ suiteOptions,
    ((∃ suite, getSuite t s = .ok suite ∧ suite ≠ []) ↔
      s = "quick".toList ∨ (t = sKmedoids ∧ (s = "large".toList ∨ s = "all".toList)) ∨
        (t = sRegular ∧ (s = "part1".toList ∨ s = "part2".toList))) ∧
    ((¬ ∃ suite, getSuite t s = .ok suite ∧ suite ≠ []) → getSuite t s = .error .keyError) := by
  have h : ∀ t ∈ [sKmedoids, sRegular], ∀ s ∈ suiteOptions,
      ((match getSuite t s with | .ok x => decide (x ≠ []) | .error _ => false) = true ↔
      s = "quick".toList ∨ (t = sKmedoids ∧ (s = "large".toList ∨ s = "all".toList)) ∨
        (t = sRegular ∧ (s = "part1".toList ∨ s = "part2".toList))) ∧
      ((match getSuite t s with | .ok x => decide (x ≠ []) | .error _ => false) = false →
        getSuite t s = .error .keyError) := by decide +kernel
  intro t ht s hs
  obtain ⟨h1, h2⟩ := h t ht s hs
  have h3 : (match getSuite t s with | .ok x => decide (x ≠ []) | .error _ => false) = true ↔
      ∃ suite, getSuite t s = .ok suite ∧ suite ≠ [] := by
    cases getSuite t s <;> simp
  rw [← h3]
  exact ⟨h1, fun h => h2 (by simpa using h)⟩

/-- **C123** (options): the parsers accept exactly the identifiers of the suites of some type. -/
theorem C123_options (s : Str) : s ∈ suiteOptions ↔ ∃ t ∈ [sKmedoids, sRegular], ∃ suite, getSuite t s = .ok suite := by
  have h1 : ∀ s ∈ suiteOptions, ∃ t ∈ [sKmedoids, sRegular],
      (match getSuite t s with | .ok _ => true | .error _ => false) = true := by decide +kernel
  have h2 : ∀ x ∈ kmedoidsSuites, x.1 ∈ suiteOptions := by decide +kernel
  have h3 : ∀ x ∈ regularSuites, x.1 ∈ suiteOptions := by decide +kernel
  constructor
  · intro h
    obtain ⟨t, ht, h4⟩ := h1 s h
    refine ⟨t, ht, ?_⟩
    cases hr : getSuite t s with
    | error e => rw [hr] at h4; cases h4
    | ok suite => exact ⟨suite, rfl⟩
  · rintro ⟨t, ht, suite, h⟩
    have key : ∀ {d : List (Str × SuiteParams)} {v}, dictAt d s = .ok v → ∃ x ∈ d, x.1 = s := by
      intro d v hd
      by_contra hn
      push Not at hn
      unfold dictAt at hd
      rw [List.lookup_eq_none_iff.2 fun x hx => by simpa using (hn x hx).symm] at hd
      cases hd
    unfold getSuite at h
    split at h
    · split at h
      · cases h
      · rename_i hp
        obtain ⟨x, hx, rfl⟩ := key hp
        exact h2 x hx
    · split at h
      · split at h
        · cases h
        · rename_i hp
          obtain ⟨x, hx, rfl⟩ := key hp
          exact h3 x hx
      · cases h

/-- A pair that both programs accept and that is not defined. -/
theorem C123_suites_refuted : sRegular ∈ [sKmedoids, sRegular] ∧ "all".toList ∈ suiteOptions ∧
    ∀ e ∈ predefinedRegions, suiteArgs e.1 sRegular "all".toList = .error .keyError := by
  decide +kernel

/-- **C123** (ARIMA with clusters): of the experiments accepted by the parser all are defined but
arima_whole_brazil, whose suite of clusterings does not exist. -/
theorem C123_arima_partial : ∀ e ∈ predefinedRegions, ∀ x ∈ arimaClusterings,
    (x.1 ≠ "arima_whole_brazil".toList → ∃ suite orders,
      arimaClusteringArgs e.1 x.1 = .ok (e.2, suite, orders) ∧ suite ≠ [] ∧ orders ≠ [] ∧
        getSuite x.2.clusteringType x.2.suiteId = .ok suite ∧ arimaSuiteByName x.2.arimaId = .ok orders) ∧
    (x.1 = "arima_whole_brazil".toList → arimaClusteringArgs e.1 x.1 = .error .keyError) := by
  have h1 : ∀ e ∈ predefinedRegions, ∀ x ∈ arimaClusterings,
      x.1 ≠ "arima_whole_brazil".toList → (match arimaClusteringArgs e.1 x.1 with
        | .ok (md, suite, orders) => decide (md = e.2) && !suite.isEmpty && !orders.isEmpty &&
            decide (getSuite x.2.clusteringType x.2.suiteId = .ok suite) &&
            decide (arimaSuiteByName x.2.arimaId = .ok orders)
        | .error _ => false) = true := by
    decide +kernel
  have h2 : ∀ e ∈ predefinedRegions, arimaClusteringArgs e.1 "arima_whole_brazil".toList = .error .keyError := by
    decide +kernel
  intro e he x hx
  refine ⟨fun hn => ?_, fun hn => by rw [hn]; exact h2 e he⟩
  have h3 := h1 e he x hx hn
  cases hr : arimaClusteringArgs e.1 x.1 with
  | error err => rw [hr] at h3; simp at h3
  | ok v =>
    obtain ⟨md, suite, orders⟩ := v
    rw [hr] at h3
    simp only [Bool.and_eq_true, decide_eq_true_eq, Bool.not_eq_true', List.isEmpty_eq_false_iff] at h3
    exact ⟨suite, orders, by rw [h3.1.1.1.1], h3.1.1.1.2, h3.1.1.2, h3.1.2, h3.2⟩

/-- An experiment that the parser accepts and that is not defined. -/
theorem C123_arima_refuted : "arima_whole_brazil".toList ∈ arimaClusterings.map Prod.fst ∧
    ∀ e ∈ predefinedRegions, arimaClusteringArgs e.1 "arima_whole_brazil".toList = .error .keyError := by
  decide +kernel

/-- **C123** (auto ARIMA with clusters): every combination accepted by the parsers is defined; the suite has at
least one clustering, and all its clusterings are of the type of the experiment. -/
theorem C123_auto_arima : ∀ e ∈ predefinedRegions, ∀ x ∈ autoArimaClusterings, ∃ suite,
    autoArimaClusteringArgs e.1 x.1 = .ok (e.2, suite, .autoArima 1 1 3 3 none true) ∧ suite ≠ [] ∧
    getSuite x.2.clusteringType x.2.suiteId = .ok suite := by
  have h : ∀ e ∈ predefinedRegions, dictAt predefinedRegions e.1 = .ok e.2 := by decide +kernel
  have h' : ∀ x ∈ autoArimaClusterings, dictAt autoArimaClusterings x.1 = .ok x.2 ∧
      dictAt autoArimaIds x.2.arimaId = .ok (.autoArima 1 1 3 3 none true) ∧
      (match getSuite x.2.clusteringType x.2.suiteId with
        | .ok suite => decide (suite ≠ [])
        | .error _ => false) = true := by decide +kernel
  intro e he x hx
  obtain ⟨h1, h2, h3⟩ := h' x hx
  cases hr : getSuite x.2.clusteringType x.2.suiteId with
  | error err => rw [hr] at h3; simp at h3
  | ok suite =>
    rw [hr] at h3
    exact ⟨suite, by simp only [autoArimaClusteringArgs, h e he, h1, hr, h2], by simpa using h3, rfl⟩

/-- **C123** (silhouette analyses): they are defined for the predefined regions but the ones named
whole_real_brazil, for which a KeyError is raised. -/
theorem C123_silhouette_partial : ∀ e ∈ predefinedRegions,
    (e.2.name ≠ "whole_real_brazil".toList → ∃ ks seeds, silhouetteArgs e.1 = .ok (e.2, ks, seeds) ∧
      ks ≠ [] ∧ seeds ≠ [] ∧ ks.Nodup ∧ seeds.Nodup ∧ ∀ k ∈ ks, 2 ≤ k) ∧
    (e.2.name = "whole_real_brazil".toList → silhouetteArgs e.1 = .error .keyError) := by
  have h : ∀ e ∈ predefinedRegions,
      (e.2.name ≠ "whole_real_brazil".toList → (match silhouetteArgs e.1 with
        | .ok (md, ks, seeds) => decide (md = e.2) && decide (ks ≠ [] ∧ seeds ≠ [] ∧ ks.Nodup ∧ seeds.Nodup ∧
            ∀ k ∈ ks, 2 ≤ k)
        | .error _ => false) = true) ∧
      (e.2.name = "whole_real_brazil".toList → silhouetteArgs e.1 = .error .keyError) := by
    decide +kernel
  intro e he
  obtain ⟨h1, h2⟩ := h e he
  refine ⟨fun hn => ?_, h2⟩
  have h3 := h1 hn
  cases hr : silhouetteArgs e.1 with
  | error err => rw [hr] at h3; simp at h3
  | ok v =>
    obtain ⟨md, ks, seeds⟩ := v
    rw [hr] at h3
    simp only [Bool.and_eq_true, decide_eq_true_eq] at h3
    exact ⟨ks, seeds, by rw [h3.1], h3.2⟩

/-- A region that the parser of the silhouette analyses accepts and that has none. -/
theorem C123_silhouette_refuted : ∃ e ∈ predefinedRegions, silhouetteArgs e.1 = .error .keyError := by
  decide +kernel

/-- **C123** (centroids): for the predefined regions and the DTW distance the centroid is always calculated from
the metadata of the region: no precalculated centroid has the name of a predefined region. Other distances are
refused. -/
theorem C123_centroid (calculate : RegionMeta → Except PyErr (Option Point)) :
    (∀ e ∈ predefinedRegions, centroidByRegion calculate e.1 "DistanceByDTW".toList = calculate e.2) ∧
    (∀ e ∈ predefinedRegions, ∀ c, c ≠ "DistanceByDTW".toList →
      centroidByRegion calculate e.1 c = .error .assertionError) ∧
    ∀ name ∈ ["nordeste_small_1y_1ppd".toList, "nordeste_small_1y_1ppd_norm".toList],
      centroidByRegion calculate name "DistanceByDTW".toList = .ok (some ⟨4, 6⟩) := by
  have h1 : ∀ e ∈ predefinedRegions, dictAt predefinedRegions e.1 = .ok e.2 := by decide +kernel
  have h2 : ∀ e ∈ predefinedRegions, ∀ x ∈ precalculatedCentroids, x.1.1 ≠ e.1 := by decide +kernel
  have h3 : ∀ e ∈ predefinedRegions, ∀ c, precalculatedCentroids.lookup (e.1, c) = none := by
    intro e he c
    rw [List.lookup_eq_none_iff]
    intro x hx
    have := h2 e he x hx
    have hc : (e.1, c) ≠ x.1 := fun hc => this (by rw [← hc])
    simpa using hc
  have h4 : ∀ name ∈ ["nordeste_small_1y_1ppd".toList, "nordeste_small_1y_1ppd_norm".toList],
      precalculatedCentroids.lookup (name, "DistanceByDTW".toList) = some ⟨4, 6⟩ := by decide +kernel
  refine ⟨?_, ?_, fun name hn => by rw [centroidByRegion, h4 name hn]⟩
  · intro e he
    rw [centroidByRegion, h3 e he]
    simp only [ne_eq, not_true_eq_false, if_false, h1 e he]
  · intro e he c hc
    rw [centroidByRegion, h3 e he]
    simp only [ne_eq, hc, not_false_eq_true, if_true]

/-- Example of C123: the centroid of a predefined region is the one that is calculated for it. -/
example : centroidByRegion (fun md => .ok (some ⟨md.region.x1, md.region.y1⟩))
    "nordeste_small_2015_2015_1spd".toList "DistanceByDTW".toList = .ok (some ⟨43, 85⟩) := by decide +kernel

end Spta
