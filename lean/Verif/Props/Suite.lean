import Verif.Lemmas.Suite

/-!
# C52, C53: suites, organisation by seed, elbows
-/

set_option linter.unusedSectionVars false

namespace Spta

/-! ### C52 -/

/-- **C52** for k-medoids: the clustering number `i * |seeds| + j` has the i-th k and the j-th seed,
and there are no others. -/
theorem C52_kmedoids (p : SuiteParams) {ks : List Int} (hk : p.ks = some ks) :
    ∃ suite, createSuite sKmedoids p = .ok suite ∧ suite.length = ks.length * p.seeds.seeds.length ∧
      ∀ (i j : Nat) (k s : Int), ks[i]? = some k → p.seeds.seeds[j]? = some s →
        suite[i * p.seeds.seeds.length + j]? =
          some (.kmedoids ⟨k, s, p.mode, p.initial, p.maxIter⟩) := by
  have h0 : sKmedoids ≠ sRegular := by decide
  have hf : ∀ k s, factoryInstance sKmedoids k s p =
      .ok (kmMeta p.mode p.initial p.maxIter k s) := by
    intro k s; simp [factoryInstance, h0, kmMeta]
  refine ⟨_, by rw [createSuite, hk]; exact suiteOuter_eq hf ks [], ?_, ?_⟩
  · rw [List.nil_append, flatMap_length]
  · intro i j k s hi hj
    rw [List.nil_append]
    exact flatMap_getElem? _ _ _ i j k s hi hj

/-- **C52**: every pair occurs exactly once when the ks and the seeds are given without repetition. -/
theorem C52_pairs (p : SuiteParams) {ks : List Int} (hk : p.ks = some ks) :
    ∃ suite, createSuite sKmedoids p = .ok suite ∧
      (∀ m, m ∈ suite ↔ ∃ k ∈ ks, ∃ s ∈ p.seeds.seeds,
        m = .kmedoids ⟨k, s, p.mode, p.initial, p.maxIter⟩) ∧
      (ks.Nodup → p.seeds.seeds.Nodup → suite.Nodup) := by
  have h0 : sKmedoids ≠ sRegular := by decide
  have hf : ∀ k s, factoryInstance sKmedoids k s p =
      .ok (kmMeta p.mode p.initial p.maxIter k s) := by
    intro k s; simp [factoryInstance, h0, kmMeta]
  refine ⟨_, by rw [createSuite, hk]; exact suiteOuter_eq hf ks [], ?_, ?_⟩
  · intro m
    simp only [List.nil_append, List.mem_flatMap, List.mem_map, kmMeta]
    constructor
    · rintro ⟨k, h1, s, h2, rfl⟩; exact ⟨k, h1, s, h2, rfl⟩
    · rintro ⟨k, h1, s, h2, rfl⟩; exact ⟨k, h1, s, h2, rfl⟩
  · intro hks hs
    rw [List.nil_append, List.nodup_flatMap]
    refine ⟨fun k _ => hs.map fun a b h => by simpa [kmMeta] using h, ?_⟩
    refine hks.imp fun {a b} hab => ?_
    intro m h1 h2
    obtain ⟨s, _, rfl⟩ := List.mem_map.1 h1
    obtain ⟨t, _, h⟩ := List.mem_map.1 h2
    simp [kmMeta] at h
    exact hab h.1.symm

/-- A single seed stands for the list with that seed; without seeds, seed 1. -/
theorem C52_seeds (s : Int) : (SeedParam.single s).seeds = (SeedParam.many [s]).seeds ∧
    SeedParam.absent.seeds = (SeedParam.many [1]).seeds := ⟨rfl, rfl⟩

/-- **C52** for regular clusterings: one per k (repeated for every seed if seeds are given). -/
theorem C52_regular (p : SuiteParams) {ks : List Int} (hk : p.ks = some ks) :
    createSuite sRegular p =
      .ok (ks.flatMap fun k => List.replicate p.seeds.seeds.length (.regular k)) := by
  have hf : ∀ k s, factoryInstance sRegular k s p = .ok (ClusterMeta.regular k) := by
    intro k s; simp [factoryInstance]
  have h1 : createSuite sRegular p = suiteOuter sRegular p ks [] := by rw [createSuite, hk]
  rw [h1, suiteOuter_eq (f := fun k _ => .regular k) hf ks []]
  simp

/-- Other names are rejected, unless there is nothing to create. -/
theorem C52_invalid_name (p : SuiteParams) {ks : List Int} (hk : p.ks = some ks) {name : Str}
    (h1 : name ≠ sRegular) (h2 : name ≠ sKmedoids) :
    createSuite name p =
      if ks = [] ∨ p.seeds.seeds = [] then .ok [] else .error .valueError := by
  have hi : ∀ k seeds acc, suiteInner name p k seeds acc =
      if seeds = [] then .ok acc else .error .valueError := by
    intro k seeds acc
    cases seeds with
    | nil => simp [suiteInner]
    | cons s ss => simp [suiteInner, factoryInstance, h1, h2]
  have ho : ∀ ks acc, suiteOuter name p ks acc =
      if ks = [] ∨ p.seeds.seeds = [] then .ok acc else .error .valueError := by
    intro ks
    induction ks with
    | nil => intro acc; simp [suiteOuter]
    | cons k ks ih =>
      intro acc
      rw [suiteOuter, hi]
      by_cases h : p.seeds.seeds = []
      · rw [if_pos h]; simp only; rw [ih]; simp [h]
      · rw [if_neg h]; simp [h]
  rw [createSuite, hk]
  exact ho ks []

/-- Without values of k there is no suite, whatever its name and its other parameters. -/
theorem C52_missing_k (name : Str) (p : SuiteParams) (hk : p.ks = none) : createSuite name p = .error .keyError := by
  rw [createSuite, hk]

/-- The generator of the k-medoids package yields the same combinations in the same order. -/
theorem C52_generator (ks seeds : List Int) (mode : Str) (initial : Option (List Int)) (maxIter : Nat) :
    createSuite sKmedoids ⟨some ks, .many seeds, mode, initial, maxIter⟩ =
      .ok ((kmedoidsSuiteMetadata ks seeds mode initial maxIter).map .kmedoids) := by
  have h0 : sKmedoids ≠ sRegular := by decide
  have hf : ∀ k s, factoryInstance sKmedoids k s ⟨some ks, .many seeds, mode, initial, maxIter⟩ =
      .ok (kmMeta mode initial maxIter k s) := by
    intro k s; simp [factoryInstance, h0, kmMeta]
  show suiteOuter sKmedoids _ ks [] = _
  rw [suiteOuter_eq hf ks []]
  simp [kmedoidsSuiteMetadata, List.map_flatMap, SeedParam.seeds, Function.comp_def]
  rfl

/-- **C52** (organisation): for every suite of k-medoids clusterings, each seed of the suite is a key
once, and its list has exactly the clusterings with that seed, ordered by k, those with equal k in the
order of the suite. -/
theorem C52_organise (suite : List KmMeta) :
    ∃ d, organizeSuite (suite.map .kmedoids) = .ok d ∧ (d.map Prod.fst).Nodup ∧
      (∀ s, s ∈ d.map Prod.fst ↔ ∃ m ∈ suite, m.seed = s) ∧
      ∀ e ∈ d, List.Perm e.2 ((suite.filter fun m => m.seed = e.1).map .kmedoids) ∧
        e.2.Pairwise (fun a b => a.k ≤ b.k) ∧
        ∀ c, e.2.filter (fun m => m.k = c) =
          ((suite.filter fun m => m.seed = e.1).map ClusterMeta.kmedoids).filter fun m => m.k = c := by
  have h := groupBySeed_eq suite (fun _ => []) [] List.nodup_nil (fun _ _ => rfl)
  simp only [List.map_nil, List.nil_append] at h
  refine ⟨_, by rw [organizeSuite, h], ?_, ?_, ?_⟩
  · rw [List.map_map, List.map_map]
    have : (List.map ((Prod.fst ∘ fun (e : Int × List ClusterMeta) => (e.1, sortByK e.2)) ∘
        fun s => (s, (suite.filter fun m => m.seed = s).map ClusterMeta.kmedoids))
        ((suite.map KmMeta.seed).foldl addKey [])) = (suite.map KmMeta.seed).foldl addKey [] := by
      conv_rhs => rw [← List.map_id ((suite.map KmMeta.seed).foldl addKey [])]
      rfl
    rw [this]
    exact foldl_addKey_nodup _ _ List.nodup_nil
  · intro s
    simp only [List.map_map, List.mem_map, Function.comp]
    constructor
    · rintro ⟨t, ht, rfl⟩
      rw [mem_foldl_addKey] at ht
      simpa using ht
    · rintro ⟨m, hm, rfl⟩
      refine ⟨m.seed, ?_, rfl⟩
      rw [mem_foldl_addKey]
      exact Or.inr (List.mem_map.2 ⟨m, hm, rfl⟩)
  · intro e he
    simp only [List.map_map, List.mem_map, Function.comp] at he
    obtain ⟨s, _, rfl⟩ := he
    refine ⟨List.perm_insertionSort _ _, ?_, fun c => sortByK_filter c _⟩
    have htrans : IsTrans ClusterMeta fun a b => a.k ≤ b.k := ⟨fun a b c h1 h2 => le_trans h1 h2⟩
    have htotal : Std.Total fun (a b : ClusterMeta) => a.k ≤ b.k := ⟨fun a b => le_total a.k b.k⟩
    exact List.pairwise_insertionSort _ _

/-- Regular clusterings have no seed. -/
theorem C52_organise_regular (k : Int) (rest : List ClusterMeta) :
    organizeSuite (.regular k :: rest) = .error .attributeError := rfl

/-- The suite with k = 3, 2 and seeds 0, 1: four clusterings, two groups sorted by k. -/
example :
    (createSuite sKmedoids { ks := some [3, 2], seeds := .many [0, 1] } =
      .ok [.kmedoids { k := 3, seed := 0 }, .kmedoids { k := 3, seed := 1 },
        .kmedoids { k := 2, seed := 0 }, .kmedoids { k := 2, seed := 1 }]) ∧
    organizeSuite [.kmedoids { k := 3, seed := 0 }, .kmedoids { k := 3, seed := 1 },
        .kmedoids { k := 2, seed := 0 }, .kmedoids { k := 2, seed := 1 }] =
      .ok [(0, [.kmedoids { k := 2, seed := 0 }, .kmedoids { k := 3, seed := 0 }]),
        (1, [.kmedoids { k := 2, seed := 1 }, .kmedoids { k := 3, seed := 1 }])] := by
  decide +kernel

/-! ### C53 -/

section

variable {K : Type} [Field K] [LinearOrder K] [IsStrictOrderedRing K]

/-- What the discrete second derivative is: the second derivative `2 a` of the parabola
`a x² + b x + c` through the three points. -/
theorem curvature_parabola {p1 p2 p3 : Int × K} (h1 : p1.1 < p2.1) (h2 : p2.1 < p3.1) (a b c : K)
    (h : ∀ p ∈ [p1, p2, p3], p.2 = a * (p.1 : K) ^ 2 + b * p.1 + c) : curvature p1 p2 p3 = 2 * a := by
  obtain ⟨x1, y1⟩ := p1
  obtain ⟨x2, y2⟩ := p2
  obtain ⟨x3, y3⟩ := p3
  simp only at h1 h2
  have e1 : x2 - x1 ≠ 0 := by omega
  have e2 : x3 - x1 ≠ 0 := by omega
  have e3 : x3 - x2 ≠ 0 := by omega
  have f1 : (x2 : K) - x1 ≠ 0 := by exact_mod_cast e1
  have f2 : (x3 : K) - x1 ≠ 0 := by exact_mod_cast e2
  have f3 : (x3 : K) - x2 ≠ 0 := by exact_mod_cast e3
  have g1 := h (x1, y1) (by simp)
  have g2 := h (x2, y2) (by simp)
  have g3 := h (x3, y3) (by simp)
  simp only at g1 g2 g3
  simp only [curvature, g1, g2, g3]
  field_simp
  ring

theorem curvatureAt_window (pts : List (Int × Option K)) (i : Nat) (d : K) :
    curvatureAt pts (i + 1) = some d ↔ (windowCurv pts)[i]? = some (some d) := by
  rw [windowCurv_getElem?, curvatureAt]
  cases pts[i]? <;> cases pts[i + 1]? <;> cases pts[i + 2]? <;> simp

/-- The loop finds the elbow of a list of at least three points with increasing k, if there is any second
derivative. -/
theorem elbowLoop_elbow {pts : List (Int × Option K)} (h : (pts.map Prod.fst).Pairwise (· < ·))
    (hlen : 3 ≤ pts.length) :
    ∃ (i : Nat) (best : Option K × Int), i < pts.length ∧ ElbowPosition pts i ∧
      elbowLoop pts 1 (none, -1) = .ok best ∧ (best.2 = i ∨ best.2 = -1 ∧ i + 1 = pts.length) := by
  by_cases hne : ∃ e, some e ∈ windowCurv pts
  · obtain ⟨j, d, h1, h2, h3, h4⟩ := maxLoop_none hne 1
    have hj : j < (windowCurv pts).length := (List.getElem?_eq_some_iff.1 h1).1
    rw [windowCurv_length] at hj
    refine ⟨j + 1, (some d, ((1 + j : Nat) : Int)), by omega,
      .inl ⟨d, by rw [curvatureAt_window, h1], ?_, ?_⟩, by rw [elbowLoop_eq _ _ _ h, h4], .inl ?_⟩
    · intro m e hm
      cases m with
      | zero => cases hm
      | succ m => rw [curvatureAt_window] at hm; exact h2 e (List.mem_of_getElem? hm)
    · intro m e hmj hm
      cases m with
      | zero => cases hm
      | succ m => rw [curvatureAt_window] at hm; exact h3 m e (by omega) hm
    · simp only; omega
  · refine ⟨pts.length - 1, (none, -1), by omega, .inr ⟨?_, by omega⟩,
      by rw [elbowLoop_eq _ _ _ h, maxLoop_nan (fun e he => hne ⟨e, he⟩)], .inr ⟨rfl, by omega⟩⟩
    intro j
    cases j with
    | zero => rfl
    | succ j =>
      rw [Option.eq_none_iff_forall_ne_some]
      intro d hd
      exact hne ⟨d, List.mem_of_getElem? ((curvatureAt_window pts j d).1 hd)⟩

theorem listAtInt_elbow {A : Type} {l : List A} {i : Nat} (hi : i < l.length) {b : Int}
    (h : b = i ∨ b = -1 ∧ i + 1 = l.length) : listAtInt l b = .ok l[i] := by
  rcases h with rfl | ⟨rfl, h⟩
  · simp [listAtInt, listAt, hi]
  · have : ((l.length : Int) + -1).toNat = i := by omega
    rw [listAtInt, if_neg (by omega), if_pos (by omega), this]
    simp [listAt, hi]

/-- With numbers only there is a second derivative. -/
theorem ElbowPosition.isElbow {α : Type} {l : List α} {k : α → Int} {c : α → K} {i : Nat} (hl : 3 ≤ l.length)
    (h : ElbowPosition (l.map fun a => (k a, some (c a))) i) : IsElbow (l.map fun a => (k a, some (c a))) i := by
  rcases h with h | ⟨h, -⟩
  · exact h
  · have := h 1
    rw [curvatureAt, List.getElem?_map, List.getElem?_map, List.getElem?_map,
      List.getElem?_eq_getElem (by omega), List.getElem?_eq_getElem (by omega),
      List.getElem?_eq_getElem (by omega)] at this
    simp [curvatureOf] at this

/-- **C53** (one list of clusterings): with at least three clusterings of increasing k and a table with
their costs, the elbow is the first interior clustering whose discrete second derivative is largest. If the NaN
costs leave no second derivative, it is the last clustering. -/
theorem C53_elbow {costs : List (ClusterMeta × Option K)} {ordered : List ClusterMeta}
    (hlen : costs.length = ordered.length) (h3 : 3 ≤ ordered.length)
    (hk : (ordered.map ClusterMeta.k).Pairwise (· < ·)) {cost : ClusterMeta → Option K}
    (hcost : ∀ m ∈ ordered, metaDictGet m costs = .ok (cost m)) :
    ∃ (i : Nat) (m : ClusterMeta), ordered[i]? = some m ∧
      ElbowPosition (ordered.map fun m => (m.k, cost m)) i ∧ findElbow costs ordered = .ok m := by
  have hz : List.zip (ordered.map ClusterMeta.k) (ordered.map cost) =
      ordered.map fun m => (m.k, cost m) := by
    rw [List.zip_map', ]
  obtain ⟨i, best, hi, hel, hloop, hb⟩ := elbowLoop_elbow (pts := ordered.map fun m => (m.k, cost m))
    (by rw [List.map_map]; exact hk) (by simpa using h3)
  rw [List.length_map] at hi hb
  refine ⟨i, ordered[i], by simp [hi], hel, ?_⟩
  unfold findElbow
  rw [if_neg (by simpa using hlen), if_neg (by omega),
    mapM_ok (fun m => metaDictGet m costs) cost ordered hcost]
  simp only
  rw [hz, hloop]
  exact listAtInt_elbow hi hb

/-- With the costs 9, 3, NaN, 1, 0 there is no second derivative but NaN: the last clustering is reported. With
one more cost the only number is the second derivative of the last three. -/
example :
    findElbow (K := ℚ) [(.kmedoids { k := 2 }, some 9), (.kmedoids { k := 3 }, some 3), (.kmedoids { k := 4 }, none),
      (.kmedoids { k := 5 }, some 1), (.kmedoids { k := 6 }, some 0)]
      [.kmedoids { k := 2 }, .kmedoids { k := 3 }, .kmedoids { k := 4 }, .kmedoids { k := 5 }, .kmedoids { k := 6 }] =
      .ok (.kmedoids { k := 6 }) ∧
    findElbow (K := ℚ) [(.kmedoids { k := 2 }, none), (.kmedoids { k := 3 }, some 3), (.kmedoids { k := 4 }, some 2),
      (.kmedoids { k := 5 }, some 1)]
      [.kmedoids { k := 2 }, .kmedoids { k := 3 }, .kmedoids { k := 4 }, .kmedoids { k := 5 }] =
      .ok (.kmedoids { k := 4 }) := by decide +kernel

/-- Too few clusterings, or another number of costs than clusterings, are rejected. -/
theorem C53_rejected (costs : List (ClusterMeta × Option K)) (ordered : List ClusterMeta)
    (h : costs.length ≠ ordered.length ∨ ordered.length < 3) :
    findElbow costs ordered = .error .assertionError := by
  unfold findElbow
  by_cases h1 : costs.length ≠ ordered.length
  · rw [if_pos h1]
  · rw [if_neg h1, if_pos (by omega)]

/-- A repeated k in the list is a division by zero. -/
theorem C53_repeated_k {costs : List (ClusterMeta × Option K)} {ordered : List ClusterMeta}
    (hlen : costs.length = ordered.length) (h3 : 3 ≤ ordered.length)
    (hk : (ordered.map ClusterMeta.k).Pairwise (· ≤ ·)) (hrep : ¬ (ordered.map ClusterMeta.k).Nodup)
    {cost : ClusterMeta → Option K} (hcost : ∀ m ∈ ordered, metaDictGet m costs = .ok (cost m)) :
    findElbow costs ordered = .error .zeroDivisionError := by
  have hz : List.zip (ordered.map ClusterMeta.k) (ordered.map cost) =
      ordered.map fun m => (m.k, cost m) := by
    rw [List.zip_map', ]
  have key : ∀ (pts : List (Int × Option K)) (i : Nat) (best : Option K × Int), 3 ≤ pts.length →
      (pts.map Prod.fst).Pairwise (· ≤ ·) → ¬ (pts.map Prod.fst).Nodup →
      elbowLoop pts i best = .error .zeroDivisionError := by
    intro pts
    induction pts with
    | nil => intro i best h; simp at h
    | cons p1 l ih =>
      intro i best hl hs hn
      match l, ih, hl, hs, hn with
      | [], _, hl, _, _ => simp at hl
      | [_], _, hl, _, _ => simp at hl
      | p2 :: p3 :: rest, ih, hl, hs, hn =>
        rw [elbowLoop]
        obtain ⟨x1, y1⟩ := p1
        obtain ⟨x2, y2⟩ := p2
        obtain ⟨x3, y3⟩ := p3
        simp only [List.map_cons, List.pairwise_cons, List.mem_cons, forall_eq_or_imp] at hs
        by_cases e1 : x2 = x1
        · simp [secondDerivative, e1]
        · by_cases e2 : x3 = x2
          · have e3 : ¬ x2 - x1 = 0 := by omega
            simp [secondDerivative, e2, e3]
          · rw [secondDerivative_eq (by simp only; omega) (by simp only; omega)]
            simp only
            have hn' : ¬ (List.map Prod.fst ((x2, y2) :: (x3, y3) :: rest)).Nodup := by
              intro hh
              apply hn
              rw [List.map_cons, List.nodup_cons]
              refine ⟨?_, hh⟩
              intro hm
              simp only [List.map_cons, List.mem_cons] at hm
              rcases hm with hm | hm | hm
              · omega
              · omega
              · have := hs.2.2.1 x1 hm; omega
            match rest, ih, hn' with
            | [], _, hn' => simp [Ne.symm e2] at hn'
            | p4 :: rest', ih, hn' =>
              apply ih
              · simp
              · rw [List.map_cons, List.map_cons, List.pairwise_cons, List.pairwise_cons]
                exact ⟨by simpa using hs.2.1, hs.2.2⟩
              · exact hn'
  unfold findElbow
  rw [if_neg (by simpa using hlen), if_neg (by omega),
    mapM_ok (fun m => metaDictGet m costs) cost ordered hcost]
  simp only
  rw [hz, key _ _ _ (by simpa using h3) (by rw [List.map_map]; exact hk)
    (by rw [List.map_map]; exact hrep)]

/-! ### Elbows of a suite -/

variable {P : Type}

theorem organizeSuite_product {mode : Str} {initial : Option (List Int)} {maxIter : Nat}
    {ks seeds : List Int} (hks : ks ≠ []) (hseeds : seeds.Nodup) :
    organizeSuite (ks.flatMap fun k => seeds.map (kmMeta mode initial maxIter k)) =
      .ok (seeds.map fun s =>
        (s, (ks.insertionSort (· ≤ ·)).map fun k => kmMeta mode initial maxIter k s)) := by
  have hmap : (ks.flatMap fun k => seeds.map (kmMeta mode initial maxIter k)) =
      (ks.flatMap fun k => seeds.map fun s =>
        (⟨k, s, mode, initial, maxIter⟩ : KmMeta)).map .kmedoids := by
    simp [List.map_flatMap, Function.comp_def]
    rfl
  have hg := groupBySeed_eq
    (ks.flatMap fun k => seeds.map fun s => (⟨k, s, mode, initial, maxIter⟩ : KmMeta))
    (fun _ => []) [] List.nodup_nil (fun _ _ => rfl)
  simp only [List.map_nil, List.nil_append] at hg
  have hkeys : ((ks.flatMap fun k => seeds.map fun s =>
      (⟨k, s, mode, initial, maxIter⟩ : KmMeta)).map KmMeta.seed).foldl addKey [] = seeds := by
    cases ks with
    | nil => exact absurd rfl hks
    | cons k ks =>
      rw [List.flatMap_cons, List.map_append, List.foldl_append, List.map_map]
      have : seeds.map (KmMeta.seed ∘ fun s => (⟨k, s, mode, initial, maxIter⟩ : KmMeta)) = seeds := by
        conv_rhs => rw [← List.map_id seeds]
        rfl
      rw [this, foldl_addKey_new seeds [] (by simpa using hseeds), List.nil_append]
      apply foldl_addKey_subset
      intro s hs
      simp only [List.mem_map, List.mem_flatMap] at hs
      obtain ⟨m, ⟨k', _, t, ht, rfl⟩, rfl⟩ := hs
      exact ht
  rw [hkeys] at hg
  rw [organizeSuite, hmap, hg]
  simp only [List.map_map]
  congr 1
  apply List.map_congr_left
  intro s hs
  have hfil : ((ks.flatMap fun k => seeds.map fun s =>
      (⟨k, s, mode, initial, maxIter⟩ : KmMeta)).filter fun m => m.seed = s).map ClusterMeta.kmedoids =
      ks.map fun k => kmMeta mode initial maxIter k s := by
    clear hg hkeys hmap hks
    have hsfil : ∀ l : List Int, l.Nodup → s ∈ l → l.filter (fun t => t = s) = [s] := by
      intro l
      induction l with
      | nil => intro _ h; simp at h
      | cons t l ih =>
        intro hn hm
        have hn' := List.nodup_cons.1 hn
        by_cases hts : t = s
        · subst hts
          rw [List.filter_cons_of_pos (by simp), List.filter_eq_nil_iff.2]
          intro a ha
          simp only [decide_eq_true_eq]
          rintro rfl
          exact hn'.1 ha
        · rw [List.filter_cons_of_neg (by simpa using hts)]
          exact ih hn'.2 (by simpa [Ne.symm hts] using hm)
    induction ks with
    | nil => rfl
    | cons k ks ih =>
      rw [List.flatMap_cons, List.filter_append, List.map_append, ih, List.filter_map]
      have : (seeds.filter ((fun (m : KmMeta) => decide (m.seed = s)) ∘ fun s =>
          (⟨k, s, mode, initial, maxIter⟩ : KmMeta))) = [s] := hsfil seeds hseeds hs
      rw [this]
      rfl
  simp only [Function.comp]
  rw [hfil, sortByK_map (fun k => kmMeta mode initial maxIter k s) (fun _ => rfl)]

/-- **C53** (what the elbows of a suite are): with the costs of every clustering of a suite of
k-medoids clusterings with distinct ks and seeds, the elbow reported for each seed has the k of the
elbow of the *last* seed's costs (the largest k if its NaN costs leave no second derivative). -/
theorem C53_suite (p : ClusterMeta → P) (c : P → Option K) {mode : Str} {initial : Option (List Int)}
    {maxIter : Nat} {ks seeds : List Int} (hks : ks.Nodup) (h3 : 3 ≤ ks.length) (hseeds : seeds.Nodup)
    {last : Int} (hlast : seeds.getLast? = some last) :
    ∃ (i : Nat) (k : Int), (ks.insertionSort (· ≤ ·))[i]? = some k ∧
      ElbowPosition ((ks.insertionSort (· ≤ ·)).map fun k =>
        (k, c (p (.kmedoids ⟨k, last, mode, initial, maxIter⟩)))) i ∧
      calculateElbows (fun m => .ok (p m)) (fun q => .ok (c q))
        (ks.flatMap fun k => seeds.map fun s => .kmedoids ⟨k, s, mode, initial, maxIter⟩) =
        .ok (seeds.map fun s => (s, .kmedoids ⟨k, s, mode, initial, maxIter⟩)) := by
  obtain ⟨s0, ss, rfl⟩ : ∃ s0 ss, seeds = s0 :: ss := by
    cases seeds with
    | nil => simp at hlast
    | cons a l => exact ⟨a, l, rfl⟩
  set km := kmMeta mode initial maxIter with hkm
  have hparts := allPartitions_product (mode := mode) (initial := initial) (maxIter := maxIter)
    p s0 last ss hlast ks hks [] (by simp)
  rw [List.nil_append] at hparts
  have hcosts := allCosts_eq c (fun k => km k s0) (fun k => p (km k last))
    (fun k k' => kmMeta_pyEq mode initial maxIter k s0 k' s0) ks hks [] (by simp)
  rw [List.nil_append] at hcosts
  set sks := ks.insertionSort (· ≤ ·) with hsks
  have hperm : sks.Perm ks := List.perm_insertionSort _ _
  have hslen : sks.length = ks.length := hperm.length_eq
  have hsorted : sks.Pairwise (· < ·) := by
    have h1 : sks.Pairwise (· ≤ ·) := List.pairwise_insertionSort _ _
    have h2 : sks.Nodup := hperm.nodup_iff.2 hks
    exact (h1.and h2).imp fun h => lt_of_le_of_ne h.1 h.2
  have hget : ∀ s k, k ∈ ks →
      metaDictGet (km k s) (ks.map fun k => (km k s0, c (p (km k last)))) = .ok (c (p (km k last))) := by
    intro s k hk
    refine metaDictGet_map (fun k => km k s0) (fun k => c (p (km k last))) hk _ ?_
    intro k' _
    rw [hkm, kmMeta_pyEq, decide_eq_true_iff]
  have helbow : ∃ (i : Nat) (k : Int), sks[i]? = some k ∧
      ElbowPosition (sks.map fun k => (k, c (p (km k last)))) i ∧
      ∀ s, findElbow (ks.map fun k => (km k s0, c (p (km k last)))) (sks.map fun k => km k s) =
        .ok (km k s) := by
    obtain ⟨i, best, hi, hel, hloop, hb⟩ := elbowLoop_elbow
      (pts := sks.map fun k => (k, c (p (km k last))))
      (by rw [List.map_map]
          have : sks.map (Prod.fst ∘ fun k => (k, c (p (km k last)))) = sks := by
            conv_rhs => rw [← List.map_id sks]
            rfl
          rw [this]; exact hsorted)
      (by simp; omega)
    rw [List.length_map] at hi hb
    refine ⟨i, sks[i], by simp [hi], hel, ?_⟩
    intro s
    have hm : (sks.map fun k => km k s).mapM
        (fun m => metaDictGet m (ks.map fun k => (km k s0, c (p (km k last))))) =
        .ok (sks.map fun k => c (p (km k last))) := by
      have := mapM_ok
        (fun k => metaDictGet (km k s) (ks.map fun k => (km k s0, c (p (km k last)))))
        (fun k => c (p (km k last))) sks (fun k hk => hget s k (hperm.subset hk))
      rw [← this, List.mapM_map]; rfl
    unfold findElbow
    rw [if_neg (by simp [hslen]), if_neg (by simp; omega), hm]
    simp only
    have hz : List.zip ((sks.map fun k => km k s).map ClusterMeta.k) (sks.map fun k => c (p (km k last))) =
        sks.map fun k => (k, c (p (km k last))) := by
      rw [List.map_map, List.zip_map']
      rfl
    rw [hz, hloop]
    simp only
    rw [listAtInt_elbow (by simpa using hi) (by simpa using hb)]
    simp
  obtain ⟨i, k, hik, hel, hfind⟩ := helbow
  refine ⟨i, k, hik, hel, ?_⟩
  have hsuite : (ks.flatMap fun k => (s0 :: ss).map fun s =>
      ClusterMeta.kmedoids ⟨k, s, mode, initial, maxIter⟩) =
      ks.flatMap fun k => (s0 :: ss).map (km k) := rfl
  have hne : ks ≠ [] := by rintro rfl; simp at h3
  unfold calculateElbows
  rw [hsuite, hparts]
  simp only
  rw [hcosts]
  simp only
  unfold elbowsBySeed
  rw [organizeSuite_product hne hseeds]
  simp only
  have hloop : ∀ seeds : List Int,
      elbowsLoop (ks.map fun k => (km k s0, c (p (km k last))))
        (seeds.map fun s => (s, sks.map fun k => km k s)) =
      .ok (seeds.map fun s => (s, ClusterMeta.kmedoids ⟨k, s, mode, initial, maxIter⟩)) := by
    intro seeds
    induction seeds with
    | nil => rfl
    | cons s seeds ih =>
      have hm : (sks.map fun k => km k s).mapM
          (fun m => metaDictGet m (ks.map fun k => (km k s0, c (p (km k last))))) =
          .ok (sks.map fun k => c (p (km k last))) := by
        have := mapM_ok
          (fun k => metaDictGet (km k s) (ks.map fun k => (km k s0, c (p (km k last)))))
          (fun k => c (p (km k last))) sks (fun k hk => hget s k (hperm.subset hk))
        rw [← this, List.mapM_map]; rfl
      rw [List.map_cons, elbowsLoop, hm]
      simp only
      rw [hfind]
      simp only
      rw [ih]
      rfl
  exact hloop (s0 :: ss)

/-- **C53** (partial: the claim is for suites with any number of seeds). With one seed the elbow is
computed from that seed's own costs. -/
theorem C53_single_seed_partial (p : ClusterMeta → P) (c : P → K) {mode : Str}
    {initial : Option (List Int)} {maxIter : Nat} {ks : List Int} (hks : ks.Nodup) (h3 : 3 ≤ ks.length)
    (s : Int) :
    ∃ (i : Nat) (k : Int), (ks.insertionSort (· ≤ ·))[i]? = some k ∧
      IsElbow ((ks.insertionSort (· ≤ ·)).map fun k =>
        (k, some (c (p (.kmedoids ⟨k, s, mode, initial, maxIter⟩))))) i ∧
      calculateElbows (fun m => .ok (p m)) (fun q => .ok (some (c q)))
        (ks.map fun k => .kmedoids ⟨k, s, mode, initial, maxIter⟩) =
        .ok [(s, .kmedoids ⟨k, s, mode, initial, maxIter⟩)] := by
  obtain ⟨i, k, hk, hel, this⟩ := C53_suite p (fun q => some (c q)) (mode := mode) (initial := initial) (maxIter := maxIter) hks h3
    (seeds := [s]) (by simp) (last := s) rfl
  have e : (ks.flatMap fun k => [s].map fun s =>
      ClusterMeta.kmedoids ⟨k, s, mode, initial, maxIter⟩) =
      ks.map fun k => .kmedoids ⟨k, s, mode, initial, maxIter⟩ := by
    clear this hks h3 hk hel
    induction ks with
    | nil => rfl
    | cons k ks ih => rw [List.flatMap_cons, ih]; rfl
  rw [e] at this
  exact ⟨i, k, hk, hel.isElbow (by simpa using h3), this⟩

/-- Costs of k = 2, 3, 4, 5 for two seeds. The elbow is at k = 3 for seed 0, at k = 4 for seed 1. -/
def exampleCost : ClusterMeta → ℚ
  | .kmedoids m =>
    if m.seed = 0 then (if m.k = 2 then 9 else if m.k = 3 then 3 else if m.k = 4 then 2 else 1)
    else (if m.k = 2 then 9 else if m.k = 3 then 8 else if m.k = 4 then 3 else 2)
  | .regular _ => 0

/-- A list of costs has at most one elbow. -/
theorem IsElbow.unique {pts : List (Int × Option K)} {i j : Nat} (hi : IsElbow pts i) (hj : IsElbow pts j) : i = j := by
  obtain ⟨d, h1, h2, h3⟩ := hi
  obtain ⟨e, g1, g2, g3⟩ := hj
  rcases Nat.lt_trichotomy i j with h | h | h
  · exact absurd (g3 i d h h1) (not_lt.2 (h2 j e g1))
  · exact h
  · exact absurd (h3 j e h g1) (not_lt.2 (g2 i d h1))

/-- **C53** exactly (partial: the claim is for all costs): in a suite with several seeds each seed gets the elbow of its
own costs if and only if the elbow of the costs of the last seed is an elbow of the costs of every seed. -/
theorem C53_exactly_partial (p : ClusterMeta → P) (c : P → K) {mode : Str} {initial : Option (List Int)}
    {maxIter : Nat} {ks seeds : List Int} (hks : ks.Nodup) (h3 : 3 ≤ ks.length) (hseeds : seeds.Nodup)
    {last : Int} (hlast : seeds.getLast? = some last) :
    (∃ elbows, calculateElbows (fun m => .ok (p m)) (fun q => .ok (some (c q)))
        (ks.flatMap fun k => seeds.map fun s => .kmedoids ⟨k, s, mode, initial, maxIter⟩) = .ok elbows ∧
      ∀ s ∈ seeds, ∃ (i : Nat) (k : Int), (ks.insertionSort (· ≤ ·))[i]? = some k ∧
        IsElbow ((ks.insertionSort (· ≤ ·)).map fun k =>
          (k, some (c (p (.kmedoids ⟨k, s, mode, initial, maxIter⟩))))) i ∧
        (s, .kmedoids ⟨k, s, mode, initial, maxIter⟩) ∈ elbows) ↔
    ∀ s ∈ seeds, ∀ i, IsElbow ((ks.insertionSort (· ≤ ·)).map fun k =>
        (k, some (c (p (.kmedoids ⟨k, last, mode, initial, maxIter⟩))))) i →
      IsElbow ((ks.insertionSort (· ≤ ·)).map fun k =>
        (k, some (c (p (.kmedoids ⟨k, s, mode, initial, maxIter⟩))))) i := by
  obtain ⟨i, k, hik, hel, hcalc⟩ := C53_suite (mode := mode) (initial := initial) (maxIter := maxIter)
    p (fun q => some (c q)) hks h3 hseeds hlast
  have hnd : (ks.insertionSort (· ≤ ·)).Nodup := (List.perm_insertionSort _ _).nodup_iff.2 hks
  have hel' := ElbowPosition.isElbow (by rw [(List.perm_insertionSort _ ks).length_eq]; exact h3) hel
  constructor
  · rintro ⟨elbows, he, hall⟩ s hs j hj
    rw [hcalc] at he
    injection he with he
    obtain ⟨i', k', hik', hel2, hmem⟩ := hall s hs
    rw [← he, List.mem_map] at hmem
    obtain ⟨s', -, hs'⟩ := hmem
    simp only [Prod.mk.injEq, ClusterMeta.kmedoids.injEq, KmMeta.mk.injEq] at hs'
    have hkk : k = k' := hs'.2.1
    subst hkk
    have hii : i' = i := by
      have a1 := List.getElem?_eq_some_iff.1 hik'
      have a2 := List.getElem?_eq_some_iff.1 hik
      obtain ⟨b1, c1⟩ := a1
      obtain ⟨b2, c2⟩ := a2
      exact (hnd.getElem_inj_iff).1 (c1.trans c2.symm)
    rw [IsElbow.unique hj hel', ← hii]
    exact hel2
  · intro h
    exact ⟨_, hcalc, fun s hs => ⟨i, k, hik, h s hs i hel', List.mem_map.2 ⟨s, hs, rfl⟩⟩⟩

/-- **C53** is refuted for suites with two seeds: the costs of seed 0 have their elbow at k = 3
(position 1), but k = 4 is reported. -/
theorem C53_two_seeds_refuted :
    IsElbow [((2 : Int), some (9 : ℚ)), (3, some 3), (4, some 2), (5, some 1)] 1 ∧
    ¬ IsElbow [((2 : Int), some (9 : ℚ)), (3, some 3), (4, some 2), (5, some 1)] 2 ∧
    (createSuite sKmedoids { ks := some [2, 3, 4, 5], seeds := .many [0, 1] }).bind
      (calculateElbows (fun m => .ok m) (fun m => .ok (some (exampleCost m)))) =
      .ok [(0, .kmedoids { k := 4, seed := 0 }), (1, .kmedoids { k := 4, seed := 1 })] := by
  have h1 : curvatureAt [((2 : Int), some (9 : ℚ)), (3, some 3), (4, some 2), (5, some 1)] 1 = some 5 := by decide +kernel
  have h2 : curvatureAt [((2 : Int), some (9 : ℚ)), (3, some 3), (4, some 2), (5, some 1)] 2 = some 0 := by decide +kernel
  have h3 : ∀ j e, curvatureAt [((2 : Int), some (9 : ℚ)), (3, some 3), (4, some 2), (5, some 1)] j = some e →
      (j = 1 ∧ e = 5) ∨ (j = 2 ∧ e = 0) := by
    intro j e h
    match j, h with
    | 0, h => cases h
    | 1, h => left; rw [h1] at h; exact ⟨rfl, (Option.some.inj h).symm⟩
    | 2, h => right; rw [h2] at h; exact ⟨rfl, (Option.some.inj h).symm⟩
    | 3, h => simp [curvatureAt] at h
    | j + 4, h => simp [curvatureAt] at h
  refine ⟨⟨5, h1, ?_, ?_⟩, ?_, by decide +kernel⟩
  · intro j e h
    rcases h3 j e h with ⟨_, rfl⟩ | ⟨_, rfl⟩ <;> norm_num
  · intro j e hj h
    rcases h3 j e h with ⟨rfl, _⟩ | ⟨rfl, _⟩ <;> omega
  · rintro ⟨d, hd, hmax, _⟩
    rw [h2] at hd
    have := hmax 1 5 h1
    rw [← Option.some.inj hd] at this
    norm_num at this

/-- Two seeds with the same costs: both get the elbow of their own costs. -/
example : ∃ elbows, calculateElbows (K := ℚ) (fun m => .ok m) (fun m => .ok (some ((m.k : ℚ) ^ 2)))
      ([5, 2, 3].flatMap fun k => [1, 0].map fun s => .kmedoids ⟨k, s, sKmedoids, none, 10⟩) = .ok elbows ∧
    ∀ s ∈ [(1 : Int), 0], ∃ (i : Nat) (k : Int), (([5, 2, 3] : List Int).insertionSort (· ≤ ·))[i]? = some k ∧
      IsElbow ((([5, 2, 3] : List Int).insertionSort (· ≤ ·)).map fun k => (k, some ((k : ℚ) ^ 2))) i ∧
      (s, .kmedoids ⟨k, s, sKmedoids, none, 10⟩) ∈ elbows :=
  (C53_exactly_partial id (fun m => (m.k : ℚ) ^ 2) (by decide) (by decide) (by decide) rfl).2
    fun _ _ _ h => h

/-- With only seed 0 the elbow is k = 3. -/
example : (createSuite sKmedoids { ks := some [2, 3, 4, 5], seeds := .single 0 }).bind
      (calculateElbows (fun m => .ok m) (fun m => .ok (some (exampleCost m)))) =
      .ok [(0, .kmedoids { k := 3, seed := 0 })] := by decide +kernel

end

end Spta
