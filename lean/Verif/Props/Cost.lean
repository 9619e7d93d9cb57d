import Mathlib.Algebra.Order.BigOperators.Group.List
import Mathlib.Algebra.Order.Ring.Defs
import Mathlib.Tactic.Linarith
import Mathlib.Tactic.Positivity
import Verif.Lemmas.Cluster
import Verif.Lemmas.Except
import Verif.Lemmas.Util
import Verif.Model.Cost
import Verif.Model.Train
import Verif.Props.Extrema
import Verif.Props.KMedoids
import Verif.Spec.Cost

/-!
# C74–C76: mean of the past, best silhouette, intra-cluster cost
-/

namespace Spta

set_option linter.unusedSectionVars false

variable {α K : Type} [Field K] [LinearOrder K] [IsStrictOrderedRing K]

/-! ### C74 -/

theorem pySlice_last {A : Type} (l : List A) (past : Nat) :
    pySlice l (-(past : Int)) l.length =
      if past = 0 then l else l.drop (l.length - past) := by
  have hb : pyBound l.length (l.length : Int) = l.length := by
    simp [pyBound]
  unfold pySlice
  rw [hb, List.take_length]
  by_cases h : past = 0
  · subst h; simp [pyBound]
  · rw [if_neg h]
    have : -(past : Int) < 0 := by omega
    unfold pyBound
    rw [if_pos this]
    congr 1
    omega

/-- **C74**: the model trained on a series is the mean of its last `past` samples; of all samples if
`past` is 0 or larger than the length. The forecast is this mean at every step. -/
theorem C74_mean_of_past (past : Nat) (series last : List K) (hne : series ≠ [])
    (hsuffix : ∃ front, series = front ++ last)
    (hlen : last.length = if past = 0 then series.length else min past series.length) :
    ∃ mean : K, mean * (last.length : K) = last.sum ∧
      meanOfPast past (series.map some) = .ok (some (some mean)) ∧
      ∀ n, forecastOf repeatMean n (some (some mean)) = .ok (List.replicate n (some mean)) := by
  obtain ⟨front, rfl⟩ := hsuffix
  have hpos : 0 < (front ++ last).length := List.length_pos_iff.2 hne
  have hl : last ≠ [] := by
    intro h
    subst h
    simp only [List.length_nil, List.append_nil] at hlen hpos
    split at hlen <;> omega
  have hl0 : (last.length : K) ≠ 0 := by
    have := List.length_pos_iff.2 hl
    exact_mod_cast this.ne'
  refine ⟨last.sum / last.length, div_mul_cancel₀ _ hl0, ?_, fun _ => rfl⟩
  have hs : pySlice ((front ++ last).map some) (-(past : Int)) ((front ++ last).map some).length =
      last.map some := by
    rw [pySlice_last]
    simp only [List.length_append] at hlen
    split
    · rename_i h0
      rw [if_pos h0] at hlen
      have : front = [] := List.length_eq_zero_iff.1 (by omega)
      rw [this]; rfl
    · rename_i h0
      rw [if_neg h0] at hlen
      rw [List.map_append, List.drop_append_of_le_length (by simp; omega)]
      have : (List.map some front).drop ((List.map some front ++ List.map some last).length - past) = [] := by
        apply List.drop_of_length_le
        simp; omega
      rw [this]; rfl
  unfold meanOfPast
  rw [hs, floatMean_some hl]

/-- **C74** (range): the mean lies between the bounds of the samples used. -/
theorem C74_mean_bounded (past : Nat) (series : List K) (hne : series ≠ []) (lo hi : K)
    (h : ∀ x ∈ series, lo ≤ x ∧ x ≤ hi) :
    ∃ mean, meanOfPast past (series.map some) = .ok (some (some mean)) ∧ lo ≤ mean ∧ mean ≤ hi := by
  let n := if past = 0 then series.length else min past series.length
  have hn : n ≤ series.length := by simp only [n]; split <;> omega
  have hlen : (series.drop (series.length - n)).length = n := by simp; omega
  obtain ⟨mean, h1, h2, _⟩ := C74_mean_of_past past series (series.drop (series.length - n)) hne
    ⟨series.take (series.length - n), (List.take_append_drop _ _).symm⟩ hlen
  refine ⟨mean, h2, ?_⟩
  have hpos : 0 < n := by
    have := List.length_pos_iff.2 hne
    simp only [n]; split <;> omega
  have hpos' : (0 : K) < (n : K) := by exact_mod_cast hpos
  rw [hlen] at h1
  have hmem : ∀ x ∈ series.drop (series.length - n), lo ≤ x ∧ x ≤ hi :=
    fun x hx => h x (List.mem_of_mem_drop hx)
  have hlo := List.card_nsmul_le_sum _ lo fun x hx => (hmem x hx).1
  have hhi := List.sum_le_card_nsmul _ hi fun x hx => (hmem x hx).2
  rw [hlen, nsmul_eq_mul, ← h1] at hlo
  rw [hlen, nsmul_eq_mul, ← h1] at hhi
  exact ⟨le_of_mul_le_mul_left (by linarith) hpos', le_of_mul_le_mul_left (by linarith) hpos'⟩

/-- **C74** (NaN): a NaN among the last samples, or an empty series, gives a NaN model and forecasts;
a NaN before them has no influence. -/
theorem C74_mean_nan (past : Nat) (hp : 0 < past) (front last : List (Option K))
    (hlen : last.length = past) :
    (none ∈ last → meanOfPast past (front ++ last) = .ok (some none)) ∧
    meanOfPast past (front ++ last) = meanOfPast past last ∧
    meanOfPast (K := K) past [] = .ok (some none) := by
  have hs : ∀ f : List (Option K), pySlice (f ++ last) (-(past : Int)) (f ++ last).length = last := by
    intro f
    rw [pySlice_last, if_neg (by omega)]
    simp [hlen]
  refine ⟨fun hn => ?_, ?_, ?_⟩
  · unfold meanOfPast
    rw [hs, floatMean_none hn]
  · have := hs []
    unfold meanOfPast
    rw [hs front]
    simp only [List.nil_append] at this
    rw [this]
  · simp [meanOfPast, pySlice, floatMean, floatSum, floatDiv]

example : meanOfPast 2 ([some 10, some 1, some 2] : List (Option ℚ)) = .ok (some (some (3 / 2))) ∧
    meanOfPast 0 ([some 3, some 1, some 2] : List (Option ℚ)) = .ok (some (some 2)) ∧
    meanOfPast 7 ([some 3, none] : List (Option ℚ)) = .ok (some none) := by decide +kernel

/-! ### C75 -/

theorem BestScore.of_strictBest {A : Type} (scores : List (A × Option K)) :
    BestScore scores ((strictBest (· > ·) scores (none, -1)).2,
      (strictBest (· > ·) scores (none, -1)).1) := by
  rcases strictBest_spec (V := K) (· > ·) (fun _ _ _ h h' => lt_trans h' h)
    (fun a b h1 h2 => le_antisymm (not_lt.1 h1) (not_lt.1 h2)) scores (none, -1) with
    ⟨h1, h2⟩ | ⟨pre, i, m, post, h1, h2, h3, h4, h5⟩
  · rw [h1]
    exact ⟨rfl, fun e he s hs => not_lt.1 (h2 e he s hs)⟩
  · rw [h2]
    exact ⟨h3, pre, post, h1, h4, fun e he s hs => not_lt.1 (h5 e he s hs)⟩

section

variable {P : Type} {partitionOf : ClusterMeta → Except PyErr P} {score : P → Except PyErr (Option K)}

theorem silhouetteLoop_eq (sc : ClusterMeta → Option K) : ∀ (suite : List ClusterMeta)
    (best : K × Option ClusterMeta),
    (∀ m ∈ suite, ∃ p, partitionOf m = .ok p ∧ score p = .ok (sc m)) →
    silhouetteLoop partitionOf score suite best =
      .ok ((strictBest (· > ·) (suite.map fun m => (m, sc m)) (best.2, best.1)).2,
        (strictBest (· > ·) (suite.map fun m => (m, sc m)) (best.2, best.1)).1) := by
  intro suite
  induction suite with
  | nil => intro best _; rfl
  | cons m ms ih =>
    intro best h
    obtain ⟨p, hp, hs⟩ := h m (by simp)
    have ih := fun b => ih b fun m' hm' => h m' (by simp [hm'])
    rw [List.map_cons]
    cases hsc : sc m with
    | none =>
      rw [hsc] at hs
      simp only [silhouetteLoop, hp, hs, strictBest, ih]
    | some s =>
      rw [hsc] at hs
      simp only [silhouetteLoop, hp, hs, strictBest, ih]
      split <;> rfl

/-- **C75** (suites): the analysis of a suite returns the highest silhouette score and the first
algorithm of the suite that has it; no algorithm (and -1) exactly when no score is above -1. -/
theorem C75_suite_best (suite : List ClusterMeta) (sc : ClusterMeta → Option K)
    (h : ∀ m ∈ suite, ∃ p, partitionOf m = .ok p ∧ score p = .ok (sc m)) :
    ∃ res, performAnalysis partitionOf score suite = .ok res ∧
      BestScore (suite.map fun m => (m, sc m)) res :=
  ⟨_, silhouetteLoop_eq sc suite (-1, none) h, BestScore.of_strictBest _⟩

/-- **C75** (failures): the first algorithm of the suite that cannot be analysed ends the analysis with
its exception. -/
theorem C75_suite_error (pre post : List ClusterMeta) (m : ClusterMeta) (sc : ClusterMeta → Option K)
    (h : ∀ m ∈ pre, ∃ p, partitionOf m = .ok p ∧ score p = .ok (sc m)) (e : PyErr)
    (he : partitionOf m = .error e ∨ ∃ p, partitionOf m = .ok p ∧ score p = .error e) :
    performAnalysis partitionOf score (pre ++ m :: post) = .error e := by
  unfold performAnalysis
  generalize ((-1 : K), (none : Option ClusterMeta)) = best
  induction pre generalizing best with
  | nil =>
    rcases he with he | ⟨p, hp, he⟩
    · simp [silhouetteLoop, he]
    · simp [silhouetteLoop, hp, he]
  | cons a pre ih =>
    obtain ⟨p, hp, hs⟩ := h a (by simp)
    have ih := fun b => ih (fun m' hm' => h m' (by simp [hm'])) b
    simp only [List.cons_append, silhouetteLoop, hp, hs]
    cases sc a with
    | none => exact ih _
    | some s => exact ih _

end

/-- Scores by number of clusters: the first of two highest scores wins, NaN is ignored. -/
example : performAnalysis (K := ℚ) (fun m => .ok m.k)
    (fun k => .ok (if k = 2 then some (1 / 2) else if k = 3 then none else some (3 / 4)))
    [.regular 2, .regular 3, .regular 4, .regular 5] = .ok (3 / 4, some (.regular 4)) := by
  decide +kernel

section

variable {run : Nat → Int → Option (List Nat) → Except PyErr (List Nat × List Nat)}
  {score : List Nat → Except PyErr (Option K)}

/-- The variables of the analysis after a pair `(seed, k)` became the best one. -/
def bestVars (found : Int × Nat → List Nat × List Nat) : K × Option (Int × Nat) → SilhouetteBest K
  | (v, none) => ⟨v, 0, none, none, none⟩
  | (v, some sk) => ⟨v, sk.2, some sk.1, some (found sk).1, some (found sk).2⟩

theorem bestVars_avg (found : Int × Nat → List Nat × List Nat) (b : K × Option (Int × Nat)) :
    (bestVars found b).avg = b.1 := by
  obtain ⟨v, o⟩ := b
  cases o <;> rfl

theorem strictBest_append {ι V : Type} (lt : V → V → Prop) [DecidableRel lt]
    (a b : List (ι × Option V)) (s : Option ι × V) :
    strictBest lt (a ++ b) s = strictBest lt b (strictBest lt a s) := by
  induction a generalizing s with
  | nil => rfl
  | cons x a ih =>
    obtain ⟨i, o⟩ := x
    cases o with
    | none => exact ih s
    | some v =>
      simp only [List.cons_append, strictBest]
      split <;> exact ih _

theorem silhouetteInner_eq (md : SilhouetteMeta) (found : Int × Nat → List Nat × List Nat)
    (sc : Int × Nat → Option K) (seed : Int) : ∀ (ks : List Nat) (b : Option (Int × Nat) × K),
    (∀ k ∈ ks, run k seed (silhouetteInitial md k) = .ok (found (seed, k)) ∧
      score (found (seed, k)).2 = .ok (sc (seed, k))) →
    silhouetteInner run score md seed ks (bestVars found (b.2, b.1)) =
      .ok (bestVars found
        ((strictBest (· > ·) ((ks.map fun k => (seed, k)).map fun sk => (sk, sc sk)) b).2,
        (strictBest (· > ·) ((ks.map fun k => (seed, k)).map fun sk => (sk, sc sk)) b).1)) := by
  intro ks
  induction ks with
  | nil => intro b _; rfl
  | cons k ks ih =>
    intro b h
    obtain ⟨h1, h2⟩ := h k (by simp)
    have ih := fun b => ih b fun k' hk' => h k' (by simp [hk'])
    have e : found (seed, k) = ((found (seed, k)).1, (found (seed, k)).2) := rfl
    rw [List.map_cons, List.map_cons]
    cases hsc : sc (seed, k) with
    | none =>
      rw [hsc] at h2
      rw [e] at h1
      simp only [silhouetteInner, silhouetteStep, h1, h2, strictBest, ih]
    | some s =>
      rw [hsc] at h2
      rw [e] at h1
      simp only [silhouetteInner, silhouetteStep, h1, h2, strictBest, bestVars_avg]
      split
      · exact ih (some (seed, k), s)
      · exact ih b

theorem silhouetteOuter_eq (md : SilhouetteMeta) (found : Int × Nat → List Nat × List Nat)
    (sc : Int × Nat → Option K) : ∀ (seeds : List Int) (b : Option (Int × Nat) × K),
    (∀ s ∈ seeds, ∀ k ∈ md.kValues, run k s (silhouetteInitial md k) = .ok (found (s, k)) ∧
      score (found (s, k)).2 = .ok (sc (s, k))) →
    silhouetteOuter run score md seeds (bestVars found (b.2, b.1)) =
      .ok (bestVars found
        ((strictBest (· > ·) ((seeds.flatMap fun s => md.kValues.map fun k => (s, k)).map
          fun sk => (sk, sc sk)) b).2,
        (strictBest (· > ·) ((seeds.flatMap fun s => md.kValues.map fun k => (s, k)).map
          fun sk => (sk, sc sk)) b).1)) := by
  intro seeds
  induction seeds with
  | nil => intro b _; rfl
  | cons s seeds ih =>
    intro b h
    rw [List.flatMap_cons, List.map_append, strictBest_append]
    simp only [silhouetteOuter, silhouetteInner_eq md found sc s md.kValues b (h s (by simp))]
    exact ih _ fun s' hs' => h s' (by simp [hs'])

/-- **C75** (k-medoids over seeds and numbers of clusters): the first pair in seed-major order whose
clustering has the highest silhouette score above -1 is returned, with the medoids and labels of that
very clustering; each clustering with `k` clusters starts from the first `k` initial medoids, if
provided. -/
theorem C75_seeds_best (md : SilhouetteMeta) (found : Int × Nat → List Nat × List Nat)
    (sc : Int × Nat → Option K)
    (h : ∀ s ∈ md.seedValues, ∀ k ∈ md.kValues,
      run k s (md.initial.map (List.take k)) = .ok (found (s, k)) ∧
      score (found (s, k)).2 = .ok (sc (s, k))) :
    ∃ v best, BestScore ((md.seedValues.flatMap fun s => md.kValues.map fun k => (s, k)).map
        fun sk => (sk, sc sk)) (v, best) ∧
      doSilhouetteAnalysis run score md = .ok (match best with
        | none => (0, none, none, none)
        | some (s, k) => (k, some s, some (found (s, k)).1, some (found (s, k)).2)) := by
  have hi : ∀ k, silhouetteInitial md k = md.initial.map (List.take k) := by
    intro k
    unfold silhouetteInitial
    cases md.initial with
    | none => rfl
    | some is =>
      have h0 : ¬ ((k : Int) < 0) := by omega
      simp only [Option.map_some, Option.some.injEq, pySlice, pyBound, if_neg h0]
      simp
  refine ⟨_, _, BestScore.of_strictBest _, ?_⟩
  have := silhouetteOuter_eq md found sc md.seedValues (none, -1)
    (fun s hs k hk => by rw [hi k]; exact h s hs k hk)
  unfold doSilhouetteAnalysis
  rw [show (⟨-1, 0, none, none, none⟩ : SilhouetteBest K) = bestVars found (-1, none) from rfl, this]
  simp only
  split
  · rename_i he; rw [he]; rfl
  · rename_i s k he; rw [he]; rfl

/-- Two seeds and two numbers of clusters; the label list tells the clustering. -/
example : doSilhouetteAnalysis (K := ℚ) (fun k s i => .ok (i.getD [], [k, s.toNat]))
    (fun l => .ok (if l = [2, 1] then some (1 / 2) else if l = [3, 2] then some (1 / 2) else some 0))
    ⟨[2, 3], [1, 2], .lite, some [7, 8, 9], 10⟩ = .ok (2, some 1, some [7, 8], some [2, 1]) := by
  decide +kernel

end

/-! ### C76 -/

/-- Summing over the classes of a labelling. -/
theorem sum_classes {ι : Type} (l : List ι) (lab : ι → Nat) (F : ι → K) (k : Nat)
    (h : ∀ p ∈ l, lab p < k) :
    ((List.range k).map fun i => ((l.filter fun p => lab p == i).map F).sum).sum = (l.map F).sum := by
  induction l with
  | nil => simp
  | cons a l ih =>
    have hone : ∀ k, lab a < k →
        ((List.range k).map fun i => if lab a = i then F a else 0).sum = F a := by
      intro k
      induction k with
      | zero => omega
      | succ k ihk =>
        intro hk
        rw [List.range_succ, List.map_append, List.sum_append]
        rcases Nat.lt_or_ge (lab a) k with hlt | hge
        · rw [ihk hlt]
          simp only [List.map_cons, List.map_nil, List.sum_cons, List.sum_nil]
          rw [if_neg (by omega)]; simp
        · have e : lab a = k := by omega
          have hz : (List.range k).map (fun i => if lab a = i then F a else 0) =
              List.replicate k 0 := by
            apply List.ext_getElem
            · simp
            · intro n h1 h2
              simp only [List.length_map, List.length_range] at h1
              simp only [List.getElem_map, List.getElem_range, List.getElem_replicate]
              rw [if_neg (by omega)]
          rw [hz]; simp [e]
    have hsplit : ∀ i, (((a :: l).filter fun p => lab p == i).map F).sum =
        (if lab a = i then F a else 0) + ((l.filter fun p => lab p == i).map F).sum := by
      intro i
      rw [List.filter_cons]
      by_cases e : lab a = i <;> simp [e]
    have hsum : ∀ (L : List Nat) (f g : Nat → K),
        (L.map fun i => f i + g i).sum = (L.map f).sum + (L.map g).sum := by
      intro L f g
      induction L with
      | nil => simp
      | cons b L ihL => simp only [List.map_cons, List.sum_cons, ihL]; ring
    simp only [hsplit]
    rw [hsum, hone k (h a (by simp)), ih fun p hp => h p (by simp [hp])]
    simp

theorem createClustersWithMedoids_eq (pt : Partition) (g : Grid α) (ms : List Point)
    (sx : pt.labels.xLen = g.xLen) (sy : pt.labels.yLen = g.yLen) (hms : pt.k ≤ ms.length) :
    pt.createClustersWithMedoids g ms = .ok ((List.range pt.k).map fun i => ⟨g, pt, i, 0⟩) := by
  apply mapM_ok
  intro i hi
  have hlt : i < ms.length := lt_of_lt_of_le (List.mem_range.1 hi) hms
  simp [Partition.clusterWithMedoid, Partition.createCluster, sx, sy, List.getElem?_eq_getElem hlt]

/-- The squared distances of the cluster `i` add up. -/
theorem costLoop_eq (pt : Partition) (hp : pt.Valid) (g : Grid α) (hg : g.WF)
    (sx : pt.labels.xLen = g.xLen) (sy : pt.labels.yLen = g.yLen) (ms : List Point)
    (m : Grid (Option K)) (f : Point → Option K)
    (hf : ∀ (p : Point) (l : Nat) (md : Point), p.x < g.xLen → p.y < g.yLen →
      pt.labels.get p = .ok l → ms[l]? = some md →
      m.get ⟨md.x * g.yLen + md.y, p.x * g.yLen + p.y⟩ = .ok (f p)) :
    ∀ (is : List Nat) (i : Nat) (total : Option K), is = List.range' i is.length →
      i + is.length ≤ ms.length →
      costLoop m g.yLen ms (is.map fun j => (⟨g, pt, j, 0⟩ : ClusterObj α)) i total =
        .ok ((is.map fun j => sumSquared
          (((rowMajor g.xLen g.yLen).filter (pt.has j)).map f)).foldl (liftOp (· + ·)) total) := by
  intro is
  induction is with
  | nil => intro i total _ _; rfl
  | cons j is ih =>
    intro i total hr hle
    rw [List.length_cons, List.range'_succ] at hr
    injection hr with hj hr
    subst hj
    rw [List.length_cons] at hle
    have hlt : j < ms.length := by omega
    obtain ⟨items, h1, h2⟩ := (⟨g, pt, j, 0⟩ : ClusterObj α).loop_eq ⟨hg, hp.wf, sx, sy⟩
    simp only [pointsFrom_zero] at h1 h2
    have h3 : distancesToPointWithMatrix m g.yLen ms[j]
        (items.map fun it => it.1.x * g.yLen + it.1.y) =
        .ok (((rowMajor g.xLen g.yLen).filter (pt.has j)).map f) := by
      unfold distancesToPointWithMatrix
      have e : (items.map fun it => it.1.x * g.yLen + it.1.y) =
          ((rowMajor g.xLen g.yLen).filter (pt.has j)).map fun p => p.x * g.yLen + p.y := by
        rw [← h2.1, List.map_map]; rfl
      rw [e]
      have : ∀ (ps : List Point), (∀ p ∈ ps, p ∈ (rowMajor g.xLen g.yLen).filter (pt.has j)) →
          (ps.map fun p => p.x * g.yLen + p.y).mapM
            (fun j' => m.get ⟨ms[j].x * g.yLen + ms[j].y, j'⟩) = .ok (ps.map f) := by
        intro ps
        induction ps with
        | nil => intro _; rfl
        | cons p ps ihp =>
          intro hps
          have hp1 := List.mem_filter.1 (hps p (by simp))
          have hp2 := mem_rowMajor.1 hp1.1
          rw [List.map_cons, List.mapM_cons, hf p j ms[j] hp2.1 hp2.2 ((pt.has_iff _ _).1 hp1.2)
            (List.getElem?_eq_getElem hlt), ihp fun q hq => hps q (by simp [hq])]
          rfl
      exact this _ fun _ h => h
    simp only [List.map_cons, costLoop, List.getElem?_eq_getElem hlt, h1, h3, List.foldl_cons]
    exact ih (j + 1) _ hr (by omega)

theorem foldl_liftOp_some (l : List K) (t : K) :
    (l.map some).foldl (liftOp (· + ·)) (some t) = some (t + l.sum) := by
  induction l generalizing t with
  | nil => simp
  | cons a l ih =>
    simp only [List.map_cons, List.foldl_cons, liftOp, ih, List.sum_cons]
    congr 1; ring

theorem foldl_liftOp_none (l : List (Option K)) (t : Option K) (h : t = none ∨ none ∈ l) :
    l.foldl (liftOp (· + ·)) t = none := by
  induction l generalizing t with
  | nil => simpa using h
  | cons a l ih =>
    rw [List.foldl_cons]
    apply ih
    rcases h with rfl | h
    · left; rfl
    · rcases List.mem_cons.1 h with rfl | h
      · left; cases t <;> rfl
      · exact Or.inr h

theorem sumSquared_some (l : List Point) (f : Point → K) :
    sumSquared (l.map fun p => some (f p)) = some (l.map fun p => f p ^ 2).sum := by
  have : squared (l.map fun p => some (f p)) = (l.map fun p => f p ^ 2).map some := by
    simp only [squared, List.map_map]
    apply List.map_congr_left
    intro p _
    simp [liftOp, pow_two]
  unfold sumSquared
  rw [this, floatSum_some]

/-- **C76**: the intra-cluster cost of a partition with medoids is the sum, over all points of the
region, of the square of the distance from the medoid of the cluster of the point; NaN exactly if one of
these distances is NaN. -/
theorem C76_intra_cluster_cost (pt : Partition) (hp : pt.Valid) (g : Grid α) (hg : g.WF)
    (sx : pt.labels.xLen = g.xLen) (sy : pt.labels.yLen = g.yLen) (ms : List Point)
    (hms : pt.k ≤ ms.length) (m : Grid (Option K)) :
    (∀ f : Point → K, (∀ (p : Point) (l : Nat) (md : Point), p.x < g.xLen → p.y < g.yLen →
        pt.labels.get p = .ok l → ms[l]? = some md →
        m.get ⟨md.x * g.yLen + md.y, p.x * g.yLen + p.y⟩ = .ok (some (f p))) →
      intraClusterCost pt (some ms) g m =
        .ok (some ((rowMajor g.xLen g.yLen).map fun p => f p ^ 2).sum)) ∧
    (∀ f : Point → Option K, (∀ (p : Point) (l : Nat) (md : Point), p.x < g.xLen → p.y < g.yLen →
        pt.labels.get p = .ok l → ms[l]? = some md →
        m.get ⟨md.x * g.yLen + md.y, p.x * g.yLen + p.y⟩ = .ok (f p)) →
      (∃ p : Point, p.x < g.xLen ∧ p.y < g.yLen ∧ f p = none) →
      intraClusterCost pt (some ms) g m = .ok none) := by
  have hr : List.range pt.k = List.range' 0 (List.range pt.k).length := by
    simp [List.range_eq_range']
  constructor
  · intro f hf
    unfold intraClusterCost
    simp only [createClustersWithMedoids_eq pt g ms sx sy hms]
    rw [costLoop_eq pt hp g hg sx sy ms m (fun p => some (f p)) hf (List.range pt.k) 0 (some 0) hr
      (by simpa using hms)]
    have hlab : ∀ p ∈ rowMajor g.xLen g.yLen, ∃ l, pt.labels.get p = .ok l := fun p hpm => by
      have := mem_rowMajor.1 hpm
      exact pt.labels.exists_get hp.wf (by rw [sx]; exact this.1) (by rw [sy]; exact this.2)
    let lab : Point → Nat := fun p => match pt.labels.get p with
      | .ok l => l
      | .error _ => 0
    have hfil : ∀ i, (rowMajor g.xLen g.yLen).filter (pt.has i) =
        (rowMajor g.xLen g.yLen).filter fun p => lab p == i := by
      intro i
      apply List.filter_congr
      intro p hpm
      obtain ⟨l, hl⟩ := hlab p hpm
      simp [Partition.has, lab, hl, Bool.beq_eq_decide_eq]
    have hmap : ((List.range pt.k).map fun j => sumSquared
          (((rowMajor g.xLen g.yLen).filter (pt.has j)).map fun p => some (f p))) =
        ((List.range pt.k).map fun i =>
          (((rowMajor g.xLen g.yLen).filter fun p => lab p == i).map fun p => f p ^ 2).sum).map some := by
      rw [List.map_map]
      apply List.map_congr_left
      intro i _
      rw [sumSquared_some, hfil]; rfl
    rw [hmap, foldl_liftOp_some, sum_classes _ lab (fun p => f p ^ 2) pt.k, zero_add]
    intro p hpm
    obtain ⟨l, hl⟩ := hlab p hpm
    simp only [lab, hl]
    exact hp.get_lt hl
  · rintro f hf ⟨p, hx, hy, hn⟩
    unfold intraClusterCost
    simp only [createClustersWithMedoids_eq pt g ms sx sy hms]
    rw [costLoop_eq pt hp g hg sx sy ms m f hf (List.range pt.k) 0 (some 0) hr
      (by simpa using hms)]
    rw [foldl_liftOp_none]
    right
    obtain ⟨l, hl⟩ := pt.labels.exists_get hp.wf (p := p) (by rw [sx]; exact hx) (by rw [sy]; exact hy)
    refine List.mem_map.2 ⟨l, List.mem_range.2 (hp.get_lt hl), ?_⟩
    unfold sumSquared
    apply floatSum_none
    unfold squared
    refine List.mem_map.2 ⟨none, List.mem_map.2 ⟨p, List.mem_filter.2 ⟨mem_rowMajor.2 ⟨hx, hy⟩,
      (pt.has_iff _ _).2 hl⟩, hn⟩, rfl⟩

/-- **C76** (rejected inputs): without medoids, with fewer medoids than clusters, or with a region of
another shape there is no cost. -/
theorem C76_rejected (pt : Partition) (hk : 0 < pt.k) (g : Grid α) (m : Grid (Option K)) :
    intraClusterCost pt none g m = .error .attributeError ∧
    (∀ ms, ¬ (pt.labels.xLen = g.xLen ∧ pt.labels.yLen = g.yLen) →
      intraClusterCost pt (some ms) g m = .error .assertionError) ∧
    (∀ ms, (pt.labels.xLen = g.xLen ∧ pt.labels.yLen = g.yLen) → ms ≠ [] → ms.length < pt.k →
      intraClusterCost pt (some ms) g m = .error .indexError) ∧
    ((pt.labels.xLen = g.xLen ∧ pt.labels.yLen = g.yLen) →
      intraClusterCost pt (some []) g m = .error .indexError) := by
  obtain ⟨k, hk'⟩ : ∃ k, pt.k = k + 1 := ⟨pt.k - 1, by omega⟩
  refine ⟨rfl, ?_, ?_, ?_⟩
  · intro ms hs
    have : pt.createClustersWithMedoids g ms = .error .assertionError := by
      unfold Partition.createClustersWithMedoids
      rw [hk', List.range_succ_eq_map, List.mapM_cons]
      simp only [Partition.clusterWithMedoid, Partition.createCluster, if_neg hs]
      rfl
    simp only [intraClusterCost, this]
  · intro ms hs hne hlt
    have : pt.createClustersWithMedoids g ms = .error .indexError := by
      unfold Partition.createClustersWithMedoids
      have hsplit : List.range pt.k = List.range ms.length ++
          ms.length :: List.range' (ms.length + 1) (pt.k - ms.length - 1) := by
        have h1 : pt.k = ms.length + (pt.k - ms.length - 1 + 1) := by omega
        rw [← List.range'_succ]
        conv_lhs => rw [h1]
        rw [List.range_eq_range', List.range_eq_range', ← List.range'_append_1, Nat.zero_add]
      rw [hsplit, List.mapM_append]
      have h1 := mapM_ok (pt.clusterWithMedoid g ms) (fun i => (⟨g, pt, i, 0⟩ : ClusterObj α))
        (List.range ms.length) (fun i hi => by
          simp [Partition.clusterWithMedoid, Partition.createCluster, hs.1, hs.2,
            List.getElem?_eq_getElem (List.mem_range.1 hi)])
      rw [h1, List.mapM_cons]
      simp only [Partition.clusterWithMedoid, Partition.createCluster, if_pos hs, if_neg hne]
      rw [List.getElem?_eq_none (le_refl _)]
      rfl
    simp only [intraClusterCost, this]
  · intro hs
    have : pt.createClustersWithMedoids g [] = .ok ((List.range pt.k).map fun i => ⟨g, pt, i, 0⟩) := by
      apply mapM_ok
      intro i hi
      simp [Partition.clusterWithMedoid, Partition.createCluster, hs.1, hs.2]
    simp only [intraClusterCost, this]
    rw [hk', List.range_succ_eq_map]
    rfl

/-- **C76** (nearest medoids): among the partitions with the same medoids, one in which the medoid of
each point is a nearest one has the least cost. -/
theorem C76_nearest_least (pt pt' : Partition) (hp : pt.Valid) (hp' : pt'.Valid) (g : Grid α)
    (hg : g.WF) (sx : pt.labels.xLen = g.xLen) (sy : pt.labels.yLen = g.yLen)
    (sx' : pt'.labels.xLen = g.xLen) (sy' : pt'.labels.yLen = g.yLen) (ms : List Point)
    (hms : pt.k ≤ ms.length) (hms' : pt'.k ≤ ms.length) (m : Grid (Option K))
    (d : Nat → Nat → K) (hd0 : ∀ a b, 0 ≤ d a b)
    (hd : ∀ (p md : Point), p.x < g.xLen → p.y < g.yLen → md ∈ ms →
      m.get ⟨md.x * g.yLen + md.y, p.x * g.yLen + p.y⟩ =
        .ok (some (d (md.x * g.yLen + md.y) (p.x * g.yLen + p.y))))
    (hnear : ∀ (p : Point) (l : Nat) (md : Point), p.x < g.xLen → p.y < g.yLen →
      pt.labels.get p = .ok l → ms[l]? = some md → ∀ md' ∈ ms,
        d (md.x * g.yLen + md.y) (p.x * g.yLen + p.y) ≤
          d (md'.x * g.yLen + md'.y) (p.x * g.yLen + p.y)) :
    ∃ c c', intraClusterCost pt (some ms) g m = .ok (some c) ∧
      intraClusterCost pt' (some ms) g m = .ok (some c') ∧ 0 ≤ c ∧ c ≤ c' := by
  let own : Partition → Point → K := fun q p =>
    match q.labels.get p with
    | .error _ => 0
    | .ok l => match ms[l]? with
      | none => 0
      | some md => d (md.x * g.yLen + md.y) (p.x * g.yLen + p.y)
  have hown : ∀ (q : Partition) (p : Point) (l : Nat) (md : Point), p.x < g.xLen → p.y < g.yLen →
      q.labels.get p = .ok l → ms[l]? = some md →
      m.get ⟨md.x * g.yLen + md.y, p.x * g.yLen + p.y⟩ = .ok (some (own q p)) := by
    intro q p l md hx hy hl hmd
    rw [hd p md hx hy (List.mem_of_getElem? hmd)]
    simp only [own, hl, hmd]
  refine ⟨_, _, (C76_intra_cluster_cost pt hp g hg sx sy ms hms m).1 (own pt) (hown pt),
    (C76_intra_cluster_cost pt' hp' g hg sx' sy' ms hms' m).1 (own pt') (hown pt'), ?_, ?_⟩
  · apply List.sum_nonneg
    intro x hx
    obtain ⟨p, _, rfl⟩ := List.mem_map.1 hx
    positivity
  · apply List.sum_le_sum
    intro p hpm
    have hb := mem_rowMajor.1 hpm
    obtain ⟨l, hl⟩ := pt.labels.exists_get hp.wf (p := p) (by rw [sx]; exact hb.1)
      (by rw [sy]; exact hb.2)
    obtain ⟨l', hl'⟩ := pt'.labels.exists_get hp'.wf (p := p) (by rw [sx']; exact hb.1)
      (by rw [sy']; exact hb.2)
    have hlt : l < ms.length := lt_of_lt_of_le (hp.get_lt hl) hms
    have hlt' : l' < ms.length := lt_of_lt_of_le (hp'.get_lt hl') hms'
    have e1 : own pt p = d (ms[l].x * g.yLen + ms[l].y) (p.x * g.yLen + p.y) := by
      simp only [own, hl, List.getElem?_eq_getElem hlt]
    have e2 : own pt' p = d (ms[l'].x * g.yLen + ms[l'].y) (p.x * g.yLen + p.y) := by
      simp only [own, hl', List.getElem?_eq_getElem hlt']
    rw [e1, e2]
    exact pow_le_pow_left₀ (hd0 _ _) (hnear p l _ hb.1 hb.2 hl (List.getElem?_eq_getElem hlt) _
      (List.getElem_mem hlt')) 2

/-- **C76** (k-medoids): the cost that the elbow method sees for a k-medoids clustering is the sum over
all points of the squared distance to the nearest medoid. -/
theorem C76_kmedoids_cost {S : Type} {X : List S} {k : Nat} {dm : Measure S K} {d : Nat → Nat → K}
    {initial : Option (List Nat)} {outcome : List Nat} {mode : KmMode} {maxIter : Nat} {tol : K}
    {verbose : Bool} (hd : Realises dm X d) (g : Grid α) (hg : g.WF)
    (hXl : X.length = g.xLen * g.yLen) (hX : X ≠ []) (pt : Partition) (ms : List Point)
    (h : kmedoidsPartition X g.xLen g.yLen k dm initial outcome mode maxIter tol verbose =
      .ok (pt, ms))
    (m : Grid (Option K)) (hm : ∀ a < X.length, ∀ i < X.length, m.get ⟨a, i⟩ = .ok (some (d a i))) :
    ∃ c, intraClusterCost pt (some ms) g m = .ok (some c) ∧
      NearestSquares d X.length (ms.map fun p => p.x * g.yLen + p.y) c := by
  unfold kmedoidsPartition at h
  split at h
  · cases h
  rename_i r hr
  have hs := C26_labels_and_costs hd hX hr
  have hmed : ∀ a ∈ r.medoids, a < X.length := by
    obtain ⟨st, cc, h1, _, _, _, rfl⟩ := runKmedoids_inv hd hX hr
    intro a ha
    obtain ⟨md, hmd, rfl⟩ := List.mem_map.1 ha
    exact (List.getElem?_eq_some_iff.1 (h1.medoids md hmd)).1
  split at h
  · cases h
  rename_i pt' hpt
  cases h
  have hlab : ∀ l ∈ r.labels, l < r.medoids.length := by
    intro l hl
    obtain ⟨i, hi⟩ := List.mem_iff_getElem?.1 hl
    obtain ⟨m, hm, _⟩ := hs.nearest i l hi
    exact (List.getElem?_eq_some_iff.1 hm).1
  unfold Partition.fromMembershipArray at hpt
  split at hpt
  · cases hpt
  rename_i mx hmx
  rw [if_pos (by rw [hs.labels_len, hXl])] at hpt
  unfold Partition.create at hpt
  simp only [hmx, if_true, Except.ok.injEq] at hpt
  subst hpt
  have hmx' := List.max?_eq_some_iff.1 hmx
  have hidx : (r.medoids.map fun n => (⟨n / g.yLen, n % g.yLen⟩ : Point)).map
      (fun p => p.x * g.yLen + p.y) = r.medoids := by
    rw [List.map_map]
    conv_rhs => rw [← List.map_id r.medoids]
    apply List.map_congr_left
    intro n _
    exact idx_of_div_mod n g.yLen
  have hlen : r.labels.length = g.xLen * g.yLen := by rw [hs.labels_len, hXl]
  -- the nearest medoid of every sample
  let near : Nat → K := fun i =>
    match r.labels[i]? with
    | none => 0
    | some l => match r.medoids[l]? with
      | none => 0
      | some a => d a i
  have hnear : ∀ (i l a : Nat), r.labels[i]? = some l → r.medoids[l]? = some a → near i = d a i := by
    intro i l a h1 h2
    simp only [near, h1, h2]
  refine ⟨((rowMajor g.xLen g.yLen).map fun p => near (p.x * g.yLen + p.y) ^ 2).sum, ?_, ?_⟩
  · refine (C76_intra_cluster_cost ⟨⟨g.xLen, g.yLen, r.labels⟩, mx + 1, 0⟩ ⟨hlen, Nat.succ_pos _, ?_⟩ g hg rfl rfl _ ?_ m).1
      (fun p => near (p.x * g.yLen + p.y)) ?_
    · intro l hl
      exact Nat.lt_succ_of_le (hmx'.2 l hl)
    · simp only [List.length_map]
      exact hlab mx hmx'.1
    · intro p l md hx hy hl hmd
      rw [List.getElem?_map, Option.map_eq_some_iff] at hmd
      obtain ⟨a, ha, rfl⟩ := hmd
      have hl' := ((Grid.get_eq_ok_iff _ _ _).1 hl).2.2
      simp only at hl'
      rw [hnear _ l a hl' ha, show a / g.yLen * g.yLen + a % g.yLen = a from idx_of_div_mod a g.yLen]
      exact hm a (hmed a (List.mem_of_getElem? ha)) _ (by rw [hXl]; exact idx_lt hx hy)
  · rw [hidx]
    refine ⟨near, ?_, ?_⟩
    · intro i hi
      have hil : i < r.labels.length := by rw [hs.labels_len]; exact hi
      obtain ⟨a, h1, h2⟩ := hs.nearest i _ (List.getElem?_eq_getElem hil)
      have e := hnear i _ a (List.getElem?_eq_getElem hil) h1
      refine ⟨⟨a, List.mem_of_getElem? h1, e⟩, ?_⟩
      intro b hb
      obtain ⟨j, hj⟩ := List.mem_iff_getElem?.1 hb
      rw [e]
      exact (h2 j b hj).1
    · rw [hXl, rowMajor_eq_map, List.map_map]
      congr 1
      apply List.map_congr_left
      intro n _
      simp only [Function.comp_apply, idx_of_div_mod]

/-- The points 0, 1 and 5 of a line, clustered around 1 and 5. -/
example : intraClusterCost (K := ℚ) ⟨⟨1, 3, [0, 0, 1]⟩, 2, 0⟩ (some [⟨0, 1⟩, ⟨0, 2⟩]) ⟨1, 3, [(), (), ()]⟩
    ⟨3, 3, [some 0, some 1, some 5, some 1, some 0, some 4, some 5, some 4, some 0]⟩ = .ok (some 1) ∧
    intraClusterCost (K := ℚ) ⟨⟨1, 3, [0, 0, 0]⟩, 1, 0⟩ (some [⟨0, 1⟩]) ⟨1, 3, [(), (), ()]⟩
    ⟨3, 3, [some 0, some 1, some 5, some 1, some 0, some 4, some 5, some 4, some 0]⟩ =
      .ok (some 17) := by decide +kernel

end Spta
