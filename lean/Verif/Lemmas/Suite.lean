import Verif.Model.Suite
import Verif.Spec.Suite
import Verif.Lemmas.Except
import Mathlib.Tactic.FieldSimp
import Mathlib.Tactic.Ring
import Mathlib.Tactic.Linarith

/-!
# Lemmas on suites, organisation by seed and elbows
-/

set_option linter.unusedSectionVars false

namespace Spta

/-! ### Products -/

theorem suiteInner_eq {name : Str} {p : SuiteParams} {k : Int} {f : Int → ClusterMeta}
    (h : ∀ s, factoryInstance name k s p = .ok (f s)) (seeds : List Int) (acc : List ClusterMeta) :
    suiteInner name p k seeds acc = .ok (acc ++ seeds.map f) := by
  induction seeds generalizing acc with
  | nil => simp [suiteInner]
  | cons s ss ih => rw [suiteInner, h]; simp [ih]

theorem suiteOuter_eq {name : Str} {p : SuiteParams} {f : Int → Int → ClusterMeta}
    (h : ∀ k s, factoryInstance name k s p = .ok (f k s)) (ks : List Int) (acc : List ClusterMeta) :
    suiteOuter name p ks acc = .ok (acc ++ ks.flatMap fun k => p.seeds.seeds.map (f k)) := by
  induction ks generalizing acc with
  | nil => simp [suiteOuter]
  | cons k ks ih => rw [suiteOuter, suiteInner_eq (h k)]; simp [ih]

theorem flatMap_getElem? {A B C : Type} (f : A → B → C) (bs : List B) (as : List A) (i j : Nat) (a : A)
    (b : B) (hi : as[i]? = some a) (hj : bs[j]? = some b) :
    (as.flatMap fun a => bs.map (f a))[i * bs.length + j]? = some (f a b) := by
  have hjl : j < bs.length := (List.getElem?_eq_some_iff.1 hj).1
  induction as generalizing i with
  | nil => simp at hi
  | cons x xs ih =>
    rw [List.flatMap_cons]
    cases i with
    | zero =>
      simp at hi
      subst hi
      rw [List.getElem?_append_left (by simpa using hjl)]
      simp [hj]
    | succ i =>
      have hi' : xs[i]? = some a := by simpa using hi
      rw [List.getElem?_append_right (by simp; rw [Nat.succ_mul]; omega)]
      have : (i + 1) * bs.length + j - (bs.map (f x)).length = i * bs.length + j := by
        simp; rw [Nat.succ_mul]; omega
      rw [this]
      exact ih i hi'

theorem flatMap_length {A B C : Type} (f : A → B → C) (bs : List B) (as : List A) :
    (as.flatMap fun a => bs.map (f a)).length = as.length * bs.length := by
  induction as with
  | nil => simp
  | cons x xs ih => rw [List.flatMap_cons, List.length_append, ih]; simp [Nat.succ_mul]; omega

/-! ### Grouping -/

/-- Adding keys in order of first appearance. -/
def addKey (keys : List Int) (s : Int) : List Int := if s ∈ keys then keys else keys ++ [s]

theorem groupInsert_eq (seed : Int) (m : ClusterMeta) (f : Int → List ClusterMeta) (keys : List Int)
    (hn : keys.Nodup) (hf : seed ∉ keys → f seed = []) :
    groupInsert seed m (keys.map fun s => (s, f s)) =
      (addKey keys seed).map fun s => (s, if s = seed then f s ++ [m] else f s) := by
  induction keys with
  | nil => simp [groupInsert, addKey, hf]
  | cons a keys ih =>
    have hn' := List.nodup_cons.1 hn
    by_cases h : a = seed
    · subst h
      have hk : addKey (a :: keys) a = a :: keys := by simp [addKey]
      rw [hk]
      simp only [List.map_cons, groupInsert, if_true]
      congr 1
      apply List.map_congr_left
      intro s hs
      rw [if_neg]
      rintro rfl
      exact hn'.1 hs
    · have hk : addKey (a :: keys) seed = a :: addKey keys seed := by
        unfold addKey
        by_cases hm : seed ∈ keys
        · rw [if_pos hm, if_pos (by simp [hm])]
        · rw [if_neg hm, if_neg (by simp [hm, Ne.symm h])]
          rfl
      rw [hk]
      simp only [List.map_cons, groupInsert, if_neg h]
      rw [ih hn'.2 (fun hm => hf (by simp [hm, Ne.symm h]))]

theorem addKey_nodup {keys : List Int} (hn : keys.Nodup) (s : Int) : (addKey keys s).Nodup := by
  unfold addKey
  split
  · exact hn
  · rename_i h
    rw [List.nodup_append]
    refine ⟨hn, by simp, ?_⟩
    intro a ha b hb
    rw [List.mem_singleton] at hb
    subst hb
    rintro rfl
    exact h ha

theorem mem_addKey {keys : List Int} {s t : Int} : t ∈ addKey keys s ↔ t ∈ keys ∨ t = s := by
  unfold addKey
  split
  · rename_i h
    constructor
    · exact Or.inl
    · rintro (h' | rfl)
      · exact h'
      · exact h
  · simp

theorem groupBySeed_eq (suite : List KmMeta) (f : Int → List ClusterMeta) (keys : List Int)
    (hn : keys.Nodup) (hf : ∀ s, s ∉ keys → f s = []) :
    groupBySeed (suite.map .kmedoids) (keys.map fun s => (s, f s)) =
      .ok (((suite.map KmMeta.seed).foldl addKey keys).map fun s =>
        (s, f s ++ (suite.filter fun m => m.seed = s).map .kmedoids)) := by
  induction suite generalizing f keys with
  | nil => simp [groupBySeed]
  | cons m ms ih =>
    rw [List.map_cons, groupBySeed]
    simp only [ClusterMeta.randomSeed]
    rw [groupInsert_eq _ _ _ _ hn (hf m.seed), ih _ _ (addKey_nodup hn _)]
    · rw [List.map_cons, List.foldl_cons]
      congr 1
      apply List.map_congr_left
      intro s _
      by_cases h : s = m.seed
      · simp [h]
      · rw [if_neg h, List.filter_cons_of_neg (by simpa using Ne.symm h)]
    · intro s hs
      rw [mem_addKey, not_or] at hs
      rw [if_neg hs.2]
      exact hf s hs.1

theorem foldl_addKey_nodup (l keys : List Int) (hn : keys.Nodup) : (l.foldl addKey keys).Nodup := by
  induction l generalizing keys with
  | nil => exact hn
  | cons s l ih => exact ih _ (addKey_nodup hn s)

theorem mem_foldl_addKey (l keys : List Int) (s : Int) :
    s ∈ l.foldl addKey keys ↔ s ∈ keys ∨ s ∈ l := by
  induction l generalizing keys with
  | nil => simp
  | cons t l ih => rw [List.foldl_cons, ih, mem_addKey, List.mem_cons, or_assoc]

theorem foldl_addKey_subset (l keys : List Int) (h : ∀ s ∈ l, s ∈ keys) : l.foldl addKey keys = keys := by
  induction l with
  | nil => rfl
  | cons s l ih =>
    rw [List.foldl_cons, addKey, if_pos (h s (by simp))]
    exact ih fun t ht => h t (by simp [ht])

theorem foldl_addKey_new (l keys : List Int) (h : (keys ++ l).Nodup) :
    l.foldl addKey keys = keys ++ l := by
  induction l generalizing keys with
  | nil => simp
  | cons s l ih =>
    have hs : s ∉ keys := by
      intro hm
      exact (List.nodup_append.1 h).2.2 s hm s (by simp) rfl
    rw [List.foldl_cons, addKey, if_neg hs, ih _ (by simpa using h)]
    simp

/-- A stable sort keeps the order of the elements with equal keys. -/
theorem sortByK_filter (c : Int) (ms : List ClusterMeta) :
    (sortByK ms).filter (fun m => m.k = c) = ms.filter fun m => m.k = c := by
  have hins : ∀ (a : ClusterMeta) (l : List ClusterMeta),
      (l.orderedInsert (fun a b => a.k ≤ b.k) a).filter (fun m => m.k = c) =
        (a :: l).filter fun m => m.k = c := by
    intro a l
    induction l with
    | nil => rfl
    | cons b l ih =>
      rw [List.orderedInsert_cons]
      split
      · rfl
      · rename_i hab
        simp only [List.filter_cons] at ih ⊢
        by_cases hb : b.k = c
        · have ha : ¬ a.k = c := by rintro rfl; omega
          simp [hb, ha, ih]
        · simp [hb, ih]
  induction ms with
  | nil => rfl
  | cons a l ih =>
    unfold sortByK at ih ⊢
    rw [List.insertionSort_cons, hins, List.filter_cons, List.filter_cons, ih]

theorem sortByK_map (f : Int → ClusterMeta) (hf : ∀ k, (f k).k = k) (ks : List Int) :
    sortByK (ks.map f) = (ks.insertionSort (· ≤ ·)).map f := by
  unfold sortByK
  symm
  apply List.map_insertionSort
  intro a _ b _
  rw [hf, hf]

/-! ### Metadata dictionaries -/

section

variable {P : Type}

theorem metaDictSet_new (m : ClusterMeta) (p : P) (d : List (ClusterMeta × P))
    (h : ∀ e ∈ d, e.1.pyEq m = false) : metaDictSet m p d = d ++ [(m, p)] := by
  induction d with
  | nil => rfl
  | cons a d ih =>
    obtain ⟨a, b⟩ := a
    have ha := h (a, b) (by simp)
    simp only at ha
    rw [metaDictSet, ha, ih fun e he => h e (by simp [he])]
    rfl

theorem metaDictSet_last (m a : ClusterMeta) (p b : P) (d : List (ClusterMeta × P))
    (h : ∀ e ∈ d, e.1.pyEq m = false) (ha : a.pyEq m = true) :
    metaDictSet m p (d ++ [(a, b)]) = d ++ [(a, p)] := by
  induction d with
  | nil => simp [metaDictSet, ha]
  | cons x d ih =>
    obtain ⟨x, y⟩ := x
    have hx := h (x, y) (by simp)
    simp only at hx
    rw [List.cons_append, metaDictSet, hx, ih fun e he => h e (by simp [he])]
    rfl

theorem metaDictGet_map {ks : List Int} (f : Int → ClusterMeta) (v : Int → P) {k : Int} (hk : k ∈ ks)
    (m : ClusterMeta) (h : ∀ k' ∈ ks, (f k').pyEq m = true ↔ k' = k) :
    metaDictGet m (ks.map fun k => (f k, v k)) = .ok (v k) := by
  induction ks with
  | nil => simp at hk
  | cons a ks ih =>
    rw [List.map_cons, metaDictGet]
    by_cases ha : a = k
    · rw [if_pos ((h a (by simp)).2 ha), ha]
    · rw [if_neg (fun e => ha ((h a (by simp)).1 e))]
      exact ih (by simpa [Ne.symm ha] using hk) fun k' hk' => h k' (by simp [hk'])

/-- Metadata built from a k and a seed, the other parameters being fixed. -/
def kmMeta (mode : Str) (initial : Option (List Int)) (maxIter : Nat) (k s : Int) : ClusterMeta :=
  .kmedoids ⟨k, s, mode, initial, maxIter⟩

theorem kmMeta_pyEq (mode : Str) (initial : Option (List Int)) (maxIter : Nat) (k s k' s' : Int) :
    (kmMeta mode initial maxIter k s).pyEq (kmMeta mode initial maxIter k' s') = decide (k = k') := by
  by_cases h : k = k' <;> simp [kmMeta, ClusterMeta.pyEq, ClusterMeta.name, ClusterMeta.k, h]

theorem allPartitions_append (partitionOf : ClusterMeta → Except PyErr P) (a b : List ClusterMeta)
    (d : List (ClusterMeta × P)) :
    allPartitions partitionOf (a ++ b) d =
      match allPartitions partitionOf a d with
      | .error e => .error e
      | .ok d' => allPartitions partitionOf b d' := by
  induction a generalizing d with
  | nil => rfl
  | cons m a ih =>
    rw [List.cons_append, allPartitions, allPartitions]
    cases partitionOf m with
    | error e => rfl
    | ok p => exact ih _

/-- All seeds of one k leave one entry: the first metadata with the partition of the last. -/
theorem allPartitions_seeds {mode : Str} {initial : Option (List Int)} {maxIter : Nat}
    (p : ClusterMeta → P) (k s0 : Int) (seeds : List Int) (d : List (ClusterMeta × P)) (b : P)
    (hd : ∀ e ∈ d, ∀ s, e.1.pyEq (kmMeta mode initial maxIter k s) = false) :
    allPartitions (fun m => .ok (p m)) (seeds.map (kmMeta mode initial maxIter k))
        (d ++ [(kmMeta mode initial maxIter k s0, b)]) =
      .ok (d ++ [(kmMeta mode initial maxIter k s0,
        (seeds.getLast?.map fun s => p (kmMeta mode initial maxIter k s)).getD b)]) := by
  induction seeds generalizing b with
  | nil => simp [allPartitions]
  | cons s ss ih =>
    rw [List.map_cons, allPartitions]
    simp only
    rw [metaDictSet_last _ _ _ _ _ (fun e he => hd e he s) (by rw [kmMeta_pyEq]; simp), ih]
    cases ss with
    | nil => simp
    | cons t ts =>
      rw [List.getLast?_cons_cons, List.getLast?_eq_some_getLast (List.cons_ne_nil t ts)]
      rfl

theorem allPartitions_product {mode : Str} {initial : Option (List Int)} {maxIter : Nat}
    (p : ClusterMeta → P) (s0 sl : Int) (seeds : List Int) (hl : (s0 :: seeds).getLast? = some sl)
    (ks : List Int) (hks : ks.Nodup) (d : List (ClusterMeta × P))
    (hd : ∀ e ∈ d, ∀ k ∈ ks, ∀ s, e.1.pyEq (kmMeta mode initial maxIter k s) = false) :
    allPartitions (fun m => .ok (p m))
        (ks.flatMap fun k => (s0 :: seeds).map (kmMeta mode initial maxIter k)) d =
      .ok (d ++ ks.map fun k =>
        (kmMeta mode initial maxIter k s0, p (kmMeta mode initial maxIter k sl))) := by
  induction ks generalizing d with
  | nil => simp [allPartitions]
  | cons k ks ih =>
    have hks' := List.nodup_cons.1 hks
    rw [List.flatMap_cons, allPartitions_append, List.map_cons, allPartitions]
    simp only
    rw [metaDictSet_new _ _ _ (fun e he => hd e he k (by simp) s0),
      allPartitions_seeds p k s0 seeds d _ (fun e he s => hd e he k (by simp) s)]
    simp only
    have hv : (seeds.getLast?.map fun s => p (kmMeta mode initial maxIter k s)).getD
        (p (kmMeta mode initial maxIter k s0)) = p (kmMeta mode initial maxIter k sl) := by
      cases seeds with
      | nil => simp at hl; simp [hl]
      | cons t ts => rw [List.getLast?_cons_cons] at hl; simp [hl]
    rw [hv, ih hks'.2]
    · simp
    · intro e he k' hk' s
      rw [List.mem_append] at he
      rcases he with he | he
      · exact hd e he k' (by simp [hk']) s
      · rw [List.mem_singleton] at he
        subst he
        rw [kmMeta_pyEq, decide_eq_false_iff_not]
        rintro rfl
        exact hks'.1 hk'

variable {K : Type}

theorem allCosts_eq (c : P → K) (f : Int → ClusterMeta) (v : Int → P)
    (hf : ∀ k k', (f k).pyEq (f k') = decide (k = k')) (ks : List Int) (hks : ks.Nodup)
    (d : List (ClusterMeta × K)) (hd : ∀ e ∈ d, ∀ k ∈ ks, e.1.pyEq (f k) = false) :
    allCosts (fun p => .ok (c p)) (ks.map fun k => (f k, v k)) d =
      .ok (d ++ ks.map fun k => (f k, c (v k))) := by
  induction ks generalizing d with
  | nil => simp [allCosts]
  | cons k ks ih =>
    have hks' := List.nodup_cons.1 hks
    rw [List.map_cons, allCosts]
    simp only
    rw [metaDictSet_new _ _ _ (fun e he => hd e he k (by simp)), ih hks'.2]
    · simp
    · intro e he k' hk'
      rw [List.mem_append] at he
      rcases he with he | he
      · exact hd e he k' (by simp [hk'])
      · rw [List.mem_singleton] at he
        subst he
        rw [hf, decide_eq_false_iff_not]
        rintro rfl
        exact hks'.1 hk'

end

/-! ### Elbow -/

section

variable {K : Type} [Field K] [LinearOrder K] [IsStrictOrderedRing K]

theorem secondDerivative_eq {p1 p2 p3 : Int × Option K} (h1 : p1.1 < p2.1) (h2 : p2.1 < p3.1) :
    secondDerivative p1 p2 p3 = .ok (curvatureOf p1 p2 p3) := by
  obtain ⟨x1, y1⟩ := p1
  obtain ⟨x2, y2⟩ := p2
  obtain ⟨x3, y3⟩ := p3
  simp only at h1 h2
  have e1 : x2 - x1 ≠ 0 := by omega
  have e2 : x3 - x1 ≠ 0 := by omega
  have e3 : x3 - x2 ≠ 0 := by omega
  have f1 : (x2 : K) - x1 ≠ 0 := by exact_mod_cast e1
  have f2 : (x3 : K) - x1 ≠ 0 := by exact_mod_cast e2
  have f3 : (x3 : K) - x2 ≠ 0 := by exact_mod_cast e3
  unfold secondDerivative
  simp only [mul_eq_zero, e1, e2, e3, or_self, if_false]
  cases y1 <;> cases y2 <;> cases y3 <;> simp only [curvatureOf, curvature]
  congr 2
  push_cast
  field_simp
  ring

/-- The second derivatives of all windows. -/
def windowCurv : List (Int × Option K) → List (Option K)
  | p1 :: p2 :: p3 :: rest => curvatureOf p1 p2 p3 :: windowCurv (p2 :: p3 :: rest)
  | _ => []

/-- The loop on the values alone. -/
def maxLoop : List (Option K) → Nat → Option K × Int → Option K × Int
  | [], _, best => best
  | d :: ds, i, best => maxLoop ds (i + 1) (if betterElbow d best.1 then (d, (i : Int)) else best)

theorem elbowLoop_eq : ∀ (l : List (Int × Option K)) (i : Nat) (best : Option K × Int),
    (l.map Prod.fst).Pairwise (· < ·) → elbowLoop l i best = .ok (maxLoop (windowCurv l) i best) := by
  intro l
  induction l with
  | nil => intro i best _; rfl
  | cons p1 l ih =>
    intro i best h
    match l, ih, h with
    | [], _, _ => rfl
    | [_], _, _ => rfl
    | p2 :: p3 :: rest, ih, h =>
      simp only [List.map_cons, List.pairwise_cons] at h
      rw [elbowLoop, secondDerivative_eq (h.1 _ (by simp)) (h.2.1 _ (by simp))]
      simp only
      rw [ih _ _ (by simpa using h.2)]
      rfl

theorem windowCurv_length : ∀ (l : List (Int × Option K)), (windowCurv l).length = l.length - 2 := by
  intro l
  induction l with
  | nil => rfl
  | cons p1 l ih =>
    match l, ih with
    | [], _ => rfl
    | [_], _ => rfl
    | p2 :: p3 :: rest, ih =>
      rw [windowCurv, List.length_cons, ih]
      simp

theorem windowCurv_getElem? : ∀ (l : List (Int × Option K)) (i : Nat),
    (windowCurv l)[i]? = match l[i]?, l[i + 1]?, l[i + 2]? with
      | some a, some b, some c => some (curvatureOf a b c)
      | _, _, _ => none := by
  intro l
  induction l with
  | nil => intro i; simp [windowCurv]
  | cons p1 l ih =>
    intro i
    match l, ih with
    | [], _ => simp [windowCurv]
    | [q], _ =>
      have : ([p1, q] : List (Int × Option K))[i + 2]? = none := by simp
      rw [this]
      cases ([p1, q] : List (Int × Option K))[i]? <;> cases ([p1, q] : List (Int × Option K))[i + 1]? <;> rfl
    | p2 :: p3 :: rest, ih =>
      rw [windowCurv]
      cases i with
      | zero => simp
      | succ i => rw [List.getElem?_cons_succ, ih]; rfl

theorem maxLoop_some (ds : List (Option K)) (i : Nat) (h : K) (hi : Int) :
    ((∀ d, some d ∈ ds → d ≤ h) ∧ maxLoop ds i (some h, hi) = (some h, hi)) ∨
    ∃ (j : Nat) (d : K), ds[j]? = some (some d) ∧ h < d ∧ (∀ e, some e ∈ ds → e ≤ d) ∧
      (∀ (m : Nat) (e : K), m < j → ds[m]? = some (some e) → e < d) ∧
      maxLoop ds i (some h, hi) = (some d, ((i + j : Nat) : Int)) := by
  induction ds generalizing i h hi with
  | nil => left; simp [maxLoop]
  | cons d ds ih =>
    by_cases hd : ∃ d', d = some d' ∧ h < d'
    · right
      obtain ⟨d, rfl, hd⟩ := hd
      have e : maxLoop (some d :: ds) i (some h, hi) = maxLoop ds (i + 1) (some d, (i : Int)) := by
        simp [maxLoop, betterElbow, hd]
      rw [e]
      rcases ih (i + 1) d i with ⟨h1, h2⟩ | ⟨j, d', h1, h2, h3, h4, h5⟩
      · refine ⟨0, d, by simp, hd, ?_, by intro m e hm; omega, by rw [h2]; simp⟩
        intro e he
        rcases List.mem_cons.1 he with he | he
        · rw [Option.some.inj he]
        · exact h1 e he
      · refine ⟨j + 1, d', by simpa using h1, lt_trans hd h2, ?_, ?_, ?_⟩
        · intro e he
          rcases List.mem_cons.1 he with he | he
          · rw [Option.some.inj he]; exact le_of_lt h2
          · exact h3 e he
        · intro m e hm he
          cases m with
          | zero => simp at he; subst he; exact h2
          | succ m => exact h4 m e (by omega) (by simpa using he)
        · rw [h5]; congr 2; omega
    · have hd' : ∀ d', d = some d' → d' ≤ h := fun d' e => not_lt.1 fun hh => hd ⟨d', e, hh⟩
      have e : maxLoop (d :: ds) i (some h, hi) = maxLoop ds (i + 1) (some h, hi) := by
        cases d with
        | none => simp [maxLoop, betterElbow]
        | some d => simp [maxLoop, betterElbow, not_lt.2 (hd' d rfl)]
      rw [e]
      rcases ih (i + 1) h hi with ⟨h1, h2⟩ | ⟨j, d', h1, h2, h3, h4, h5⟩
      · left
        refine ⟨?_, h2⟩
        intro e he
        rcases List.mem_cons.1 he with he | he
        · exact hd' e he.symm
        · exact h1 e he
      · right
        refine ⟨j + 1, d', by simpa using h1, h2, ?_, ?_, ?_⟩
        · intro e he
          rcases List.mem_cons.1 he with he | he
          · exact le_of_lt (lt_of_le_of_lt (hd' e he.symm) h2)
          · exact h3 e he
        · intro m e hm he
          cases m with
          | zero => simp at he; exact lt_of_le_of_lt (hd' e he) h2
          | succ m => exact h4 m e (by omega) (by simpa using he)
        · rw [h5]; congr 2; omega

/-- Without any number the best stays as it is. -/
theorem maxLoop_nan {ds : List (Option K)} (h : ∀ e, some e ∉ ds) (i : Nat) (best : Option K × Int) :
    maxLoop ds i best = best := by
  induction ds generalizing i with
  | nil => rfl
  | cons d ds ih =>
    have hd : d = none := by
      cases d with
      | none => rfl
      | some d => exact absurd (by simp) (h d)
    rw [maxLoop, hd]
    simp only [betterElbow, Bool.false_eq_true, if_false]
    exact ih (fun e he => h e (by simp [he])) _

theorem maxLoop_none {ds : List (Option K)} (hne : ∃ e, some e ∈ ds) (i : Nat) :
    ∃ (j : Nat) (d : K), ds[j]? = some (some d) ∧ (∀ e, some e ∈ ds → e ≤ d) ∧
      (∀ (m : Nat) (e : K), m < j → ds[m]? = some (some e) → e < d) ∧
      maxLoop ds i (none, -1) = (some d, ((i + j : Nat) : Int)) := by
  induction ds generalizing i with
  | nil => obtain ⟨e, he⟩ := hne; simp at he
  | cons d ds ih =>
    cases d with
    | none =>
      obtain ⟨e, he⟩ := hne
      obtain ⟨j, d, h1, h2, h3, h4⟩ := ih ⟨e, by simpa using he⟩ (i + 1)
      refine ⟨j + 1, d, by simpa using h1, fun e he => h2 e (by simpa using he), ?_, ?_⟩
      · intro m e hm he
        cases m with
        | zero => simp at he
        | succ m => exact h3 m e (by omega) (by simpa using he)
      · rw [maxLoop]
        simp only [betterElbow, Bool.false_eq_true, if_false]
        rw [h4]; congr 2; omega
    | some d =>
      have e : maxLoop (some d :: ds) i (none, -1) = maxLoop ds (i + 1) (some d, (i : Int)) := by
        simp [maxLoop, betterElbow]
      rw [e]
      rcases maxLoop_some ds (i + 1) d i with ⟨h1, h2⟩ | ⟨j, d', h1, h2, h3, h4, h5⟩
      · refine ⟨0, d, by simp, ?_, by intro m e hm; omega, by rw [h2]; simp⟩
        intro e he
        rcases List.mem_cons.1 he with he | he
        · rw [Option.some.inj he]
        · exact h1 e he
      · refine ⟨j + 1, d', by simpa using h1, ?_, ?_, ?_⟩
        · intro e he
          rcases List.mem_cons.1 he with he | he
          · rw [Option.some.inj he]; exact le_of_lt h2
          · exact h3 e he
        · intro m e hm he
          cases m with
          | zero => simp at he; subst he; exact h2
          | succ m => exact h4 m e (by omega) (by simpa using he)
        · rw [h5]; congr 2; omega

end

end Spta
