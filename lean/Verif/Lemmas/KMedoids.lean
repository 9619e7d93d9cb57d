import Mathlib.Algebra.Order.Group.Defs
import Mathlib.Data.List.Nodup
import Mathlib.Tactic.Abel
import Verif.Lemmas.Except
import Verif.Lemmas.Grid
import Verif.Spec.KMedoids

/-!
# Lemmas on k-medoids
-/

set_option linter.unusedSectionVars false

namespace Spta

variable {S K : Type} [AddCommGroup K] [LinearOrder K]

omit [AddCommGroup K] in
theorem argminFrom_spec (xs : List K) : ∀ (l : List K) (best : Nat) (v : K),
    l[best]? = some v → (∀ (j : Nat) (w : K), l[j]? = some w → v ≤ w ∧ (j < best → v < w)) →
    ∃ u, (l ++ xs)[argminFrom xs l.length best v]? = some u ∧
      ∀ (j : Nat) (w : K), (l ++ xs)[j]? = some w →
        u ≤ w ∧ (j < argminFrom xs l.length best v → u < w) := by
  induction xs with
  | nil =>
    intro l best v h1 h2
    exact ⟨v, by simpa [argminFrom] using h1, by simpa [argminFrom] using h2⟩
  | cons x xs ih =>
    intro l best v h1 h2
    have hb : best < l.length := (List.getElem?_eq_some_iff.1 h1).1
    have e : l ++ x :: xs = (l ++ [x]) ++ xs := by simp
    rw [e]
    have hlen : (l ++ [x]).length = l.length + 1 := by simp
    have key : ∀ (b : Nat) (w : K), (l ++ [x])[b]? = some w →
        (∀ (j : Nat) (w' : K), (l ++ [x])[j]? = some w' → w ≤ w' ∧ (j < b → w < w')) →
        ∃ u, (l ++ [x] ++ xs)[argminFrom xs (l.length + 1) b w]? = some u ∧
      ∀ (j : Nat) (w' : K), (l ++ [x] ++ xs)[j]? = some w' →
        u ≤ w' ∧ (j < argminFrom xs (l.length + 1) b w → u < w') := by
      intro b w
      have := ih (l ++ [x]) b w
      rwa [hlen] at this
    unfold argminFrom
    split
    · rename_i hlt
      refine key l.length x (by simp) ?_
      intro j w hj
      rcases Nat.lt_or_ge j l.length with hjl | hjl
      · rw [List.getElem?_append_left hjl] at hj
        have := (h2 j w hj).1
        exact ⟨(hlt.trans_le this).le, fun _ => hlt.trans_le this⟩
      · have : j = l.length := by
          have := (List.getElem?_eq_some_iff.1 hj).1; simp at this; omega
        subst this
        simp at hj; subst hj
        exact ⟨le_rfl, fun h => absurd h (lt_irrefl _)⟩
    · rename_i hlt
      refine key best v (by rw [List.getElem?_append_left hb]; exact h1) ?_
      intro j w hj
      rcases Nat.lt_or_ge j l.length with hjl | hjl
      · rw [List.getElem?_append_left hjl] at hj
        exact h2 j w hj
      · have : j = l.length := by
          have := (List.getElem?_eq_some_iff.1 hj).1; simp at this; omega
        subst this
        simp at hj; subst hj
        exact ⟨not_lt.1 hlt, fun h => by omega⟩

omit [AddCommGroup K] in
theorem argmin_spec (l : List K) (h : l ≠ []) : ∃ j, argmin l = .ok j ∧ ∃ v, l[j]? = some v ∧
    ∀ (j' : Nat) (w : K), l[j']? = some w → v ≤ w ∧ (j' < j → v < w) := by
  cases l with
  | nil => exact absurd rfl h
  | cons x xs =>
    obtain ⟨u, h1, h2⟩ := argminFrom_spec xs [x] 0 x rfl (by
      intro j w hj
      cases j with
      | zero => simp at hj; subst hj; exact ⟨le_rfl, fun h => absurd h (lt_irrefl _)⟩
      | succ j => simp at hj)
    exact ⟨_, rfl, u, h1, h2⟩

theorem sum_range_ite (k a : Nat) (ha : a < k) (f : Nat → K) :
    ((List.range k).map fun j => if a = j then f j else 0).sum = f a := by
  induction k with
  | zero => omega
  | succ k ih =>
    rw [List.range_succ, List.map_append, List.sum_append]
    by_cases hk : a = k
    · subst hk
      have : ((List.range a).map fun j => if a = j then f j else 0).sum = 0 := by
        apply List.sum_eq_zero
        intro x hx
        obtain ⟨j, hj, rfl⟩ := List.mem_map.1 hx
        have := List.mem_range.1 hj
        rw [if_neg (by omega)]
      simp [this]
    · rw [ih (by omega)]; simp [hk]

/-- Summing by cluster is summing over all samples. -/
theorem sum_by_label (k : Nat) (lab : Nat → Nat) (g : Nat → Nat → K) (L : List Nat)
    (h : ∀ i ∈ L, lab i < k) :
    ((List.range k).map fun j => ((L.filter fun i => lab i == j).map (g j)).sum).sum =
      (L.map fun i => g (lab i) i).sum := by
  induction L with
  | nil => simp
  | cons a L ih =>
    have : ∀ j, (((a :: L).filter fun i => lab i == j).map (g j)).sum =
        (if lab a = j then g j a else 0) + ((L.filter fun i => lab i == j).map (g j)).sum := by
      intro j
      rw [List.filter_cons]
      by_cases hj : lab a = j <;> simp [hj]
    simp only [this]
    rw [List.sum_map_add, ih fun i hi => h i (by simp [hi]), List.map_cons, List.sum_cons]
    congr 1
    exact sum_range_ite k (lab a) (h a (by simp)) fun j => g j a

/-- Medoids are samples, with their series. -/
def MedoidsOK (X : List S) (ms : List (Medoid S)) : Prop :=
  ∀ md ∈ ms, X[md.index]? = some md.series

theorem distMatOf_eq {dm : Measure S K} {X : List S} {d : Nat → Nat → K} (h : Realises dm X d)
    {ms : List (Medoid S)} (hms : MedoidsOK X ms) :
    distMatOf X ms dm =
      .ok ((List.range X.length).map fun i => ms.map fun md => d md.index i) := by
  cases dm with
  | matrix m =>
    obtain ⟨_, hy, hd⟩ := h
    simp only [distMatOf]
    rw [hy]
    apply mapM_ok
    intro i hi
    apply mapM_ok
    intro md hmd
    exact hd _ (List.getElem?_eq_some_iff.1 (hms md hmd)).1 _ (List.mem_range.1 hi)
  | function f =>
    simp only [distMatOf]
    congr 1
    apply List.ext_getElem?
    intro i
    rw [List.getElem?_mapIdx, List.getElem?_map]
    rcases Nat.lt_or_ge i X.length with hi | hi
    · rw [List.getElem?_range hi, List.getElem?_eq_getElem hi]
      simp only [Option.map_some, Option.some.injEq]
      apply List.map_congr_left
      intro md hmd
      exact (h md.index i _ _ (hms md hmd) (List.getElem?_eq_getElem hi)).symm
    · rw [List.getElem?_eq_none hi, List.getElem?_eq_none (by simpa using hi)]; rfl

/-- `_get_cost` computes what is specified. -/
theorem getCost_spec {dm : Measure S K} {X : List S} {d : Nat → Nat → K} (h : Realises dm X d)
    {ms : List (Medoid S)} (hms : MedoidsOK X ms) (hne : ms ≠ []) :
    ∃ c, getCost X ms dm = .ok c ∧
      CostSpec d X.length (getMedoidIndices ms) c.labels c.costs c.total := by
  have hrow : ∀ i, ∃ j, argmin (ms.map fun md => d md.index i) = .ok j ∧
      FirstNearest d (getMedoidIndices ms) i j := by
    intro i
    obtain ⟨j, h1, v, h2, h3⟩ := argmin_spec (ms.map fun md => d md.index i) (by simpa using hne)
    refine ⟨j, h1, ?_⟩
    rw [List.getElem?_map, Option.map_eq_some_iff] at h2
    obtain ⟨md, hmd, rfl⟩ := h2
    refine ⟨md.index, by simp [getMedoidIndices, hmd], ?_⟩
    intro j' m' hj'
    apply h3
    unfold getMedoidIndices at hj'
    rw [List.getElem?_map, Option.map_eq_some_iff] at hj' ⊢
    obtain ⟨md', hmd', rfl⟩ := hj'
    exact ⟨md', hmd', rfl⟩
  choose lab hlab1 hlab2 using hrow
  have hlabels : ((List.range X.length).map fun i => ms.map fun md => d md.index i).mapM argmin =
      .ok ((List.range X.length).map lab) := by
    rw [mapM_eq_ok, List.forall₂_map_left_iff, List.forall₂_map_right_iff, List.forall₂_same]
    intro i _
    exact hlab1 i
  have hlabk : ∀ i, lab i < ms.length := by
    intro i
    obtain ⟨m, hm, _⟩ := hlab2 i
    have := (List.getElem?_eq_some_iff.1 hm).1
    simpa [getMedoidIndices] using this
  have hcl : ∀ (j : Nat) (md : Medoid S), ms[j]? = some md →
      clusterCost ((List.range X.length).map lab)
        ((List.range X.length).map fun i => ms.map fun md => d md.index i) j =
      (((List.range X.length).filter fun i => lab i == j).map fun i => d md.index i).sum := by
    intro j md hj
    unfold clusterCost
    congr 1
    generalize List.range X.length = L
    induction L with
    | nil => rfl
    | cons a L ih =>
      simp only [List.map_cons, List.zip_cons_cons, List.filterMap_cons, List.filter_cons]
      by_cases ha : lab a = j
      · simp only [ha, if_true, List.getElem?_map, hj, Option.map_some, beq_self_eq_true,
          List.map_cons]
        rw [ih]
      · have : (lab a == j) = false := by simp [ha]
        simp only [ha, if_false, this]
        rw [ih]; simp
  have hget : ∀ i, i < X.length → ((List.range X.length).map lab)[i]? = some (lab i) := by
    intro i hi
    rw [List.getElem?_map, List.getElem?_range hi]; rfl
  have hfil : ∀ j, ((List.range X.length).filter fun i =>
      ((List.range X.length).map lab)[i]? == some j) =
      (List.range X.length).filter fun i => lab i == j := by
    intro j
    apply List.filter_congr
    intro i hi
    rw [hget i (List.mem_range.1 hi)]
    by_cases hij : lab i = j <;> simp [hij]
  refine ⟨_, by simp only [getCost, distMatOf_eq h hms, hlabels]; rfl, ?_⟩
  have hsum : ((List.range ms.length).map fun j => clusterCost ((List.range X.length).map lab)
        ((List.range X.length).map fun i => ms.map fun md => d md.index i) j).sum =
      ((List.range X.length).map fun i =>
        (((getMedoidIndices ms)[lab i]?).map fun m => d m i).getD 0).sum := by
    rw [← sum_by_label ms.length lab
      (fun j i => (((getMedoidIndices ms)[j]?).map fun m => d m i).getD 0) _
      fun i _ => hlabk i]
    congr 1
    apply List.map_congr_left
    intro j hj
    have hj := List.mem_range.1 hj
    rw [hcl j _ (List.getElem?_eq_getElem hj)]
    simp [getMedoidIndices, List.getElem?_eq_getElem hj]
  refine ⟨by simp, ?_, by simp [getMedoidIndices], ?_, rfl, ?_⟩
  · intro i j hij
    simp only at hij
    have hi : i < X.length := by
      have := (List.getElem?_eq_some_iff.1 hij).1; simpa using this
    rw [hget i hi] at hij
    cases hij
    exact hlab2 i
  · intro j m hj
    unfold getMedoidIndices at hj
    rw [List.getElem?_map, Option.map_eq_some_iff] at hj
    obtain ⟨md, hmd, rfl⟩ := hj
    have hjl := (List.getElem?_eq_some_iff.1 hmd).1
    rw [List.getElem?_map, List.getElem?_range hjl]
    simp only [Option.map_some, Option.some.injEq]
    rw [hcl j md hmd, hfil]
  · refine ⟨_, ?_, hsum⟩
    intro i _
    obtain ⟨m, hm, hmin⟩ := hlab2 i
    simp only [hm, Option.map_some, Option.getD_some]
    refine ⟨⟨m, List.mem_of_getElem? hm, rfl⟩, ?_⟩
    intro m' hm'
    obtain ⟨j', hj'⟩ := List.mem_iff_getElem?.1 hm'
    exact (hmin j' m' hj').1

theorem TotalCost.unique {d : Nat → Nat → K} {n : Nat} {ms : List Nat} {c c' : K}
    (h : TotalCost d n ms c) (h' : TotalCost d n ms c') : c = c' := by
  obtain ⟨f, hf, rfl⟩ := h
  obtain ⟨g, hg, rfl⟩ := h'
  congr 1
  apply List.map_congr_left
  intro i hi
  have hi := List.mem_range.1 hi
  obtain ⟨⟨m, hm, e⟩, hle⟩ := hf i hi
  obtain ⟨⟨m', hm', e'⟩, hle'⟩ := hg i hi
  apply le_antisymm
  · rw [e']; exact hle m' hm'
  · rw [e]; exact hle' m hm

/-- The invariant of the main loop. -/
structure KmInv (X : List S) (d : Nat → Nat → K) (tol : K) (init : List Nat)
    (st : KmState S K) : Prop where
  medoids : MedoidsOK X st.medoids
  ne : st.medoids ≠ []
  indices : st.medoidIndices = getMedoidIndices st.medoids
  spec : CostSpec d X.length (getMedoidIndices st.medoids) st.cost.labels st.cost.costs
    st.cost.total
  length : st.medoids.length = init.length
  nodup : init.Nodup → (getMedoidIndices st.medoids).Nodup
  head : st.history.head? = some (getMedoidIndices st.medoids, st.cost.total)
  last : ∃ c, st.history.getLast? = some (init, c)
  costs : ∀ s ∈ st.history, TotalCost d X.length s.1 s.2
  chain : st.history.IsChain (SwapStep X.length tol)

section

variable {X : List S} {d : Nat → Nat → K} {dm : Measure S K} {tol : K} {init : List Nat}

theorem MedoidsOK.set {ms : List (Medoid S)} (h : MedoidsOK X ms) {j i : Nat} {x : S}
    (hx : X[i]? = some x) : MedoidsOK X (ms.set j ⟨i, x⟩) := by
  intro md hmd
  rcases List.mem_or_eq_of_mem_set hmd with h' | rfl
  · exact h md h'
  · exact hx

theorem getMedoidIndices_set (ms : List (Medoid S)) (j i : Nat) (x : S) :
    getMedoidIndices (ms.set j ⟨i, x⟩) = (getMedoidIndices ms).set j i := by
  simp [getMedoidIndices, List.map_set]

/-- One candidate. -/
theorem tryCandidate_spec (hd : Realises dm X d) {st : KmState S K} (hi : KmInv X d tol init st)
    {j i : Nat} (hj : j < st.medoids.length) (hil : i < X.length) :
    ∃ st', tryCandidate X dm tol j i st = .ok st' ∧ KmInv X d tol init st' ∧
      ((st' = st ∧ (i ∉ getMedoidIndices st.medoids →
          ∀ c, TotalCost d X.length ((getMedoidIndices st.medoids).set j i) c →
            st.cost.total - c ≤ tol)) ∨
        st'.swapped = true) := by
  unfold tryCandidate
  rw [hi.indices]
  split
  · rename_i hmem
    exact ⟨st, rfl, hi, Or.inl ⟨rfl, fun h => absurd hmem h⟩⟩
  rename_i hmem
  rw [List.getElem?_eq_getElem hil]
  simp only [hj, if_true]
  have hok := hi.medoids.set (j := j) (List.getElem?_eq_getElem hil)
  have hne : st.medoids.set j ⟨i, X[i]⟩ ≠ [] := by
    intro h; have := congrArg List.length h; simp at this; exact hi.ne this
  obtain ⟨c, hc, hspec⟩ := getCost_spec hd hok hne
  rw [hc]
  simp only
  split
  · rename_i hgt
    refine ⟨_, rfl, ?_, Or.inr rfl⟩
    refine ⟨hok, hne, rfl, hspec, by simp [hi.length], ?_, rfl, ?_, ?_, ?_⟩
    · intro hn
      simp only
      rw [getMedoidIndices_set]
      exact (hi.nodup hn).set hmem
    · obtain ⟨c0, hc0⟩ := hi.last
      refine ⟨c0, ?_⟩
      simp only
      rw [List.getLast?_cons, hc0]; rfl
    · intro s hs
      rcases List.mem_cons.1 hs with rfl | hs
      · exact hspec.total_near
      · exact hi.costs s hs
    · have hh := hi.head
      cases hhist : st.history with
      | nil => rw [hhist] at hh; cases hh
      | cons a as =>
        rw [hhist] at hh
        simp only [List.head?_cons, Option.some.injEq] at hh
        rw [List.isChain_cons_cons]
        refine ⟨?_, hhist ▸ hi.chain⟩
        subst hh
        exact ⟨hgt, j, i, by simpa [getMedoidIndices] using hj, hil, hmem,
          getMedoidIndices_set _ _ _ _⟩
  · rename_i hgt
    refine ⟨st, rfl, hi, Or.inl ⟨rfl, ?_⟩⟩
    intro _ c' hc'
    rw [← getMedoidIndices_set st.medoids j i X[i]] at hc'
    rw [hc'.unique hspec.total_near]
    exact not_lt.1 hgt

/-- One candidate, without knowing that `j` is a valid position. -/
theorem tryCandidate_inv (hd : Realises dm X d) {st st' : KmState S K}
    (hi : KmInv X d tol init st) {j i : Nat} (h : tryCandidate X dm tol j i st = .ok st') :
    KmInv X d tol init st' ∧ (st.swapped = true → st'.swapped = true) ∧
    (st'.swapped = false → st' = st ∧ (i < X.length → j < st.medoids.length →
      i ∉ getMedoidIndices st.medoids →
      ∀ c, TotalCost d X.length ((getMedoidIndices st.medoids).set j i) c →
        st.cost.total - c ≤ tol)) := by
  by_cases hmem : i ∈ st.medoidIndices
  · unfold tryCandidate at h
    rw [if_pos hmem] at h
    cases h
    rw [hi.indices] at hmem
    exact ⟨hi, id, fun _ => ⟨rfl, fun _ _ h => absurd hmem h⟩⟩
  · have hil : i < X.length := by
      unfold tryCandidate at h
      rw [if_neg hmem] at h
      by_contra hc
      rw [List.getElem?_eq_none (by omega)] at h
      cases h
    have hj : j < st.medoids.length := by
      unfold tryCandidate at h
      rw [if_neg hmem, List.getElem?_eq_getElem hil] at h
      by_contra hc
      simp only [hc, if_false] at h
      cases h
    obtain ⟨s, h1, h2, h3⟩ := tryCandidate_spec hd hi hj hil
    rw [h] at h1
    cases h1
    refine ⟨h2, ?_, ?_⟩
    · intro hs
      rcases h3 with ⟨rfl, _⟩ | h3
      · exact hs
      · exact h3
    · intro hs
      rcases h3 with ⟨rfl, h4⟩ | h3
      · exact ⟨rfl, fun _ _ => h4⟩
      · rw [hs] at h3; cases h3

theorem scanCandidates_inv (hd : Realises dm X d) {j : Nat} : ∀ (is : List Nat)
    {st st' : KmState S K}, KmInv X d tol init st → scanCandidates X dm tol j is st = .ok st' →
    KmInv X d tol init st' ∧ (st.swapped = true → st'.swapped = true) ∧
    (st'.swapped = false → st' = st ∧ ∀ i ∈ is, i < X.length → j < st.medoids.length →
      i ∉ getMedoidIndices st.medoids →
      ∀ c, TotalCost d X.length ((getMedoidIndices st.medoids).set j i) c →
        st.cost.total - c ≤ tol) := by
  intro is
  induction is with
  | nil => intro st st' hi h; cases h; exact ⟨hi, id, fun _ => ⟨rfl, by simp⟩⟩
  | cons i is ih =>
    intro st st' hi h
    unfold scanCandidates at h
    split at h
    · cases h
    rename_i st1 h1
    obtain ⟨a1, a2, a3⟩ := tryCandidate_inv hd hi h1
    obtain ⟨b1, b2, b3⟩ := ih a1 h
    refine ⟨b1, fun hs => b2 (a2 hs), ?_⟩
    intro hs
    obtain ⟨e, c3⟩ := b3 hs
    have hs1 : st1.swapped = false := by rw [← e]; exact hs
    obtain ⟨e1, c4⟩ := a3 hs1
    subst e e1
    refine ⟨rfl, ?_⟩
    intro i' hi'
    rcases List.mem_cons.1 hi' with rfl | hi'
    · exact c4
    · exact c3 i' hi'

theorem scanClusters_inv (hd : Realises dm X d) {mode : KmMode} : ∀ (js : List Nat)
    {st st' : KmState S K}, KmInv X d tol init st → scanClusters X dm mode tol js st = .ok st' →
    KmInv X d tol init st' ∧ (st.swapped = true → st'.swapped = true) ∧
    (st'.swapped = false → st' = st ∧ ∀ j ∈ js, ∃ is,
      candidates mode X.length st.cost.labels j = .ok is ∧
      ∀ i ∈ is, i < X.length → j < st.medoids.length →
      i ∉ getMedoidIndices st.medoids →
      ∀ c, TotalCost d X.length ((getMedoidIndices st.medoids).set j i) c →
        st.cost.total - c ≤ tol) := by
  intro js
  induction js with
  | nil => intro st st' hi h; cases h; exact ⟨hi, id, fun _ => ⟨rfl, by simp⟩⟩
  | cons j js ih =>
    intro st st' hi h
    unfold scanClusters at h
    split at h
    · cases h
    rename_i is his
    split at h
    · cases h
    rename_i st1 h1
    obtain ⟨a1, a2, a3⟩ := scanCandidates_inv hd is hi h1
    obtain ⟨b1, b2, b3⟩ := ih a1 h
    refine ⟨b1, fun hs => b2 (a2 hs), ?_⟩
    intro hs
    obtain ⟨e, c3⟩ := b3 hs
    have hs1 : st1.swapped = false := by rw [← e]; exact hs
    obtain ⟨e1, c4⟩ := a3 hs1
    subst e e1
    refine ⟨rfl, ?_⟩
    intro j' hj'
    rcases List.mem_cons.1 hj' with rfl | hj'
    · exact ⟨is, his, c4⟩
    · exact c3 j' hj'

theorem KmInv.start {st : KmState S K} (h : KmInv X d tol init st) :
    KmInv X d tol init
      { st with swapped := false, medoidIndices := getMedoidIndices st.medoids } :=
  ⟨h.medoids, h.ne, rfl, h.spec, h.length, h.nodup, h.head, h.last, h.costs, h.chain⟩

theorem kmLoop_inv (hd : Realises dm X d) {mode : KmMode} {k maxIter : Nat} (cc : Nat)
    (st : KmState S K) {st' : KmState S K} {cc' : Nat} (hcc : cc ≤ maxIter + 1)
    (hi : KmInv X d tol init st)
    (h : kmLoop X k dm mode maxIter tol cc st = .ok (st', cc')) :
    KmInv X d tol init st' ∧ cc' ≤ maxIter + 1 ∧
    (cc' ≤ maxIter → ∀ j < k, ∃ is,
      candidates mode X.length st'.cost.labels j = .ok is ∧
      ∀ i ∈ is, i < X.length → j < st'.medoids.length →
      i ∉ getMedoidIndices st'.medoids →
      ∀ c, TotalCost d X.length ((getMedoidIndices st'.medoids).set j i) c →
        st'.cost.total - c ≤ tol) := by
  induction cc, st using kmLoop.induct X k dm mode maxIter tol with
  | case1 cc st e hs => rw [kmLoop, hs] at h; cases h
  | case2 cc st s hs hgt =>
    rw [kmLoop, hs] at h
    simp only [hgt, if_true, Except.ok.injEq, Prod.mk.injEq] at h
    obtain ⟨rfl, rfl⟩ := h
    exact ⟨(scanClusters_inv hd _ hi.start hs).1, hcc, fun h => absurd h (by omega)⟩
  | case3 cc st s hs hgt hsw =>
    rw [kmLoop, hs] at h
    simp only [hgt, if_false, hsw, if_true, Except.ok.injEq, Prod.mk.injEq] at h
    obtain ⟨rfl, rfl⟩ := h
    obtain ⟨a1, _, a3⟩ := scanClusters_inv hd _ hi.start hs
    refine ⟨a1, hcc, fun _ j hj => ?_⟩
    obtain ⟨e, a4⟩ := a3 (by simpa using hsw)
    obtain ⟨is, b1, b2⟩ := a4 j (List.mem_range.2 hj)
    rw [e]
    exact ⟨is, b1, b2⟩
  | case4 cc st s hs hgt hsw ih =>
    rw [kmLoop, hs] at h
    simp only [hgt, if_false, hsw, Bool.false_eq_true] at h
    exact ih (by omega) (scanClusters_inv hd _ hi.start hs).1 h

theorem scanCandidates_ok (hd : Realises dm X d) {j : Nat} : ∀ (is : List Nat)
    {st : KmState S K}, KmInv X d tol init st → j < init.length → (∀ i ∈ is, i < X.length) →
    ∃ st', scanCandidates X dm tol j is st = .ok st' := by
  intro is
  induction is with
  | nil => intro st _ _ _; exact ⟨st, rfl⟩
  | cons i is ih =>
    intro st hi hj his
    obtain ⟨st1, h1, h2, _⟩ := tryCandidate_spec hd hi (by rw [hi.length]; exact hj)
      (his i (by simp))
    obtain ⟨st2, h3⟩ := ih h2 hj fun i' hi' => his i' (by simp [hi'])
    exact ⟨st2, by rw [scanCandidates, h1]; exact h3⟩

theorem scanClusters_ok (hd : Realises dm X d) {mode : KmMode} (hm : mode ≠ .other) :
    ∀ (js : List Nat) {st : KmState S K}, KmInv X d tol init st → (∀ j ∈ js, j < init.length) →
    ∃ st', scanClusters X dm mode tol js st = .ok st' := by
  intro js
  induction js with
  | nil => intro st _ _; exact ⟨st, rfl⟩
  | cons j js ih =>
    intro st hi hj
    have hc : ∃ is, candidates mode X.length st.cost.labels j = .ok is ∧ ∀ i ∈ is, i < X.length := by
      cases mode with
      | lite =>
        refine ⟨_, rfl, ?_⟩
        intro i hi'
        have := List.mem_range.1 (List.mem_filter.1 hi').1
        rwa [hi.spec.labels_len] at this
      | robust => exact ⟨_, rfl, fun i h => List.mem_range.1 h⟩
      | other => exact absurd rfl hm
    obtain ⟨is, h1, h2⟩ := hc
    obtain ⟨st1, h3⟩ := scanCandidates_ok hd is hi (hj j (by simp)) h2
    obtain ⟨st2, h4⟩ := ih (scanCandidates_inv hd is hi h3).1 fun j' hj' => hj j' (by simp [hj'])
    exact ⟨st2, by rw [scanClusters, h1]; simp only [h3]; exact h4⟩

theorem kmLoop_ok (hd : Realises dm X d) {mode : KmMode} (hm : mode ≠ .other) {k maxIter : Nat}
    (cc : Nat) (st : KmState S K) (hi : KmInv X d tol init st) (hk : k ≤ init.length) :
    ∃ r, kmLoop X k dm mode maxIter tol cc st = .ok r := by
  have hstep : ∀ st : KmState S K, KmInv X d tol init st →
      ∃ st', scanClusters X dm mode tol (List.range k)
        { st with swapped := false, medoidIndices := getMedoidIndices st.medoids } = .ok st' :=
    fun st hi => scanClusters_ok hd hm _ hi.start fun j hj => by
      have := List.mem_range.1 hj; omega
  induction cc, st using kmLoop.induct X k dm mode maxIter tol with
  | case1 cc st e hs =>
    obtain ⟨st', h⟩ := hstep st hi
    rw [h] at hs; cases hs
  | case2 cc st s hs hgt => exact ⟨_, by rw [kmLoop, hs]; simp only [hgt, if_true]; rfl⟩
  | case3 cc st s hs hgt hsw =>
    exact ⟨_, by rw [kmLoop, hs]; simp only [hgt, if_false, hsw, if_true]; rfl⟩
  | case4 cc st s hs hgt hsw ih =>
    obtain ⟨r, hr⟩ := ih (scanClusters_inv hd _ hi.start hs).1
    exact ⟨r, by rw [kmLoop, hs]; simp only [hgt, if_false, hsw]; exact hr⟩

theorem medoidsAt_ok {indices : List Nat} {ms : List (Medoid S)}
    (h : medoidsAt X indices = .ok ms) :
    MedoidsOK X ms ∧ getMedoidIndices ms = indices ∧ ∀ i ∈ indices, i < X.length := by
  unfold medoidsAt at h
  rw [mapM_eq_ok] at h
  induction h with
  | nil => exact ⟨fun md h => absurd h (by simp), rfl, by simp⟩
  | @cons i md is mds h1 _ ih =>
    obtain ⟨a, b, c⟩ := ih
    split at h1
    · rename_i s hs
      cases h1
      refine ⟨?_, by simp [getMedoidIndices] at b ⊢; exact b, ?_⟩
      · intro md hmd
        rcases List.mem_cons.1 hmd with rfl | hmd
        · exact hs
        · exact a md hmd
      · intro j hj
        rcases List.mem_cons.1 hj with rfl | hj
        · exact (List.getElem?_eq_some_iff.1 hs).1
        · exact c j hj
    · cases h1

theorem medoidsAt_exists {indices : List Nat} (h : ∀ i ∈ indices, i < X.length) :
    ∃ ms, medoidsAt X indices = .ok ms := by
  induction indices with
  | nil => exact ⟨[], rfl⟩
  | cons i is ih =>
    obtain ⟨ms, hms⟩ := ih fun j hj => h j (by simp [hj])
    have hi := h i (by simp)
    refine ⟨⟨i, X[i]⟩ :: ms, ?_⟩
    unfold medoidsAt at hms ⊢
    rw [List.mapM_cons, hms, List.getElem?_eq_getElem hi]; rfl

theorem chooseInitial_ok {k : Nat} {outcome : List Nat} {initial : Option (List Nat)}
    {ms : List (Medoid S)} (h : chooseInitialMedoids X k outcome initial = .ok ms) :
    MedoidsOK X ms ∧ getMedoidIndices ms = initialIndices initial outcome ∧
      ∀ i ∈ initialIndices initial outcome, i < X.length := by
  unfold chooseInitialMedoids at h
  unfold initialIndices
  split at h
  · exact medoidsAt_ok h
  · rename_i hne
    split at h
    · cases initial with
      | none => exact medoidsAt_ok h
      | some l =>
        cases l with
        | nil => exact medoidsAt_ok h
        | cons a l => exact absurd rfl (hne a l)
    · cases h

theorem KmInv.initial {ms : List (Medoid S)} {c : CostResult K} (hms : MedoidsOK X ms)
    (hne : ms ≠ []) (hidx : getMedoidIndices ms = init)
    (hc : CostSpec d X.length (getMedoidIndices ms) c.labels c.costs c.total) :
    KmInv X d tol init ⟨ms, getMedoidIndices ms, c, true, [(getMedoidIndices ms, c.total)]⟩ := by
  refine ⟨hms, hne, rfl, hc, ?_, fun h => by simp only; rw [hidx]; exact h, rfl,
    ⟨c.total, by simp [hidx]⟩, ?_, List.isChain_singleton _⟩
  · rw [← hidx]; simp [getMedoidIndices]
  · intro s hs
    simp at hs
    subst hs
    exact hc.total_near

theorem runKmedoids_inv (hd : Realises dm X d) {k : Nat} {initial : Option (List Nat)}
    {outcome : List Nat} {mode : KmMode} {maxIter : Nat} {verbose : Bool} {r : KmResult K}
    (hX : X ≠ [])
    (h : runKmedoids X k dm initial outcome mode maxIter tol verbose = .ok r) :
    ∃ st cc, KmInv X d tol (initialIndices initial outcome) st ∧
      (∀ i ∈ initialIndices initial outcome, i < X.length) ∧ cc ≤ maxIter + 1 ∧
      (cc ≤ maxIter → ∀ j < k, ∃ is,
        candidates mode X.length st.cost.labels j = .ok is ∧
        ∀ i ∈ is, i < X.length → j < st.medoids.length →
        i ∉ getMedoidIndices st.medoids →
        ∀ c, TotalCost d X.length ((getMedoidIndices st.medoids).set j i) c →
          st.cost.total - c ≤ tol) ∧
      r = ⟨getMedoidIndices st.medoids, st.cost.labels, st.cost.costs, st.cost.total,
        st.cost.distMat, cc + 1, st.history⟩ := by
  unfold runKmedoids at h
  split at h
  · cases h
  rename_i ms hms
  obtain ⟨a1, a2, a3⟩ := chooseInitial_ok hms
  split at h
  · cases h
  rename_i c hc
  have hne : ms ≠ [] := by
    intro hms0
    subst hms0
    unfold getCost at hc
    rw [distMatOf_eq hd a1] at hc
    cases X with
    | nil => exact hX rfl
    | cons x xs =>
      simp only [List.length_cons, List.range_succ_eq_map, List.map_cons, List.map_nil,
        List.mapM_cons, argmin] at hc
      cases hc
  obtain ⟨c', hc', hspec⟩ := getCost_spec hd a1 hne
  rw [hc] at hc'
  cases hc'
  split at h
  · cases h
  rename_i st cc hloop
  obtain ⟨b1, b2, b3⟩ := kmLoop_inv hd 0 _ (by omega)
    (KmInv.initial (tol := tol) a1 hne a2 hspec) hloop
  refine ⟨st, cc, b1, a3, b2, b3, ?_⟩
  simp only at h
  split at h
  · split at h
    · cases h
    · cases h; rfl
  · cases h; rfl

end

end Spta
