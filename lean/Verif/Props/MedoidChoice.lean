import Verif.Lemmas.KMedoids
import Verif.Lemmas.Except
import Verif.Spec.MedoidChoice
import Verif.Props.Util
import Mathlib.Data.Multiset.Count
import Mathlib.Algebra.BigOperators.Group.Finset.Defs
import Mathlib.Algebra.Order.BigOperators.Group.Finset

/-!
# Properties of the choice of medoids: C54, C55, C56
-/

set_option linter.unusedSectionVars false

namespace Spta

section

variable {K : Type} [LinearOrder K]

/-! ### Lemmas -/

theorem MedoidHist.count_dictSet (h : MedoidHist) (key key' : MedoidKey) (n : Nat) :
    MedoidHist.count (dictSet key n h) key' = if key = key' then n else h.count key' := by
  induction h with
  | nil => simp only [dictSet, MedoidHist.count]
  | cons a h ih =>
    obtain ⟨a, m⟩ := a
    simp only [dictSet]
    by_cases h1 : a = key
    · rw [if_pos h1]
      simp only [MedoidHist.count, h1]
      split <;> rfl
    · rw [if_neg h1]
      simp only [MedoidHist.count, ih]
      by_cases h2 : a = key'
      · rw [if_pos h2, if_pos h2, if_neg (by rintro rfl; exact h1 h2)]
      · rw [if_neg h2, if_neg h2]

theorem suppressLoop_eq (hist : MedoidHist) (repr : Str) (threshold : Int) (ht : threshold ≠ 0) :
    ∀ (rest : List AbsPoint) (i : Nat) (scores : List (Score K)), scores.length = i + rest.length →
      (∀ j, i ≤ j → j < scores.length → (hist.count (repr, j) : Int) ≤ threshold) →
      suppressLoop hist repr threshold rest i scores =
        .ok (scores.mapIdx fun j s => if i ≤ j then effective threshold (hist.count (repr, j)) s else s) := by
  intro rest
  induction rest with
  | nil =>
    intro i scores hl _
    simp only [suppressLoop, Except.ok.injEq]
    apply List.ext_getElem (by simp)
    intro n h1 h2
    simp only [List.length_nil, Nat.add_zero] at hl
    rw [List.getElem_mapIdx, if_neg (by omega)]
  | cons m rest ih =>
    intro i scores hl hb
    simp only [List.length_cons] at hl
    rw [suppressLoop, if_pos (hb i le_rfl (by omega))]
    by_cases he : (hist.count (repr, i) : Int) = threshold
    · rw [if_pos he, if_pos (by omega), ih (i + 1) (scores.set i (some ⊤)) (by rw [List.length_set]; omega)
        (fun j h1 h2 => hb j (by omega) (by simpa using h2))]
      congr 1
      apply List.ext_getElem (by simp)
      intro n h1 h2
      rw [List.getElem_mapIdx, List.getElem_mapIdx, List.getElem_set]
      by_cases hn : i = n
      · subst hn
        rw [if_neg (by omega), if_pos rfl, if_pos le_rfl, effective, if_pos ⟨ht, he⟩]
      · rw [if_neg hn]
        by_cases h3 : i + 1 ≤ n
        · rw [if_pos h3, if_pos (by omega)]
        · rw [if_neg h3, if_neg (by omega)]
    · rw [if_neg he, ih (i + 1) scores (by omega) (fun j h1 h2 => hb j (by omega) h2)]
      congr 1
      apply List.ext_getElem (by simp)
      intro n h1 h2
      rw [List.getElem_mapIdx, List.getElem_mapIdx]
      by_cases hn : i = n
      · subst hn
        rw [if_neg (by omega), if_pos le_rfl, effective, if_neg (fun h => he h.2)]
      · by_cases h3 : i + 1 ≤ n
        · rw [if_pos h3, if_pos (by omega)]
        · rw [if_neg h3, if_neg (by omega)]

theorem suppress_eq (hist : MedoidHist) (repr : Str) (threshold : Int) (medoids : List AbsPoint)
    (raw : List (Score K)) (hl : raw.length = medoids.length)
    (hb : threshold ≠ 0 → ∀ i < medoids.length, (hist.count (repr, i) : Int) ≤ threshold) :
    suppress hist repr threshold medoids raw =
      .ok (raw.mapIdx fun j s => effective threshold (hist.count (repr, j)) s) := by
  unfold suppress
  by_cases ht : threshold = 0
  · rw [if_neg (by simpa using ht)]
    congr 1
    apply List.ext_getElem (by simp)
    intro n h1 h2
    rw [List.getElem_mapIdx, effective, if_neg (fun h => h.1 ht)]
  · rw [if_pos ht, suppressLoop_eq hist repr threshold ht medoids 0 raw (by omega)
      (fun j _ hj => hb ht j (by omega))]
    simp

/-- `np.argmin` on scores. -/
theorem scoreArgmin_spec (l : List (Score K)) (h : l ≠ []) : ∃ j, scoreArgmin l = .ok j ∧
    ((none ∈ l ∧ l[j]? = some none) ∨
     (none ∉ l ∧ ∃ v, l[j]? = some (some v) ∧
      ∀ (j' : Nat) (w : WithTop K), l[j']? = some (some w) → v ≤ w ∧ (j' < j → v < w))) := by
  unfold scoreArgmin
  cases hf : l.findIdx? (·.isNone) with
  | some i =>
    obtain ⟨h1, h2, _⟩ := List.findIdx?_eq_some_iff_getElem.1 hf
    have : l[i] = none := by simpa using h2
    refine ⟨i, rfl, .inl ⟨this ▸ List.getElem_mem h1, ?_⟩⟩
    rw [List.getElem?_eq_getElem h1, this]
  | none =>
    have hn : none ∉ l := by
      intro hm
      have := List.findIdx?_eq_none_iff.1 hf none hm
      simp at this
    have hm : l = l.reduceOption.map some := by
      clear hf h
      induction l with
      | nil => rfl
      | cons a l ih =>
        cases a with
        | none => simp at hn
        | some a =>
          exact congrArg (some a :: ·) (ih (fun h => hn (List.mem_cons_of_mem _ h)))
    have hne : l.reduceOption ≠ [] := by
      intro h0; rw [h0] at hm; exact h hm
    obtain ⟨j, h1, v, h2, h3⟩ := argmin_spec l.reduceOption hne
    refine ⟨j, h1, .inr ⟨hn, v, ?_, ?_⟩⟩
    · rw [hm, List.getElem?_map, h2]; rfl
    · intro j' w hw
      rw [hm, List.getElem?_map] at hw
      obtain ⟨w', hw', e⟩ := Option.map_eq_some_iff.1 hw
      cases e
      exact h3 j' w hw'

/-- One step of the loop of `choose_medoid`. -/
theorem chooseStep_spec {penalties : Str → List AbsPoint → Except PyErr (List (Score K))} {threshold : Int}
    {suite : SuiteResult} {hist : MedoidHist} {penalty : Str → Nat → Score K}
    (hp : Penalizes penalties threshold suite hist penalty) {e : Str × List AbsPoint} (he : e ∈ suite)
    (best : Best K) :
    (¬ Comparable penalty e ∧ chooseStep penalties threshold hist e.1 e.2 best = .ok best) ∨
    (Comparable penalty e ∧ ∃ i m v, e.2[i]? = some m ∧ penalty e.1 i = some v ∧
      chooseStep penalties threshold hist e.1 e.2 best =
        .ok (if v < best.score then ⟨some (e.1, i, m), v⟩ else best) ∧
      ∀ j w, j < e.2.length → penalty e.1 j = some w → v ≤ w ∧ (j < i → v < w)) := by
  obtain ⟨raw, h1, h2, h3⟩ := hp.scores e he
  have hs := suppress_eq hist e.1 threshold e.2 raw h2 (fun ht i hi => hp.below ht e he i hi)
  generalize hsc : (raw.mapIdx fun j s => effective threshold (hist.count (e.1, j)) s) = scores at hs
  have hlen : scores.length = e.2.length := by rw [← hsc, List.length_mapIdx, h2]
  have hget : ∀ i, i < e.2.length → scores[i]? = some (penalty e.1 i) := by
    intro i hi
    rw [← hsc, List.getElem?_mapIdx, List.getElem?_eq_getElem (by omega), Option.map_some,
      h3 i _ (List.getElem?_eq_getElem (by omega))]
  have hne : scores ≠ [] := by
    intro h0; rw [h0] at hlen
    exact hp.nonempty e he (List.length_eq_zero_iff.1 hlen.symm)
  obtain ⟨i, a1, a2⟩ := scoreArgmin_spec scores hne
  have hil : i < e.2.length := by
    rw [← hlen]
    rcases a2 with ⟨_, h⟩ | ⟨_, v, h, _⟩ <;> exact (List.getElem?_eq_some_iff.1 h).1
  have hmed : e.2[i]? = some e.2[i] := List.getElem?_eq_getElem hil
  rcases a2 with ⟨hn, hi⟩ | ⟨hn, v, hi, hmin⟩
  · left
    refine ⟨fun hc => hc i hil ?_, ?_⟩
    · have := hget i hil
      rw [hi] at this
      exact (Option.some.inj this).symm
    · simp only [chooseStep, h1, hs, a1, hi, hmed]
  · right
    refine ⟨fun j hj hj' => hn ?_, i, _, v, hmed, ?_, ?_, ?_⟩
    · have := hget j hj
      rw [hj'] at this
      exact List.mem_of_getElem? this
    · have := hget i hil
      rw [hi] at this
      exact (Option.some.inj this).symm
    · simp only [chooseStep, h1, hs, a1, hi, hmed]
    · intro j w hj hw
      have := hget j hj
      rw [hw] at this
      exact hmin j w this

/-- The state of the loop after the clusterings `done`. -/
def ChooseInv (done : SuiteResult) (penalty : Str → Nat → Score K) (best : Best K) : Prop :=
  (best.score = ⊤ ∧ ∀ e ∈ done, Comparable penalty e → ∀ i < e.2.length, penalty e.1 i = some ⊤) ∨
  ∃ a i e m v, FirstBest done penalty a i e m v ∧ best = ⟨some (e.1, i, m), (v : WithTop K)⟩

theorem ChooseInv.step {done : SuiteResult} {penalty : Str → Nat → Score K} {best : Best K}
    (h : ChooseInv done penalty best) {e : Str × List AbsPoint} {best' : Best K}
    (hs : (¬ Comparable penalty e ∧ best' = best) ∨
      (Comparable penalty e ∧ ∃ i m v, e.2[i]? = some m ∧ penalty e.1 i = some v ∧
        best' = (if v < best.score then ⟨some (e.1, i, m), v⟩ else best) ∧
        ∀ j w, j < e.2.length → penalty e.1 j = some w → v ≤ w ∧ (j < i → v < w))) :
    ChooseInv (done ++ [e]) penalty best' := by
  have hlast : ∀ (b : Nat) e', (done ++ [e])[b]? = some e' →
      (b < done.length ∧ done[b]? = some e') ∨ (b = done.length ∧ e' = e) := by
    intro b e' hb
    by_cases hbl : b < done.length
    · rw [List.getElem?_append_left hbl] at hb
      exact .inl ⟨hbl, hb⟩
    · rw [List.getElem?_append_right (by omega)] at hb
      obtain ⟨h1, h2⟩ := List.getElem?_eq_some_iff.1 hb
      simp only [List.length_cons, List.length_nil] at h1
      have h3 : b - done.length = 0 := by omega
      simp only [h3, List.getElem_cons_zero] at h2
      exact .inr ⟨by omega, h2.symm⟩
  have keep : ∀ {a i e0 m v}, FirstBest done penalty a i e0 m v →
      (Comparable penalty e → ∀ j w, j < e.2.length → penalty e.1 j = some w → (v : WithTop K) ≤ w) →
      FirstBest (done ++ [e]) penalty a i e0 m v := by
    intro a i e0 m v hf hle
    have ha : a < done.length := (List.getElem?_eq_some_iff.1 hf.clustering).1
    refine ⟨by rw [List.getElem?_append_left ha]; exact hf.clustering, hf.medoid, hf.comparable, hf.value,
      ?_, ?_⟩
    · intro b e' j w hb hc hj hw
      rcases hlast b e' hb with ⟨_, hb'⟩ | ⟨_, rfl⟩
      · exact hf.least b e' j w hb' hc hj hw
      · exact hle hc j w hj hw
    · intro b e' j w hb hc hj hw hbef
      rcases hlast b e' hb with ⟨_, hb'⟩ | ⟨h1, rfl⟩
      · exact hf.first b e' j w hb' hc hj hw hbef
      · rcases hbef with h2 | ⟨h2, _⟩ <;> omega
  rcases hs with ⟨hnc, rfl⟩ | ⟨hc, i, m, v, h1, h2, hb, h4⟩
  · rcases h with ⟨h1, h2⟩ | ⟨a, i, e0, m, v, hf, hb⟩
    · refine .inl ⟨h1, fun e' he' hc i hi => ?_⟩
      rcases List.mem_append.1 he' with h | h
      · exact h2 e' h hc i hi
      · simp only [List.mem_singleton] at h
        exact absurd (h ▸ hc) hnc
    · exact .inr ⟨a, i, e0, m, v, keep hf (fun hc => absurd hc hnc), hb⟩
  · have hil : i < e.2.length := (List.getElem?_eq_some_iff.1 h1).1
    by_cases hv : v < best.score
    · rw [if_pos hv] at hb
      right
      obtain ⟨u, rfl⟩ : ∃ u : K, (u : WithTop K) = v := WithTop.ne_top_iff_exists.1 (ne_top_of_lt hv)
      have hold : ∀ (b : Nat) e' (j : Nat) w, done[b]? = some e' → Comparable penalty e' →
          j < e'.2.length → penalty e'.1 j = some w → (u : WithTop K) < w := by
        intro b e' j w hb' hc' hj hw
        rcases h with ⟨g1, g2⟩ | ⟨a, i', e0, m', v', hf, hb0⟩
        · have := g2 e' (List.mem_of_getElem? hb') hc' j hj
          rw [hw] at this
          rw [Option.some.inj this, ← g1]; exact hv
        · rw [hb0] at hv
          exact hv.trans_le (hf.least b e' j w hb' hc' hj hw)
      refine ⟨done.length, i, e, m, u, ⟨by simp, h1, hc, h2, ?_, ?_⟩, hb⟩
      · intro b e' j w hb' hc' hj hw
        rcases hlast b e' hb' with ⟨_, hb''⟩ | ⟨_, rfl⟩
        · exact (hold b e' j w hb'' hc' hj hw).le
        · exact (h4 j w hj hw).1
      · intro b e' j w hb' hc' hj hw hbef
        rcases hlast b e' hb' with ⟨_, hb''⟩ | ⟨g1, rfl⟩
        · exact hold b e' j w hb'' hc' hj hw
        · rcases hbef with g | ⟨_, g⟩
          · omega
          · exact (h4 j w hj hw).2 g
    · rw [if_neg hv] at hb
      subst hb
      have hv' := not_lt.1 hv
      rcases h with ⟨g1, g2⟩ | ⟨a, i', e0, m', v', hf, hb0⟩
      · refine .inl ⟨g1, fun e' he' hc' j hj => ?_⟩
        rcases List.mem_append.1 he' with h | h
        · exact g2 e' h hc' j hj
        · simp only [List.mem_singleton] at h
          subst h
          rw [g1, top_le_iff] at hv'
          cases hw : penalty e'.1 j with
          | none => exact absurd hw (hc' j hj)
          | some w =>
            have := (h4 j w hj hw).1
            rw [hv', top_le_iff] at this
            rw [this]
      · refine .inr ⟨a, i', e0, m', v', keep hf (fun _ j w hj hw => ?_), hb0⟩
        rw [hb0] at hv'
        exact hv'.trans (h4 j w hj hw).1

theorem chooseLoop_spec {penalties : Str → List AbsPoint → Except PyErr (List (Score K))} {threshold : Int}
    {suite : SuiteResult} {hist : MedoidHist} {penalty : Str → Nat → Score K}
    (hp : Penalizes penalties threshold suite hist penalty) :
    ∀ (rest done : SuiteResult) (best : Best K), done ++ rest = suite → ChooseInv done penalty best →
      ∃ best', chooseLoop penalties threshold hist rest best = .ok best' ∧ ChooseInv suite penalty best' := by
  intro rest
  induction rest with
  | nil =>
    intro done best hd h
    rw [List.append_nil] at hd
    exact ⟨best, rfl, hd ▸ h⟩
  | cons e rest ih =>
    intro done best hd h
    have he : e ∈ suite := by rw [← hd]; simp
    have hd' : (done ++ [e]) ++ rest = suite := by rw [← hd]; simp
    rcases chooseStep_spec hp he best with ⟨hnc, hs⟩ | ⟨hc, i, m, v, h1, h2, hs, h4⟩
    · obtain ⟨b, hb1, hb2⟩ := ih (done ++ [e]) best hd' (h.step (.inl ⟨hnc, rfl⟩))
      exact ⟨b, by simp only [chooseLoop, hs, hb1], hb2⟩
    · obtain ⟨b, hb1, hb2⟩ := ih (done ++ [e]) _ hd' (h.step (.inr ⟨hc, i, m, v, h1, h2, rfl, h4⟩))
      exact ⟨b, by simp only [chooseLoop, hs, hb1], hb2⟩

/-! ### C54 -/

/-- **C54**: among the clusterings without NaN penalties, the chosen medoid has the smallest penalty and
is the first with this penalty, and only its counter grows (by one); a ValueError is raised, without
touching the histogram, exactly when all these penalties are infinite. -/
theorem C54_choice {penalties : Str → List AbsPoint → Except PyErr (List (Score K))} {threshold : Int}
    {suite : SuiteResult} {hist : MedoidHist} {penalty : Str → Nat → Score K}
    (hp : Penalizes penalties threshold suite hist penalty) :
    ((∀ e ∈ suite, Comparable penalty e → ∀ i < e.2.length, penalty e.1 i = some ⊤) ∧
      chooseMedoid penalties threshold suite hist = (.error .valueError, hist)) ∨
    (∃ a i e m v, FirstBest suite penalty a i e m v ∧ ∃ hist',
      chooseMedoid penalties threshold suite hist = (.ok (e.1, i, m), hist') ∧
      ∀ key, hist'.count key = hist.count key + if key = (e.1, i) then 1 else 0) := by
  obtain ⟨best, h1, h2⟩ := chooseLoop_spec hp suite [] ⟨none, ⊤⟩ rfl (.inl ⟨rfl, by simp⟩)
  rcases h2 with ⟨h3, h4⟩ | ⟨a, i, e, m, v, hf, hb⟩
  · left
    refine ⟨h4, ?_⟩
    simp only [chooseMedoid, h1, h3]
  · right
    subst hb
    refine ⟨a, i, e, m, v, hf, dictSet (e.1, i) (hist.count (e.1, i) + 1) hist,
      by simp only [chooseMedoid, h1], ?_⟩
    intro key
    rw [MedoidHist.count_dictSet]
    by_cases hk : key = (e.1, i)
    · rw [if_pos hk.symm, if_pos hk, hk]
    · rw [if_neg (fun h => hk h.symm), if_neg hk]; rfl

/-- **C54** as claimed, for penalties that are never NaN: the choice is the first medoid with the smallest
penalty of all medoids of the suite, and an error is raised exactly when every penalty is infinite. -/
theorem C54_no_nan_partial {penalties : Str → List AbsPoint → Except PyErr (List (Score K))}
    {threshold : Int} {suite : SuiteResult} {hist : MedoidHist} {penalty : Str → Nat → Score K}
    (hp : Penalizes penalties threshold suite hist penalty)
    (hn : ∀ e ∈ suite, ∀ i < e.2.length, penalty e.1 i ≠ none) :
    (chooseMedoid penalties threshold suite hist = (.error .valueError, hist) ↔
      ∀ e ∈ suite, ∀ i < e.2.length, penalty e.1 i = some ⊤) ∧
    (∀ c hist', chooseMedoid penalties threshold suite hist = (.ok c, hist') →
      ∃ (a : Nat) (ms : List AbsPoint) (v : K), suite[a]? = some (c.1, ms) ∧ ms[c.2.1]? = some c.2.2 ∧
        penalty c.1 c.2.1 = some (v : WithTop K) ∧
        ∀ (b : Nat) r' ms' (j : Nat) w, suite[b]? = some (r', ms') → j < ms'.length →
          penalty r' j = some w → (v : WithTop K) ≤ w ∧ (Before b j a c.2.1 → (v : WithTop K) < w)) := by
  rcases C54_choice hp with ⟨h1, h2⟩ | ⟨a, i, e, m, v, hf, hist', h2, _⟩
  · rw [h2]
    refine ⟨⟨fun _ e he i hi => h1 e he (hn e he) i hi, fun _ => rfl⟩, fun c hist' h => ?_⟩
    simp at h
  · rw [h2]
    refine ⟨⟨fun h => by simp at h, fun h => ?_⟩, fun c h' hc => ?_⟩
    · have he := List.mem_of_getElem? hf.clustering
      have := h e he i (List.getElem?_eq_some_iff.1 hf.medoid).1
      rw [hf.value] at this
      simp at this
    · simp only [Prod.mk.injEq, Except.ok.injEq] at hc
      obtain ⟨rfl, rfl⟩ := hc
      refine ⟨a, e.2, v, hf.clustering, hf.medoid, hf.value, ?_⟩
      intro b r' ms' j w hb hj hw
      have hc' : Comparable penalty (r', ms') := hn _ (List.mem_of_getElem? hb)
      exact ⟨hf.least b _ j w hb hc' hj hw, hf.first b _ j w hb hc' hj hw⟩

end

/-- Two clusterings; the threshold 1 has been reached by the medoid with the smallest score, so that the
next one is chosen (the first of two equal ones). -/
example :
    let penalties : Str → List AbsPoint → Except PyErr (List (Score ℚ)) := fun r _ =>
      if r = ['a'] then .ok [some ((3 : ℚ) : WithTop ℚ), some ((1 : ℚ) : WithTop ℚ)]
      else .ok [some ((2 : ℚ) : WithTop ℚ), some ((2 : ℚ) : WithTop ℚ)]
    let suite : SuiteResult := [(['a'], [(0, 0), (0, 1)]), (['b'], [(1, 0), (1, 1)])]
    (Penalizes penalties 1 suite [((['a'], 1), 1)] (fun r i =>
      if r = ['a'] then (if i = 0 then some ((3 : ℚ) : WithTop ℚ) else some ⊤)
      else some ((2 : ℚ) : WithTop ℚ))) ∧
    chooseMedoid penalties 1 suite [((['a'], 1), 1)] =
      (.ok (['b'], 0, (1, 0)), [((['a'], 1), 1), ((['b'], 0), 1)]) := by
  refine ⟨⟨by decide, ?_, ?_⟩, by decide +kernel⟩
  · intro e he
    simp only [List.mem_cons, List.not_mem_nil, or_false] at he
    rcases he with rfl | rfl
    · refine ⟨_, rfl, rfl, fun i s hs => ?_⟩
      rcases i with _ | _ | i
      · simp at hs; subst hs; decide +kernel
      · simp at hs; subst hs; decide +kernel
      · simp at hs
    · refine ⟨_, rfl, rfl, fun i s hs => ?_⟩
      rcases i with _ | _ | i
      · simp at hs; subst hs; decide +kernel
      · simp at hs; subst hs; decide +kernel
      · simp at hs
  · intro _
    decide

/-- **C54** is violated with NaN penalties: `np.argmin` picks the NaN, so that a finite penalty of the
same clustering is ignored; here the only finite penalty is ignored and a ValueError is raised. -/
theorem C54_nan_refuted :
    let penalties : Str → List AbsPoint → Except PyErr (List (Score ℚ)) := fun _ _ =>
      .ok [some ((1 : ℚ) : WithTop ℚ), none]
    let suite : SuiteResult := [(['a'], [(0, 0), (0, 1)])]
    Penalizes penalties 0 suite [] (fun _ i => if i = 0 then some ((1 : ℚ) : WithTop ℚ) else none) ∧
    chooseMedoid penalties 0 suite [] = (.error .valueError, []) := by
  refine ⟨⟨by decide, ?_, fun h => absurd rfl h⟩, by decide +kernel⟩
  intro e he
  simp only [List.mem_cons, List.not_mem_nil, or_false] at he
  subst he
  refine ⟨_, rfl, rfl, fun i s hs => ?_⟩
  rcases i with _ | _ | i
  · simp at hs; subst hs; decide +kernel
  · simp at hs; subst hs; decide +kernel
  · simp at hs

/-! ### C55 -/

section

variable {K : Type} [LinearOrder K]

theorem suppressLoop_facts (hist : MedoidHist) (repr : Str) (threshold : Int) :
    ∀ (rest : List AbsPoint) (i : Nat) (scores out : List (Score K)),
      suppressLoop hist repr threshold rest i scores = .ok out →
      (∀ j < i, out[j]? = scores[j]?) ∧
      ∀ j, i ≤ j → j < i + rest.length → (hist.count (repr, j) : Int) ≤ threshold ∧
        ((hist.count (repr, j) : Int) = threshold → out[j]? = some (some ⊤)) := by
  intro rest
  induction rest with
  | nil =>
    intro i scores out h
    simp only [suppressLoop, Except.ok.injEq] at h
    subst h
    exact ⟨fun _ _ => rfl, fun j h1 h2 => by simp at h2; omega⟩
  | cons m rest ih =>
    intro i scores out h
    rw [suppressLoop] at h
    by_cases h1 : (hist.count (repr, i) : Int) ≤ threshold
    · rw [if_pos h1] at h
      by_cases h2 : (hist.count (repr, i) : Int) = threshold
      · rw [if_pos h2] at h
        by_cases h3 : i < scores.length
        · rw [if_pos h3] at h
          obtain ⟨g1, g2⟩ := ih (i + 1) _ out h
          refine ⟨fun j hj => ?_, fun j hj1 hj2 => ?_⟩
          · rw [g1 j (by omega), List.getElem?_set_ne (by omega)]
          · by_cases hj : j = i
            · subst hj
              refine ⟨h1, fun _ => ?_⟩
              rw [g1 j (by omega), List.getElem?_set_self h3]
            · exact g2 j (by omega) (by simp only [List.length_cons] at hj2; omega)
        · rw [if_neg h3] at h; cases h
      · rw [if_neg h2] at h
        obtain ⟨g1, g2⟩ := ih (i + 1) _ out h
        refine ⟨fun j hj => g1 j (by omega), fun j hj1 hj2 => ?_⟩
        by_cases hj : j = i
        · subst hj
          exact ⟨h1, fun h => absurd h h2⟩
        · exact g2 j (by omega) (by simp only [List.length_cons] at hj2; omega)
    · rw [if_neg h1] at h; cases h

/-- A medoid that may be chosen: it belongs to the suite and has not reached the threshold. -/
def Available (threshold : Int) (hist : MedoidHist) (suite : SuiteResult) (c : Str × Nat × AbsPoint) :
    Prop :=
  (∃ e ∈ suite, e.1 = c.1 ∧ e.2[c.2.1]? = some c.2.2) ∧
  (threshold ≠ 0 → (hist.count (c.1, c.2.1) : Int) < threshold)

theorem chooseStep_available {penalties : Str → List AbsPoint → Except PyErr (List (Score K))}
    {threshold : Int} {hist : MedoidHist} {suite : SuiteResult} {e : Str × List AbsPoint} (he : e ∈ suite)
    {best best' : Best K} (hb : ∀ c, best.choice = some c → Available threshold hist suite c)
    (h : chooseStep penalties threshold hist e.1 e.2 best = .ok best') :
    ∀ c, best'.choice = some c → Available threshold hist suite c := by
  unfold chooseStep at h
  cases h1 : penalties e.1 e.2 with
  | error err => rw [h1] at h; cases h
  | ok raw =>
    rw [h1] at h
    simp only at h
    cases h2 : suppress hist e.1 threshold e.2 raw with
    | error err => rw [h2] at h; cases h
    | ok scores =>
      rw [h2] at h
      simp only at h
      cases h3 : scoreArgmin scores with
      | error err => rw [h3] at h; cases h
      | ok i =>
        rw [h3] at h
        simp only at h
        split at h
        · rename_i v m hv hm
          simp only [Except.ok.injEq] at h
          by_cases hlt : v < best.score
          · rw [if_pos hlt] at h
            subst h
            intro c hc
            simp only [Option.some.injEq] at hc
            subst hc
            refine ⟨⟨e, he, rfl, hm⟩, fun ht => ?_⟩
            rw [suppress, if_pos ht] at h2
            have hi : i < e.2.length := (List.getElem?_eq_some_iff.1 hm).1
            obtain ⟨g1, g2⟩ := (suppressLoop_facts hist e.1 threshold e.2 0 raw scores h2).2 i (by omega)
              (by omega)
            rcases lt_or_eq_of_le g1 with g | g
            · exact g
            · have := g2 g
              rw [hv] at this
              simp only [Option.some.injEq] at this
              rw [this] at hlt
              exact absurd hlt not_top_lt
          · rw [if_neg hlt] at h
            exact h ▸ hb
        · simp only [Except.ok.injEq] at h
          exact h ▸ hb
        · cases h

theorem chooseLoop_available {penalties : Str → List AbsPoint → Except PyErr (List (Score K))}
    {threshold : Int} {hist : MedoidHist} {suite : SuiteResult} :
    ∀ {rest : SuiteResult} {best best' : Best K}, (∀ e ∈ rest, e ∈ suite) →
      (∀ c, best.choice = some c → Available threshold hist suite c) →
      chooseLoop penalties threshold hist rest best = .ok best' →
      ∀ c, best'.choice = some c → Available threshold hist suite c := by
  intro rest
  induction rest with
  | nil =>
    intro best best' _ hb h
    simp only [chooseLoop, Except.ok.injEq] at h
    exact h ▸ hb
  | cons e rest ih =>
    intro best best' hs hb h
    obtain ⟨r, ms⟩ := e
    rw [chooseLoop] at h
    cases h1 : chooseStep penalties threshold hist r ms best with
    | error err => rw [h1] at h; cases h
    | ok b =>
      rw [h1] at h
      exact ih (fun e he => hs e (List.mem_cons_of_mem _ he))
        (chooseStep_available (e := (r, ms)) (hs _ (List.mem_cons_self ..)) hb h1) h

/-- A successful choice is of an available medoid, and only its counter grows (by one); a failed one
leaves the histogram as it was. -/
theorem chooseMedoid_facts {penalties : Str → List AbsPoint → Except PyErr (List (Score K))}
    {threshold : Int} {hist hist' : MedoidHist} {suite : SuiteResult} :
    (∀ c, chooseMedoid penalties threshold suite hist = (.ok c, hist') →
      Available threshold hist suite c ∧
      ∀ key, hist'.count key = hist.count key + if (c.1, c.2.1) = key then 1 else 0) ∧
    (∀ err, chooseMedoid penalties threshold suite hist = (.error err, hist') → hist' = hist) := by
  unfold chooseMedoid
  cases h1 : chooseLoop penalties threshold hist suite (⟨none, ⊤⟩ : Best K) with
  | error e =>
    simp only [Prod.mk.injEq]
    exact ⟨fun c h => (by cases h.1), fun _ h => h.2.symm⟩
  | ok best =>
    have hav := chooseLoop_available (suite := suite) (fun e he => he)
      (fun c hc => by cases hc) h1
    simp only
    split
    · simp only [Prod.mk.injEq]
      exact ⟨fun c h => (by cases h.1), fun _ h => h.2.symm⟩
    · simp only [Prod.mk.injEq]
      exact ⟨fun c h => (by cases h.1), fun _ h => h.2.symm⟩
    · rename_i c hc _
      simp only [Prod.mk.injEq, Except.ok.injEq, reduceCtorEq, false_and, false_imp_iff, implies_true,
        and_true]
      rintro c' ⟨rfl, rfl⟩
      refine ⟨hav c hc, fun key => ?_⟩
      rw [MedoidHist.count_dictSet]
      by_cases hk : (c.1, c.2.1) = key
      · rw [if_pos hk, if_pos hk, hk]
      · rw [if_neg hk, if_neg hk]; rfl

/-- **C55** (counts): after a run over any sequence of points, from any histogram, the counter of each
medoid has grown by exactly the number of times it was chosen. -/
theorem C55_counts {P : Type} {penalties : P → Str → List AbsPoint → Except PyErr (List (Score K))}
    {threshold : Int} {suite : SuiteResult} :
    ∀ {points : List P} {hist hist' : MedoidHist} {cs : List (Str × Nat × AbsPoint)},
      chooseAll penalties threshold suite points hist = (.ok cs, hist') →
      cs.length = points.length ∧
      (∀ c ∈ cs, ∃ e ∈ suite, e.1 = c.1 ∧ e.2[c.2.1]? = some c.2.2) ∧
      ∀ key, hist'.count key = hist.count key + cs.countP fun c => (c.1, c.2.1) = key := by
  intro points
  induction points with
  | nil =>
    intro hist hist' cs h
    simp only [chooseAll, Prod.mk.injEq, Except.ok.injEq] at h
    obtain ⟨rfl, rfl⟩ := h
    simp
  | cons p ps ih =>
    intro hist hist' cs h
    rw [chooseAll] at h
    cases h1 : chooseMedoid (penalties p) threshold suite hist with
    | mk r h2 =>
      cases r with
      | error e => rw [h1] at h; simp at h
      | ok c =>
        rw [h1] at h
        simp only at h
        cases h3 : chooseAll penalties threshold suite ps h2 with
        | mk r3 h4 =>
          cases r3 with
          | error e => rw [h3] at h; simp at h
          | ok rest =>
            rw [h3] at h
            simp only [Prod.mk.injEq, Except.ok.injEq] at h
            obtain ⟨rfl, rfl⟩ := h
            obtain ⟨g1, g2, g3⟩ := ih h3
            obtain ⟨a1, a2⟩ := chooseMedoid_facts.1 c h1
            refine ⟨by simp [g1], ?_, ?_⟩
            · intro c' hc'
              rcases List.mem_cons.1 hc' with rfl | hc'
              · exact a1.1
              · exact g2 c' hc'
            · intro key
              rw [g3, a2, List.countP_cons]
              simp only [decide_eq_true_eq]
              omega

/-- **C55** (bound): with a threshold, no counter ever exceeds it, whether or not the run ends with an
exception. -/
theorem C55_bound {P : Type} {penalties : P → Str → List AbsPoint → Except PyErr (List (Score K))}
    {threshold : Int} (ht : 0 < threshold) {suite : SuiteResult} :
    ∀ (points : List P) (hist : MedoidHist), (∀ key, (hist.count key : Int) ≤ threshold) →
      ∀ key, ((chooseAll penalties threshold suite points hist).2.count key : Int) ≤ threshold := by
  intro points
  induction points with
  | nil => intro hist h; exact h
  | cons p ps ih =>
    intro hist h
    rw [chooseAll]
    cases h1 : chooseMedoid (penalties p) threshold suite hist with
    | mk r h2 =>
      cases r with
      | error e =>
        rw [chooseMedoid_facts.2 e h1]
        exact h
      | ok c =>
        simp only
        obtain ⟨a1, a2⟩ := chooseMedoid_facts.1 c h1
        have hh : ∀ key, (MedoidHist.count h2 key : Int) ≤ threshold := by
          intro key
          rw [a2]
          have := a1.2 (by omega)
          have := h key
          by_cases hk : (c.1, c.2.1) = key
          · subst hk; rw [if_pos rfl]; omega
          · rw [if_neg hk]; omega
        have := ih h2 hh
        cases h3 : chooseAll penalties threshold suite ps h2 with
        | mk r3 h4 =>
          rw [h3] at this
          cases r3 <;> exact this

/-- **C55** as claimed: starting with the empty histogram of `evaluate_score_of_random_points`, no medoid
is chosen more than `threshold` times and the histogram counts exactly the choices. -/
theorem C55_threshold {P : Type} {penalties : P → Str → List AbsPoint → Except PyErr (List (Score K))}
    {threshold : Int} (ht : 0 < threshold) {suite : SuiteResult} {points : List P} {hist : MedoidHist}
    {cs : List (Str × Nat × AbsPoint)}
    (h : chooseAll penalties threshold suite points [] = (.ok cs, hist)) (key : MedoidKey) :
    hist.count key = cs.countP (fun c => (c.1, c.2.1) = key) ∧
    (cs.countP (fun c => (c.1, c.2.1) = key) : Int) ≤ threshold := by
  have h1 := (C55_counts h).2.2 key
  have h2 := C55_bound (penalties := penalties) ht (suite := suite) points [] (fun key => by
    show ((0 : Nat) : Int) ≤ threshold
    omega) key
  rw [h] at h2
  simp only [MedoidHist.count, Nat.zero_add] at h1 h2
  rw [h1] at h2
  exact ⟨h1, h2⟩

/-- Each exception leaves the histogram of the choices made so far: it is that of the run over the points
before the failing one. -/
theorem C55_prefix {P : Type} {penalties : P → Str → List AbsPoint → Except PyErr (List (Score K))}
    {threshold : Int} {suite : SuiteResult} {err : PyErr} :
    ∀ {points : List P} {hist hist' : MedoidHist},
      chooseAll penalties threshold suite points hist = (.error err, hist') →
      ∃ n cs, n < points.length ∧
        chooseAll penalties threshold suite (points.take n) hist = (.ok cs, hist') := by
  intro points
  induction points with
  | nil => intro hist hist' h; simp [chooseAll] at h
  | cons p ps ih =>
    intro hist hist' h
    rw [chooseAll] at h
    cases h1 : chooseMedoid (penalties p) threshold suite hist with
    | mk r h2 =>
      cases r with
      | error e =>
        rw [h1] at h
        simp only [Prod.mk.injEq, Except.error.injEq] at h
        obtain ⟨rfl, rfl⟩ := h
        refine ⟨0, [], by simp, ?_⟩
        rw [chooseMedoid_facts.2 e h1]
        rfl
      | ok c =>
        rw [h1] at h
        simp only at h
        cases h3 : chooseAll penalties threshold suite ps h2 with
        | mk r3 h4 =>
          cases r3 with
          | ok rest => rw [h3] at h; simp at h
          | error e =>
            rw [h3] at h
            simp only [Prod.mk.injEq, Except.error.injEq] at h
            obtain ⟨rfl, rfl⟩ := h
            obtain ⟨n, cs, hn, hc⟩ := ih h3
            refine ⟨n + 1, c :: cs, by simp only [List.length_cons]; omega, ?_⟩
            rw [List.take_succ_cons, chooseAll, h1]
            simp only [hc]

theorem suppressLoop_no_assertion {hist : MedoidHist} {repr : Str} {threshold : Int}
    (hb : ∀ key, (hist.count key : Int) ≤ threshold) :
    ∀ (rest : List AbsPoint) (i : Nat) (scores : List (Score K)),
      suppressLoop hist repr threshold rest i scores ≠ .error .assertionError := by
  intro rest
  induction rest with
  | nil => intro i scores h; cases h
  | cons m rest ih =>
    intro i scores
    rw [suppressLoop, if_pos (hb _)]
    split
    · split
      · exact ih _ _
      · intro h; cases h
    · exact ih _ _

theorem chooseLoop_no_assertion {penalties : Str → List AbsPoint → Except PyErr (List (Score K))}
    {threshold : Int} {hist : MedoidHist} (hp : ∀ r ms, penalties r ms ≠ .error .assertionError)
    (hb : ∀ key, (hist.count key : Int) ≤ threshold) :
    ∀ (rest : SuiteResult) (best : Best K),
      chooseLoop penalties threshold hist rest best ≠ .error .assertionError := by
  intro rest
  induction rest with
  | nil => intro best h; cases h
  | cons e rest ih =>
    intro best
    obtain ⟨r, ms⟩ := e
    rw [chooseLoop]
    cases h1 : chooseStep penalties threshold hist r ms best with
    | ok b => exact ih b
    | error err =>
      simp only [ne_eq, Except.error.injEq]
      rintro rfl
      unfold chooseStep at h1
      cases h2 : penalties r ms with
      | error err =>
        rw [h2] at h1
        simp only [Except.error.injEq] at h1
        exact hp r ms (h1 ▸ h2)
      | ok raw =>
        rw [h2] at h1
        simp only at h1
        cases h3 : suppress hist r threshold ms raw with
        | error err =>
          rw [h3] at h1
          simp only [Except.error.injEq] at h1
          subst h1
          rw [suppress] at h3
          split at h3
          · exact suppressLoop_no_assertion hb _ _ _ h3
          · cases h3
        | ok scores =>
          rw [h3] at h1
          simp only at h1
          by_cases hne : scores = []
          · subst hne
            have h5 : scoreArgmin ([] : List (Score K)) = .error .valueError := rfl
            rw [h5] at h1
            cases h1
          · obtain ⟨i, h4, _⟩ := scoreArgmin_spec scores hne
            rw [h4] at h1
            simp only at h1
            split at h1 <;> cases h1

/-- **C55** (assertion): the assertion of the threshold algorithm never fails. -/
theorem C55_no_assertion {P : Type} {penalties : P → Str → List AbsPoint → Except PyErr (List (Score K))}
    {threshold : Int} (ht : 0 < threshold) {suite : SuiteResult}
    (hp : ∀ p r ms, penalties p r ms ≠ .error .assertionError) :
    ∀ (points : List P) (hist : MedoidHist), (∀ key, (hist.count key : Int) ≤ threshold) →
      (chooseAll penalties threshold suite points hist).1 ≠ .error .assertionError := by
  intro points
  induction points with
  | nil => intro hist _ h; cases h
  | cons p ps ih =>
    intro hist hb
    have hb1 := C55_bound (penalties := penalties) ht (suite := suite) [p] hist hb
    rw [chooseAll] at hb1 ⊢
    cases h1 : chooseMedoid (penalties p) threshold suite hist with
    | mk r h2 =>
      cases r with
      | error e =>
        simp only [ne_eq, Except.error.injEq]
        rintro rfl
        unfold chooseMedoid at h1
        cases h3 : chooseLoop (penalties p) threshold hist suite (⟨none, ⊤⟩ : Best K) with
        | error e =>
          rw [h3] at h1
          simp only [Prod.mk.injEq, Except.error.injEq] at h1
          exact chooseLoop_no_assertion (hp p) hb suite _ (h1.1 ▸ h3)
        | ok b =>
          rw [h3] at h1
          simp only at h1
          split at h1 <;> simp at h1
      | ok c =>
        rw [h1] at hb1
        simp only [chooseAll] at hb1
        have := ih h2 hb1
        simp only
        cases h3 : chooseAll penalties threshold suite ps h2 with
        | mk r3 h4 =>
          rw [h3] at this
          cases r3 with
          | error e => exact this
          | ok _ => intro h; cases h

/-- **C55** (capacity): a run with a threshold can succeed only for at most `threshold` points per
medoid of the suite. -/
theorem C55_capacity {P : Type} {penalties : P → Str → List AbsPoint → Except PyErr (List (Score K))}
    {threshold : Nat} (ht : 0 < threshold) {suite : SuiteResult} {points : List P} {hist : MedoidHist}
    {cs : List (Str × Nat × AbsPoint)}
    (h : chooseAll penalties threshold suite points [] = (.ok cs, hist)) :
    points.length ≤ (suite.map fun e => e.2.length).sum * threshold := by
  obtain ⟨h1, h2, _⟩ := C55_counts h
  let keys : List MedoidKey := suite.flatMap fun e => (List.range e.2.length).map fun i => (e.1, i)
  let chosen : Multiset MedoidKey := (cs.map fun c => (c.1, c.2.1) : List MedoidKey)
  have hsub : chosen.toFinset ⊆ keys.toFinset := by
    intro k hk
    simp only [chosen, Multiset.mem_toFinset, Multiset.mem_coe, List.mem_map] at hk
    obtain ⟨c, hc, rfl⟩ := hk
    obtain ⟨e, he, h3, h4⟩ := h2 c hc
    simp only [keys, List.mem_toFinset, List.mem_flatMap, List.mem_map, List.mem_range]
    exact ⟨e, he, c.2.1, (List.getElem?_eq_some_iff.1 h4).1, by rw [h3]⟩
  have hcard : Multiset.card chosen = cs.length := by simp [chosen]
  have hcount : ∀ k, chosen.count k ≤ threshold := by
    intro k
    have := (C55_threshold (by omega) h k).2
    have e : chosen.count k = cs.countP fun c => (c.1, c.2.1) = k := by
      simp only [chosen, Multiset.coe_count, List.count, List.countP_map]
      congr 1
    rw [e]; omega
  have hk : keys.length = (suite.map fun e => e.2.length).sum := by
    simp [keys, List.length_flatMap]
  calc points.length = Multiset.card chosen := by omega
    _ = ∑ k ∈ chosen.toFinset, chosen.count k := (Multiset.toFinset_sum_count_eq chosen).symm
    _ ≤ ∑ _k ∈ chosen.toFinset, threshold := Finset.sum_le_sum fun k _ => hcount k
    _ = chosen.toFinset.card * threshold := by rw [Finset.sum_const]; rfl
    _ ≤ keys.length * threshold :=
        Nat.mul_le_mul_right _ ((Finset.card_le_card hsub).trans (List.toFinset_card_le keys))
    _ = _ := by rw [hk]

/-- **C55** (exhaustion): with finite scores, the ValueError means that every medoid of the suite has
reached the threshold. -/
theorem C55_exhausted {penalties : Str → List AbsPoint → Except PyErr (List (Score K))} {threshold : Int}
    {suite : SuiteResult} {hist : MedoidHist} (score : Str → Nat → K)
    (hs : ∀ e ∈ suite, e.2 ≠ [] ∧ penalties e.1 e.2 =
      .ok ((List.range e.2.length).map fun i => some (score e.1 i : WithTop K)))
    (hb : threshold ≠ 0 → ∀ e ∈ suite, ∀ i < e.2.length, (hist.count (e.1, i) : Int) ≤ threshold) :
    (∃ c hist', chooseMedoid penalties threshold suite hist = (.ok c, hist')) ↔
      ∃ e ∈ suite, ∃ i < e.2.length, threshold = 0 ∨ (hist.count (e.1, i) : Int) < threshold := by
  have hp : Penalizes penalties threshold suite hist fun r i =>
      effective threshold (hist.count (r, i)) (some (score r i : WithTop K)) := by
    refine ⟨fun e he => (hs e he).1, fun e he => ⟨_, (hs e he).2, by simp, fun i s hi => ?_⟩, hb⟩
    rw [List.getElem?_map] at hi
    obtain ⟨j, hj, rfl⟩ := Option.map_eq_some_iff.1 hi
    obtain ⟨h1, h2⟩ := List.getElem?_eq_some_iff.1 hj
    simp only [List.getElem_range] at h2
    rw [h2]
  have hn : ∀ e ∈ suite, ∀ i < e.2.length,
      effective threshold (hist.count (e.1, i)) (some (score e.1 i : WithTop K)) ≠ none := by
    intro e he i hi
    unfold effective
    split <;> simp
  have hiff := (C54_no_nan_partial hp hn).1
  constructor
  · rintro ⟨c, hist', hc⟩
    by_contra hcon
    push Not at hcon
    have : chooseMedoid penalties threshold suite hist = (.error .valueError, hist) := by
      rw [hiff]
      intro e he i hi
      obtain ⟨g1, g2⟩ := hcon e he i hi
      rw [effective, if_pos ⟨g1, le_antisymm (hb g1 e he i hi) g2⟩]
    rw [this] at hc
    simp at hc
  · rintro ⟨e, he, i, hi, h⟩
    rcases C54_choice hp with ⟨h1, _⟩ | ⟨a, j, e', m, v, _, hist', h2, _⟩
    · have := h1 e he (hn e he) i hi
      rw [effective, if_neg (by rintro ⟨g1, g2⟩; rcases h with h | h <;> omega)] at this
      simp at this
    · exact ⟨_, _, h2⟩

end

set_option synthInstance.maxSize 512 in
/-- A run over three points with threshold 2: the best medoid is used twice, then the other one. -/
example :
    let penalties : Nat → Str → List AbsPoint → Except PyErr (List (Score ℚ)) := fun _ _ _ =>
      .ok [some ((3 : ℚ) : WithTop ℚ), some ((1 : ℚ) : WithTop ℚ)]
    chooseAll penalties 2 [(['a'], [(0, 0), (0, 1)])] [7, 8, 9] [] =
      (.ok [(['a'], 1, (0, 1)), (['a'], 1, (0, 1)), (['a'], 0, (0, 0))],
        [((['a'], 1), 2), ((['a'], 0), 1)]) := by
  decide +kernel

/-! ### C56 -/

/-- **C56** (what holds for every offset): the random points are `count` pairwise different points of the
region, whenever there are enough points left; otherwise there is a ValueError. -/
theorem C56_distinct (count : Nat) (perm : List Nat) (blacklist : List Int) (xLen yLen : Nat)
    (hp : perm.Perm (List.range
      (Finset.Icc (0 : Int) ((xLen * yLen : Nat) - 1) \ blacklist.toFinset).card)) :
    ((Finset.Icc (0 : Int) ((xLen * yLen : Nat) - 1) \ blacklist.toFinset).card < count →
      randomPoints count perm blacklist xLen yLen = .error .valueError) ∧
    (count ≤ (Finset.Icc (0 : Int) ((xLen * yLen : Nat) - 1) \ blacklist.toFinset).card →
      ∃ ps, randomPoints count perm blacklist xLen yLen = .ok ps ∧ ps.length = count ∧ ps.Nodup ∧
        ∀ p ∈ ps, p.x < xLen ∧ p.y < yLen ∧ ((p.x * yLen + p.y : Nat) : Int) ∉ blacklist) := by
  obtain ⟨h1, h2⟩ := C44_sound count 0 ((xLen * yLen : Nat) - 1) blacklist perm hp
  refine ⟨fun h => by rw [randomPoints, h1 h], fun h => ?_⟩
  obtain ⟨is, h3, h4, h5, h6⟩ := h2 h
  have hfacts : ∀ i ∈ is, i.toNat < xLen * yLen ∧ 0 < yLen ∧ (i.toNat : Int) = i := by
    intro i hi
    obtain ⟨a, b, _⟩ := h6 i hi
    have : i.toNat < xLen * yLen := by omega
    exact ⟨this, Nat.pos_of_ne_zero (by rintro rfl; simp at this), by omega⟩
  refine ⟨_, by rw [randomPoints, h3], by rw [List.length_map, h4], ?_, ?_⟩
  · refine List.Nodup.map_on ?_ h5
    intro a ha b hb hab
    simp only [Point.mk.injEq] at hab
    obtain ⟨_, _, e1⟩ := hfacts a ha
    obtain ⟨_, _, e2⟩ := hfacts b hb
    rw [← e1, ← e2, ← Nat.div_add_mod' a.toNat yLen, ← Nat.div_add_mod' b.toNat yLen, hab.1, hab.2]
  · intro p hp
    obtain ⟨i, hi, rfl⟩ := List.mem_map.1 hp
    obtain ⟨g1, g2, g3⟩ := hfacts i hi
    refine ⟨(Nat.div_lt_iff_lt_mul g2).2 g1, Nat.mod_lt _ g2, ?_⟩
    simp only [Nat.div_add_mod']
    rw [g3]
    exact (h6 i hi).2.2

/-- The medoids of the suite are points of the rectangle. -/
def MedoidsInside (r : Region) (suite : SuiteResult) : Prop :=
  ∀ e ∈ suite, ∀ m ∈ e.2, (r.x1 : Int) ≤ m.1 ∧ m.1 < r.x2 ∧ (r.y1 : Int) ≤ m.2 ∧ m.2 < r.y2

/-- The random points (in coordinates of the region) are not medoids of the suite. -/
def AvoidMedoids (r : Region) (suite : SuiteResult) (ps : List Point) : Prop :=
  ∀ p ∈ ps, ∀ e ∈ suite, ∀ m ∈ e.2, ((r.x1 + p.x : Nat) : Int) ≠ m.1 ∨ ((r.y1 + p.y : Nat) : Int) ≠ m.2

/-- **C56** for regions that start at the origin. -/
theorem C56_origin_partial (r : Region) (h0 : r.x1 = 0 ∧ r.y1 = 0) (suite : SuiteResult)
    (count : Nat) (perm : List Nat)
    (hp : perm.Perm (List.range (Finset.Icc (0 : Int) (((r.x2 - r.x1) * (r.y2 - r.y1) : Nat) - 1) \
      (allMedoidIndices suite (r.y2 - r.y1)).toFinset).card))
    (ps : List Point) (hps : randomPoints count perm (allMedoidIndices suite (r.y2 - r.y1))
      (r.x2 - r.x1) (r.y2 - r.y1) = .ok ps) :
    ps.length = count ∧ ps.Nodup ∧ (∀ p ∈ ps, p.x < r.x2 - r.x1 ∧ p.y < r.y2 - r.y1) ∧
      AvoidMedoids r suite ps := by
  obtain ⟨h1, h2⟩ := C56_distinct count perm (allMedoidIndices suite (r.y2 - r.y1)) (r.x2 - r.x1)
    (r.y2 - r.y1) hp
  rcases Nat.lt_or_ge (Finset.Icc (0 : Int) (((r.x2 - r.x1) * (r.y2 - r.y1) : Nat) - 1) \
      (allMedoidIndices suite (r.y2 - r.y1)).toFinset).card count with h | h
  · rw [h1 h] at hps; cases hps
  · obtain ⟨ps', e, g1, g2, g3⟩ := h2 h
    rw [hps] at e
    cases e
    refine ⟨g1, g2, fun p hp => ⟨(g3 p hp).1, (g3 p hp).2.1⟩, ?_⟩
    intro p hp e he m hm
    by_contra hcon
    push Not at hcon
    refine (g3 p hp).2.2 ?_
    rw [allMedoidIndices, List.mem_map]
    refine ⟨m, List.mem_eraseDups.2 (List.mem_flatMap.2 ⟨e, he, hm⟩), ?_⟩
    rw [h0.1, h0.2] at hcon
    rw [← hcon.1, ← hcon.2]
    simp

/-- The hypotheses of the two theorems are met: a 2x2 region with one medoid and two random points. -/
example :
    let suite : SuiteResult := [(['a'], [(0, 1)])]
    [2, 0, 1].Perm (List.range (Finset.Icc (0 : Int) (((2 - 0) * (2 - 0) : Nat) - 1) \
      (allMedoidIndices suite (2 - 0)).toFinset).card) ∧
    randomPoints 2 [2, 0, 1] (allMedoidIndices suite 2) 2 2 = .ok [⟨1, 1⟩, ⟨0, 0⟩] := by
  decide

/-- **C56** exactly (partial: the property holds of all choices under this condition): all random points avoid the medoids, whatever is
drawn, if and only if each medoid inside the region has, in the coordinates of the region, the same position in the list of
points as some medoid in absolute coordinates. -/
theorem C56_exactly_partial (r : Region) (suite : SuiteResult) :
    (∀ (count : Nat) (perm : List Nat) (ps : List Point),
      perm.Perm (List.range (Finset.Icc (0 : Int) (((r.x2 - r.x1) * (r.y2 - r.y1) : Nat) - 1) \
        (allMedoidIndices suite (r.y2 - r.y1)).toFinset).card) →
      randomPoints count perm (allMedoidIndices suite (r.y2 - r.y1)) (r.x2 - r.x1) (r.y2 - r.y1) = .ok ps →
      AvoidMedoids r suite ps) ↔
    ∀ p : Point, p.x < r.x2 - r.x1 → p.y < r.y2 - r.y1 →
      (∃ e ∈ suite, (((r.x1 + p.x : Nat) : Int), ((r.y1 + p.y : Nat) : Int)) ∈ e.2) →
      ∃ e ∈ suite, ∃ m ∈ e.2, m.1 * ((r.y2 - r.y1 : Nat) : Int) + m.2 = ((p.x * (r.y2 - r.y1) + p.y : Nat) : Int) := by
  have hmem : ∀ i : Int, i ∈ allMedoidIndices suite (r.y2 - r.y1) ↔
      ∃ e ∈ suite, ∃ m ∈ e.2, m.1 * ((r.y2 - r.y1 : Nat) : Int) + m.2 = i := by
    intro i
    rw [allMedoidIndices, List.mem_map]
    constructor
    · rintro ⟨m, hm, h⟩
      obtain ⟨e, he, hme⟩ := List.mem_flatMap.1 (List.mem_eraseDups.1 hm)
      exact ⟨e, he, m, hme, h⟩
    · rintro ⟨e, he, m, hme, h⟩
      exact ⟨m, List.mem_eraseDups.2 (List.mem_flatMap.2 ⟨e, he, hme⟩), h⟩
  constructor
  · rintro h p hx hy ⟨e, he, hm⟩
    by_contra hcon
    rw [← hmem] at hcon
    have hlt : p.x * (r.y2 - r.y1) + p.y < (r.x2 - r.x1) * (r.y2 - r.y1) := idx_lt hx hy
    obtain ⟨perm, h1, h2⟩ := C44_complete 0 (((r.x2 - r.x1) * (r.y2 - r.y1) : Nat) - 1)
      (allMedoidIndices suite (r.y2 - r.y1)) [((p.x * (r.y2 - r.y1) + p.y : Nat) : Int)] (List.nodup_singleton _) (by
        intro v hv
        rw [List.mem_singleton] at hv
        subst hv
        exact ⟨by omega, by omega, hcon⟩)
    have h3 := h 1 perm [p] h1 (by
      rw [randomPoints, show (1 : Nat) = [((p.x * (r.y2 - r.y1) + p.y : Nat) : Int)].length from rfl, h2]
      simp only [List.map_cons, List.map_nil, Int.toNat_natCast]
      rw [Nat.mul_comm p.x, Nat.mul_add_div (by omega), Nat.div_eq_of_lt hy, Nat.mul_add_mod, Nat.mod_eq_of_lt hy]
      rfl)
    have := h3 p (List.mem_singleton.2 rfl) e he _ hm
    simp at this
  · intro h count perm ps hp hps p hpp e he m hm
    by_contra hcon
    push Not at hcon
    obtain ⟨h1, h2⟩ := C56_distinct count perm (allMedoidIndices suite (r.y2 - r.y1)) (r.x2 - r.x1) (r.y2 - r.y1) hp
    rcases Nat.lt_or_ge (Finset.Icc (0 : Int) (((r.x2 - r.x1) * (r.y2 - r.y1) : Nat) - 1) \
        (allMedoidIndices suite (r.y2 - r.y1)).toFinset).card count with h' | h'
    · rw [h1 h'] at hps; cases hps
    · obtain ⟨ps', e', g1, g2, g3⟩ := h2 h'
      rw [hps] at e'
      cases e'
      obtain ⟨k1, k2, k3⟩ := g3 p hpp
      refine k3 ((hmem _).2 (h p k1 k2 ⟨e, he, ?_⟩))
      rw [hcon.1, hcon.2]
      exact hm

/-- The condition holds of a region that starts at the origin, and of some others: the medoid (1, 1) of the region
`[1, 3) x [0, 2)` is its point (0, 1), with the position 1 of the medoid (0, 1), which is outside. -/
example : ∀ p : Point, p.x < 3 - 1 → p.y < 2 - 0 →
    (∃ e ∈ ([([], [(1, 1), (0, 1)])] : SuiteResult), (((1 + p.x : Nat) : Int), ((0 + p.y : Nat) : Int)) ∈ e.2) →
    ∃ e ∈ ([([], [(1, 1), (0, 1)])] : SuiteResult), ∃ m ∈ e.2,
      m.1 * ((2 - 0 : Nat) : Int) + m.2 = ((p.x * (2 - 0) + p.y : Nat) : Int) := by
  rintro ⟨x, y⟩ hx hy ⟨e, he, hm⟩
  simp at he hx hy
  subst he
  simp at hm
  refine ⟨_, List.mem_singleton.2 rfl, (0, 1), by simp, ?_⟩
  simp
  omega

/-- **C56** is violated for a region with an offset: the blacklist is computed from the absolute
coordinates of the medoids. Here the rectangle is `[1, 2) x [0, 2)` and its point (0, 0), the medoid of
the suite, is chosen as a random point. -/
theorem C56_offset_refuted :
    ∃ (r : Region) (suite : SuiteResult) (perm : List Nat) (ps : List Point),
      MedoidsInside r suite ∧
      perm.Perm (List.range (Finset.Icc (0 : Int) (((r.x2 - r.x1) * (r.y2 - r.y1) : Nat) - 1) \
        (allMedoidIndices suite (r.y2 - r.y1)).toFinset).card) ∧
      randomPoints 1 perm (allMedoidIndices suite (r.y2 - r.y1)) (r.x2 - r.x1) (r.y2 - r.y1) = .ok ps ∧
      ¬ AvoidMedoids r suite ps := by
  refine ⟨⟨1, 2, 0, 2⟩, [(['a'], [(1, 0)])], [0, 1], [⟨0, 0⟩], ?_, by decide, by decide, ?_⟩
  · intro e he m hm
    simp only [List.mem_singleton] at he
    subst he
    simp only [List.mem_singleton] at hm
    subst hm
    decide
  · intro h
    have := h ⟨0, 0⟩ (by simp) _ (List.mem_singleton.2 rfl) (1, 0) (by simp)
    simp at this

end Spta
