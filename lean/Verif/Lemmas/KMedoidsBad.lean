import Mathlib.Data.List.GetD
import Verif.Lemmas.Except
import Verif.Lemmas.KMedoids
import Verif.Model.KMedoidsBad
import Verif.Spec.KMedoidsBad

/-!
# Lemmas on the algorithm of kmedoids_bad
-/

set_option linter.unusedSectionVars false

namespace Spta

variable {S K : Type} [LinearOrder K]

/-- The labels always exist and are those of the nearest medoids. -/
theorem badLabels_spec (measure : S → S → K) (X : List S) (ms : List (Medoid S)) (h : ms ≠ []) :
    ∃ labels, badLabels measure X ms = .ok labels ∧ NearestLabels measure X ms labels := by
  have hne : ∀ x : S, (ms.map fun m => measure x m.series) ≠ [] := by simp [h]
  have hex : ∀ x : S, ∃ j, argmin (ms.map fun m => measure x m.series) = .ok j ∧
      ∃ m, ms[j]? = some m ∧ ∀ (j' : Nat) (m' : Medoid S), ms[j']? = some m' →
        measure x m.series ≤ measure x m'.series ∧ (j' < j → measure x m.series < measure x m'.series) := by
    intro x
    obtain ⟨j, h1, v, h2, h3⟩ := argmin_spec _ (hne x)
    refine ⟨j, h1, ?_⟩
    rw [List.getElem?_map] at h2
    cases hm : ms[j]? with
    | none => rw [hm] at h2; cases h2
    | some m =>
      rw [hm] at h2
      cases h2
      refine ⟨m, rfl, ?_⟩
      intro j' m' hm'
      exact h3 j' (measure x m'.series) (by rw [List.getElem?_map, hm']; rfl)
  choose f hf hf' using hex
  refine ⟨X.map f, ?_, by simp, ?_⟩
  · unfold badLabels
    rw [if_neg (by simp [h])]
    exact mapM_ok _ f X fun x _ => hf x
  · intro idx x l hx hl
    rw [List.getElem?_map, hx] at hl
    cases hl
    exact hf' x

/-- What one or several changes of medoids do: positions are untouched, or hold a series of the data with a
smaller dissimilarity. -/
def BadSteps (D : S → K) (X : List S) (a b : List (Medoid S)) : Prop :=
  b.length = a.length ∧ ∀ (j : Nat) (m m' : Medoid S), a[j]? = some m → b[j]? = some m' →
    m' = m ∨ (D m'.series < D m.series ∧ X[m'.index]? = some m'.series)

theorem BadSteps.refl (D : S → K) (X : List S) (a : List (Medoid S)) : BadSteps D X a a :=
  ⟨rfl, fun j m m' h h' => .inl (by rw [h] at h'; cases h'; rfl)⟩

theorem BadSteps.trans {D : S → K} {X : List S} {a b c : List (Medoid S)} (h1 : BadSteps D X a b)
    (h2 : BadSteps D X b c) : BadSteps D X a c := by
  refine ⟨h2.1.trans h1.1, ?_⟩
  intro j m m' hm hm'
  have hj := (List.getElem?_eq_some_iff.1 hm).1
  have hb : b[j]? = some (b[j]'(by rw [h1.1]; exact hj)) := List.getElem?_eq_getElem _
  rcases h1.2 j m _ hm hb with e1 | ⟨e1, _⟩
  · rcases h2.2 j _ m' hb hm' with e2 | e2
    · exact .inl (e2.trans e1)
    · rw [e1] at e2; exact .inr e2
  · rcases h2.2 j _ m' hb hm' with e2 | ⟨e2, e3⟩
    · subst e2; exact .inr ⟨e1, by
        rcases h1.2 j m _ hm hb with e | ⟨_, e⟩
        · rw [e] at e1; exact absurd e1 (lt_irrefl _)
        · exact e⟩
    · exact .inr ⟨e2.trans e1, e3⟩

/-- Going back to the same medoids means that there was no change. -/
theorem BadSteps.antisymm {D : S → K} {X : List S} {a b : List (Medoid S)} (h1 : BadSteps D X a b)
    (h2 : BadSteps D X b a) : b = a := by
  apply List.ext_getElem? 
  intro j
  rcases Nat.lt_or_ge j a.length with hj | hj
  · have ha : a[j]? = some a[j] := List.getElem?_eq_getElem _
    have hb : b[j]? = some (b[j]'(by rw [h1.1]; exact hj)) := List.getElem?_eq_getElem _
    rw [ha, hb]
    rcases h1.2 j _ _ ha hb with e1 | ⟨e1, _⟩
    · rw [e1]
    · rcases h2.2 j _ _ hb ha with e2 | ⟨e2, _⟩
      · rw [← e2]
      · exact absurd (e1.trans e2) (lt_irrefl _)
  · rw [List.getElem?_eq_none hj, List.getElem?_eq_none (by rw [h1.1]; exact hj)]

theorem BadSteps.medoidsOf {D : S → K} {X : List S} {a b : List (Medoid S)} (h : BadSteps D X a b)
    (ha : MedoidsOf X a) : MedoidsOf X b := by
  intro m' hm'
  obtain ⟨j, hj, e⟩ := List.getElem_of_mem hm'
  have hb : b[j]? = some m' := by rw [List.getElem?_eq_getElem hj, e]
  have ha' : a[j]? = some (a[j]'(by rw [← h.1]; exact hj)) := List.getElem?_eq_getElem _
  rcases h.2 j _ _ ha' hb with e | ⟨_, e⟩
  · rw [e]; exact ha _ (List.getElem_mem _)
  · exact e

theorem BadSteps.notWorse {D : S → K} {X : List S} {a b : List (Medoid S)} (h : BadSteps D X a b) :
    NotWorse D a b := by
  refine ⟨h.1, ?_⟩
  intro j m m' hm hm'
  rcases h.2 j m m' hm hm' with e | ⟨e, _⟩
  · rw [e]
  · exact e.le

/-- Medoids of the data with the same indices are the same. -/
theorem medoidsOf_eq {X : List S} {a b : List (Medoid S)} (ha : MedoidsOf X a) (hb : MedoidsOf X b)
    (h : getMedoidIndices a = getMedoidIndices b) : b = a := by
  have hlen : b.length = a.length := by
    have := congrArg List.length h
    simpa [getMedoidIndices] using this.symm
  apply List.ext_getElem hlen
  intro j h1 h2
  have hi : b[j].index = a[j].index := by
    have := congrArg (·[j]?) h
    simp only [getMedoidIndices, List.getElem?_map, List.getElem?_eq_getElem h1,
      List.getElem?_eq_getElem h2, Option.map_some, Option.some.injEq] at this
    exact this.symm
  have e1 := ha _ (List.getElem_mem h2)
  have e2 := hb _ (List.getElem_mem h1)
  rw [hi, e1] at e2
  cases hb' : b[j] with
  | mk i s =>
    cases ha' : a[j] with
    | mk i' s' =>
      rw [ha', hb'] at hi e2
      cases e2
      cases hi
      rfl

/-- The number of series of the data with a smaller dissimilarity. -/
def badRank (D : S → K) (X : List S) (v : K) : Nat := X.countP fun x => decide (D x < v)

theorem badRank_le (D : S → K) (X : List S) (v : K) : badRank D X v ≤ X.length := List.countP_le_length

theorem badRank_lt {D : S → K} {X : List S} {x : S} (hx : x ∈ X) {v : K} (h : D x < v) :
    badRank D X (D x) < badRank D X v := by
  unfold badRank
  induction X with
  | nil => simp at hx
  | cons a X ih =>
    have hmono : ∀ l : List S, l.countP (fun y => decide (D y < D x)) ≤
        l.countP (fun y => decide (D y < v)) := by
      intro l
      apply List.countP_mono_left
      intro y _ hy
      simp only [decide_eq_true_eq] at hy ⊢
      exact hy.trans h
    rw [List.countP_cons, List.countP_cons]
    rcases List.mem_cons.1 hx with rfl | hx
    · have := hmono X
      simp [h]
      omega
    · have := ih hx
      by_cases h1 : D a < D x
      · simp only [h1, decide_true, if_true, h1.trans h]; omega
      · simp only [h1, decide_false]
        simp only [Bool.false_eq_true, if_false]
        omega

/-- A measure of progress. -/
def badPotential (D : S → K) (X : List S) (ms : List (Medoid S)) : Nat :=
  (ms.map fun m => badRank D X (D m.series)).sum

theorem badPotential_le (D : S → K) (X : List S) (ms : List (Medoid S)) :
    badPotential D X ms ≤ ms.length * X.length := by
  unfold badPotential
  induction ms with
  | nil => simp
  | cons m ms ih =>
    have := badRank_le D X (D m.series)
    simp only [List.map_cons, List.sum_cons, List.length_cons, Nat.succ_mul]
    omega

theorem BadSteps.potential {D : S → K} {X : List S} : ∀ {a b : List (Medoid S)}, BadSteps D X a b →
    badPotential D X b ≤ badPotential D X a ∧ (b ≠ a → badPotential D X b < badPotential D X a) := by
  intro a
  induction a with
  | nil =>
    intro b h
    have : b = [] := List.eq_nil_of_length_eq_zero h.1
    subst this
    exact ⟨le_rfl, fun h => absurd rfl h⟩
  | cons m a ih =>
    intro b h
    cases b with
    | nil => have := h.1; simp at this
    | cons m' b =>
      have h' : BadSteps D X a b :=
        ⟨by have := h.1; simpa using this, fun j => by have := h.2 (j + 1); simpa using this⟩
      obtain ⟨i1, i2⟩ := ih h'
      have h0 := h.2 0 m m' rfl rfl
      unfold badPotential at *
      simp only [List.map_cons, List.sum_cons]
      rcases h0 with e | ⟨e1, e2⟩
      · subst e
        refine ⟨by omega, ?_⟩
        intro hne
        have := i2 (fun e => hne (by rw [e]))
        omega
      · have := badRank_lt (List.mem_of_getElem? e2) e1
        exact ⟨by omega, fun _ => by omega⟩

section

variable (measure : S → S → K) (combine : List K → K) (X : List S)

/-- The indices stay distinct when a series is strictly nearer to itself than to all others. -/
def KeepsDistinct (a b : List (Medoid S)) : Prop :=
  (∀ x y, x ≠ y → measure x x < measure x y) → MedoidsOf X a → (getMedoidIndices a).Nodup →
    (getMedoidIndices b).Nodup

theorem badSet_steps {ms : List (Medoid S)} {i : Nat} {m : Medoid S} (hm : ms[i]? = some m) {idx : Nat} {x : S}
    (hx : X[idx]? = some x) {D : S → K} (hD : D x < D m.series) : BadSteps D X ms (ms.set i ⟨idx, x⟩) := by
  refine ⟨by simp, ?_⟩
  intro j a b ha hb
  rw [List.getElem?_set] at hb
  split at hb
  · rename_i hij
    subst hij
    split at hb
    · cases hb
      rw [hm] at ha; cases ha
      exact .inr ⟨hD, hx⟩
    · cases hb
  · rw [ha] at hb; cases hb; exact .inl rfl

/-- A series of the cluster that improves on its medoid is not another medoid. -/
theorem badSet_distinct {ms : List (Medoid S)} {labels : List Nat} (hnear : NearestLabels measure X ms labels)
    {i : Nat} {m : Medoid S} (hm : ms[i]? = some m) {idx : Nat} {x : S}
    (hx : X[idx]? = some x) (hl : labels[idx]? = some i) {D : S → K} (hD : D x < D m.series) :
    KeepsDistinct measure X ms (ms.set i ⟨idx, x⟩) := by
  intro hpos hof hnd
  have hnot : idx ∉ getMedoidIndices ms := by
    intro hmem
    obtain ⟨m', hm', e⟩ := List.mem_map.1 hmem
    have hX := hof m' hm'
    rw [e, hx] at hX
    have hX' : x = m'.series := Option.some.inj hX
    obtain ⟨j, hj, ej⟩ := List.getElem_of_mem hm'
    have hj' : ms[j]? = some m' := by rw [List.getElem?_eq_getElem hj, ej]
    obtain ⟨m0, hm0, hmin⟩ := hnear.2 idx x i hx hl
    rw [hm] at hm0; cases hm0
    have hle := (hmin j m' hj').1
    by_cases hxm : x = m.series
    · rw [← hxm] at hD; exact absurd hD (lt_irrefl _)
    · have := hpos x m.series hxm
      rw [← hX'] at hle
      exact absurd (this.trans_le hle) (lt_irrefl _)
  have e : getMedoidIndices (ms.set i ⟨idx, x⟩) = (getMedoidIndices ms).set i idx := by
    simp [getMedoidIndices, List.map_set]
  rw [e]
  rw [List.nodup_iff_injective_getElem] at hnd ⊢
  rintro ⟨a, ha⟩ ⟨b, hb⟩ hab
  simp only [List.length_set] at ha hb
  simp only [List.getElem_set] at hab
  apply Fin.ext
  split at hab
  · split at hab
    · rename_i h1 h2; exact h1.symm.trans h2
    · exact absurd (hab ▸ List.getElem_mem _) hnot
  · split at hab
    · exact absurd (hab ▸ List.getElem_mem _) hnot
    · have := @hnd ⟨a, ha⟩ ⟨b, hb⟩ hab
      simpa using this

theorem KeepsDistinct.trans {D : S → K} {a b c : List (Medoid S)} (hs : BadSteps D X a b)
    (h1 : KeepsDistinct measure X a b) (h2 : KeepsDistinct measure X b c) : KeepsDistinct measure X a c :=
  fun hp ho hn => h2 hp (hs.medoidsOf ho) (h1 hp ho hn)

/-- One pass over the series for the medoid at `i`. -/
theorem badScan_spec (i : Nat) : ∀ (l : List (Nat × S)) (st : BadState S K) (m : Medoid S),
    (∀ p ∈ l, X[p.1]? = some p.2) → st.medoids[i]? = some m →
    st.avg = badDissimilarity measure combine X m.series →
    NearestLabels measure X st.medoids st.labels →
    ∃ st', badScan measure combine X i l st = .ok st' ∧
      NearestLabels measure X st'.medoids st'.labels ∧
      BadSteps (badDissimilarity measure combine X) X st.medoids st'.medoids ∧
      KeepsDistinct measure X st.medoids st'.medoids ∧
      (st'.medoids = st.medoids → st'.labels = st.labels ∧ ∀ p ∈ l, st.labels[p.1]? = some i →
        p.1 = m.index ∨ badDissimilarity measure combine X m.series ≤
          badDissimilarity measure combine X p.2) := by
  intro l
  induction l with
  | nil =>
    intro st m _ hm havg hnear
    exact ⟨st, rfl, hnear, BadSteps.refl _ _ _, fun _ _ h => h, fun _ => ⟨rfl, by simp⟩⟩
  | cons p l ih =>
    obtain ⟨idx, x⟩ := p
    intro st m hl hm havg hnear
    have hx : X[idx]? = some x := hl (idx, x) (by simp)
    have hl' : ∀ p ∈ l, X[p.1]? = some p.2 := fun p hp => hl p (by simp [hp])
    have hlab : ∃ lb, st.labels[idx]? = some lb := by
      have := (List.getElem?_eq_some_iff.1 hx).1
      exact ⟨_, List.getElem?_eq_getElem (by rw [hnear.1]; exact this)⟩
    obtain ⟨lb, hlb⟩ := hlab
    unfold badScan
    simp only [hlb, hm]
    by_cases hskip : lb ≠ i ∨ idx = m.index
    · rw [if_pos hskip]
      obtain ⟨st', h1, h2, h3, h4, h5⟩ := ih st m hl' hm havg hnear
      refine ⟨st', h1, h2, h3, h4, ?_⟩
      intro e
      obtain ⟨e1, e2⟩ := h5 e
      refine ⟨e1, ?_⟩
      intro p hp hpl
      rcases List.mem_cons.1 hp with rfl | hp
      · rcases hskip with h | h
        · rw [hlb] at hpl; exact absurd (Option.some.inj hpl) h
        · exact .inl h
      · exact e2 p hp hpl
    · rw [if_neg hskip]
      push Not at hskip
      obtain ⟨rfl, hidx⟩ := hskip
      by_cases hlt : badDissimilarity measure combine X x < st.avg
      · rw [if_pos hlt]
        have hi := (List.getElem?_eq_some_iff.1 hm).1
        have hne : st.medoids.set lb ⟨idx, x⟩ ≠ [] := by
          intro e
          have := congrArg List.length e
          simp at this
          rw [this] at hi; simp at hi
        obtain ⟨labels, hlabels, hnear'⟩ := badLabels_spec measure X _ hne
        rw [hlabels]
        have hD : badDissimilarity measure combine X x < badDissimilarity measure combine X m.series := by
          rw [← havg]; exact hlt
        have hstep := badSet_steps X hm hx (D := badDissimilarity measure combine X) hD
        have hdist := badSet_distinct measure X hnear hm hx hlb (D := badDissimilarity measure combine X) hD
        have hm' : (st.medoids.set lb ⟨idx, x⟩)[lb]? = some ⟨idx, x⟩ := by
          rw [List.getElem?_set_self hi]
        obtain ⟨st', h1, h2, h3, h4, h5⟩ := ih
          ⟨st.medoids.set lb ⟨idx, x⟩, labels, badDissimilarity measure combine X x⟩ ⟨idx, x⟩ hl' hm' rfl hnear'
        refine ⟨st', h1, h2, hstep.trans h3, KeepsDistinct.trans measure X hstep hdist h4, ?_⟩
        intro e
        rw [e] at h3
        have := hstep.antisymm h3
        rw [this, hm] at hm'
        cases hm'
        exact absurd rfl hidx
      · rw [if_neg hlt]
        obtain ⟨st', h1, h2, h3, h4, h5⟩ := ih st m hl' hm havg hnear
        refine ⟨st', h1, h2, h3, h4, ?_⟩
        intro e
        obtain ⟨e1, e2⟩ := h5 e
        refine ⟨e1, ?_⟩
        intro p hp hpl
        rcases List.mem_cons.1 hp with rfl | hp
        · right; rw [← havg]; exact not_lt.1 hlt
        · exact e2 p hp hpl

theorem mem_range_zip {X : List S} {p : Nat × S} : p ∈ (List.range X.length).zip X ↔ X[p.1]? = some p.2 := by
  constructor
  · intro h
    obtain ⟨j, hj, e⟩ := List.getElem_of_mem h
    rw [List.getElem_zip] at e
    cases e
    simp only [List.getElem_range]
    exact List.getElem?_eq_getElem _
  · intro h
    obtain ⟨hj, e⟩ := List.getElem?_eq_some_iff.1 h
    have hz : p.1 < ((List.range X.length).zip X).length := by simpa using hj
    have : ((List.range X.length).zip X)[p.1] = p := by
      rw [List.getElem_zip, List.getElem_range, e]
    exact this ▸ List.getElem_mem _

/-- The passes for several medoids. -/
theorem badScanAll_spec : ∀ (is : List Nat) (ms : List (Medoid S)) (labels : List Nat),
    (∀ i ∈ is, i < ms.length) → NearestLabels measure X ms labels →
    ∃ ms', badScanAll measure combine X is ms labels = .ok ms' ∧
      BadSteps (badDissimilarity measure combine X) X ms ms' ∧ KeepsDistinct measure X ms ms' ∧
      (ms' = ms → ∀ i ∈ is, ∀ (m : Medoid S), ms[i]? = some m → ∀ (idx : Nat) (x : S),
        X[idx]? = some x → labels[idx]? = some i → idx = m.index ∨
          badDissimilarity measure combine X m.series ≤ badDissimilarity measure combine X x) := by
  intro is
  induction is with
  | nil =>
    intro ms labels _ _
    exact ⟨ms, rfl, BadSteps.refl _ _ _, fun _ _ h => h, fun _ => by simp⟩
  | cons i is ih =>
    intro ms labels his hnear
    have hi := his i (by simp)
    have hm : ms[i]? = some ms[i] := List.getElem?_eq_getElem hi
    obtain ⟨st, h1, h2, h3, h4, h5⟩ := badScan_spec measure combine X i ((List.range X.length).zip X)
      ⟨ms, labels, badDissimilarity measure combine X ms[i].series⟩ ms[i]
      (fun p hp => mem_range_zip.1 hp) hm rfl hnear
    obtain ⟨ms', g1, g2, g3, g4⟩ := ih st.medoids st.labels
      (fun j hj => by rw [h3.1]; exact his j (by simp [hj])) h2
    refine ⟨ms', ?_, h3.trans g2, KeepsDistinct.trans measure X h3 h4 g3, ?_⟩
    · unfold badScanAll
      rw [hm]
      simp only [h1]
      exact g1
    · intro e
      have e1 : st.medoids = ms := h3.antisymm (by rw [e] at g2; exact g2)
      obtain ⟨e2, e3⟩ := h5 e1
      intro j hj m hmj idx x hx hl
      rcases List.mem_cons.1 hj with rfl | hj
      · rw [hm] at hmj; cases hmj
        exact e3 (idx, x) (mem_range_zip.2 hx) hl
      · exact g4 (by rw [e, e1]) j hj m (by rw [e1]; exact hmj) idx x hx (by rw [e2]; exact hl)

/-- The update of the medoids. -/
theorem badUpdate_spec (ms : List (Medoid S)) (hne : ms ≠ []) :
    ∃ ms' labels, badUpdate measure combine X ms = .ok ms' ∧ badLabels measure X ms = .ok labels ∧
      NearestLabels measure X ms labels ∧
      BadSteps (badDissimilarity measure combine X) X ms ms' ∧ KeepsDistinct measure X ms ms' ∧
      (ms' = ms → MedoidsOf X ms → BestOfCluster (badDissimilarity measure combine X) X ms labels) := by
  obtain ⟨labels, h1, h2⟩ := badLabels_spec measure X ms hne
  obtain ⟨ms', g1, g2, g3, g4⟩ := badScanAll_spec measure combine X (List.range ms.length) ms labels
    (fun i hi => List.mem_range.1 hi) h2
  refine ⟨ms', labels, by unfold badUpdate; rw [h1]; exact g1, h1, h2, g2, g3, ?_⟩
  intro e hof idx x l m hx hl hm
  rcases g4 e l (List.mem_range.2 (List.getElem?_eq_some_iff.1 hm).1) m hm idx x hx hl with h | h
  · have := hof m (List.mem_of_getElem? hm)
    rw [← h, hx] at this
    cases this
    exact le_rfl
  · exact h

end

end Spta
