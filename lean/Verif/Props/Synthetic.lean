import Verif.Model.Synthetic
import Verif.Model.MedoidChoice
import Verif.Props.CsvText
import Mathlib.Tactic.Linarith
import Mathlib.Tactic.Ring

/-!
# C135: the synthetic training data of the classifier
-/

namespace Spta

theorem pyChoice_ok {A : Type} {l : List A} {d : Nat} {a : A} (h : pyChoice l d = .ok a) : a ∈ l := by
  unfold pyChoice at h
  split at h
  · rename_i b hb
    cases h
    exact List.mem_of_getElem? hb
  · cases h

theorem pyChoice_error {A : Type} {l : List A} {d : Nat} {e : PyErr} (h : pyChoice l d = .error e) :
    l = [] ∧ e = .indexError := by
  unfold pyChoice at h
  split at h
  · cases h
  · rename_i hn
    cases h
    refine ⟨?_, rfl⟩
    rw [List.getElem?_eq_none_iff] at hn
    by_contra hl
    have := Nat.mod_lt d (List.length_pos_iff.2 hl)
    omega

theorem pyChoice_exists {A : Type} {l : List A} (d : Nat) (h : l ≠ []) : ∃ a, pyChoice l d = .ok a := by
  cases hc : pyChoice l d with
  | ok a => exact ⟨a, rfl⟩
  | error e => exact absurd (pyChoice_error hc).1 h

theorem mapM_index {A B : Type} {f : A → Except PyErr B} {l : List A} {bs : List B} (h : l.mapM f = .ok bs) :
    bs.length = l.length ∧ ∀ (i : Nat) b, bs[i]? = some b → ∃ a, l[i]? = some a ∧ f a = .ok b := by
  induction l generalizing bs with
  | nil => cases h; simp
  | cons a l ih =>
    rw [List.mapM_cons] at h
    cases ha : f a with
    | error e => rw [ha] at h; cases h
    | ok b =>
      rw [ha] at h
      cases hl : l.mapM f with
      | error e => rw [hl] at h; cases h
      | ok bs' =>
        rw [hl] at h
        cases h
        obtain ⟨h1, h2⟩ := ih hl
        refine ⟨by simp [h1], fun i c hc => ?_⟩
        cases i with
        | zero => cases hc; exact ⟨a, rfl, ha⟩
        | succ i => exact h2 i c hc

section

variable {K : Type} [Field K] [LinearOrder K] [IsStrictOrderedRing K]

omit [LinearOrder K] [IsStrictOrderedRing K] in
/-- The sign and the size of a slope. -/
theorem syntheticSlope_eq (k seed : Int) (index : Nat) (w : K) :
    syntheticSlope k seed index w = if seed % 2 = 1 then ((k - index : Int) : K) * w else -(((k - index : Int) : K) * w) := by
  unfold syntheticSlope
  rcases Int.emod_two_eq_zero_or_one seed with h | h
  · rw [h, if_neg (by decide)]
    push_cast
    ring
  · rw [h, if_pos rfl]
    push_cast
    ring

theorem syntheticTemperature_ok {n d : Nat} {a bMin bMax noise : K} {z : Nat → K} {s : List K} (hb : bMin < bMax)
    (h : syntheticTemperature n a bMin bMax noise d z = .ok s) :
    s.length = n ∧ 0 ≤ noise ∧ ∃ b, bMin ≤ b ∧ b < bMax ∧
      ∀ (j : Nat) v, s[j]? = some v → v = a * (j : K) + b + noise * z j := by
  unfold syntheticTemperature at h
  rw [if_neg hb.ne] at h
  split at h
  · cases h
  rename_i b hc
  split at h
  · cases h
  rename_i hn
  cases h
  have := pyChoice_ok hc
  rw [List.mem_map] at this
  obtain ⟨i, hi, rfl⟩ := this
  have hi' : ((i : Nat) : K) < 12 := by exact_mod_cast List.mem_range.1 hi
  have hi0 : (0 : K) ≤ i := Nat.cast_nonneg _
  have hs : 0 < bMax - bMin := by linarith
  refine ⟨by simp, not_lt.1 hn, bMin + (i : K) * ((bMax - bMin) / 12),
    le_add_of_nonneg_right (mul_nonneg hi0 (div_nonneg hs.le (by norm_num))), ?_, fun j v hv => ?_⟩
  · have : (i : K) * ((bMax - bMin) / 12) < 12 * ((bMax - bMin) / 12) := by
      exact mul_lt_mul_of_pos_right hi' (by positivity)
    have h12 : 12 * ((bMax - bMin) / 12) = bMax - bMin := by ring
    linarith
  · rw [List.getElem?_map] at hv
    obtain ⟨j', hj, rfl⟩ := Option.map_eq_some_iff.1 hv
    obtain ⟨hj1, hj2⟩ := List.getElem?_eq_some_iff.1 hj
    rw [List.getElem_range] at hj2
    subst hj2
    unfold normalAt
    ring

/-- **C135**: every entry has a number of clusters and a seed of those given, the index of one of its clusters, a
medoid out of `numMedoids` ones within the region, and a series of the wanted length along a line (up to the noise)
that rises for odd seeds and falls for even ones, by at least the weight per sample. -/
theorem C135_entries {p : SyntheticParams K} {draw : Nat → Nat} {z : Nat → Nat → K}
    {out : List (SyntheticEntry K)} (hb : p.bMin < p.bMax) (hw : 0 < p.weight)
    (h : generateSyntheticSeries p draw z = .ok out) :
    out.length = p.numEntries ∧ ∃ medoids : List (Nat × Nat), medoids.length = p.numMedoids ∧
      (∀ m ∈ medoids, m.1 < p.xLen ∧ m.2 < p.yLen) ∧
      ∀ (i : Nat) e, out[i]? = some e → e.k ∈ p.ks ∧ e.seed ∈ p.seeds ∧ (e.index : Int) < e.k ∧ e.medoid ∈ medoids ∧
        e.series.length = p.seriesLen ∧ ∃ a b : K, p.bMin ≤ b ∧ b < p.bMax ∧
          (e.seed % 2 = 1 → p.weight ≤ a) ∧ (e.seed % 2 = 0 → a ≤ -p.weight) ∧
          |a| = ((e.k - e.index : Int) : K) * p.weight ∧
          ∀ (j : Nat) v, e.series[j]? = some v → v = a * (j : K) + b + p.noise * z i j := by
  unfold generateSyntheticSeries at h
  split at h
  · cases h
  rename_i medoids hm
  unfold syntheticMedoids at hm
  obtain ⟨m1, m2⟩ := mapM_index hm
  obtain ⟨h1, h2⟩ := mapM_index h
  refine ⟨by simpa using h1, medoids, by simpa using m1, fun m hmem => ?_, fun i e he => ?_⟩
  · obtain ⟨i, hi⟩ := List.getElem?_of_mem hmem
    obtain ⟨i', _, hf⟩ := m2 i m hi
    split at hf
    · cases hf
    rename_i x hx
    split at hf
    · cases hf
    rename_i y hy
    cases hf
    exact ⟨List.mem_range.1 (pyChoice_ok hx), List.mem_range.1 (pyChoice_ok hy)⟩
  · obtain ⟨i', hi', hf⟩ := h2 i e he
    have : i' = i := by
      obtain ⟨hi1, hi2⟩ := List.getElem?_eq_some_iff.1 hi'
      rw [List.getElem_range] at hi2
      exact hi2.symm
    subst this
    unfold syntheticEntry at hf
    split at hf
    · cases hf
    rename_i k hk
    split at hf
    · cases hf
    rename_i seed hseed
    split at hf
    · cases hf
    rename_i index hindex
    split at hf
    · cases hf
    rename_i medoid hmedoid
    split at hf
    · cases hf
    rename_i series hseries
    cases hf
    have hlt := List.mem_range.1 (pyChoice_ok hindex)
    obtain ⟨s1, s2, b, s3, s4, s5⟩ := syntheticTemperature_ok hb hseries
    have hpos : (1 : K) ≤ ((k - index : Int) : K) := by
      have : (1 : Int) ≤ k - index := by omega
      exact_mod_cast this
    have hge : p.weight ≤ ((k - index : Int) : K) * p.weight := le_mul_of_one_le_left hw.le hpos
    refine ⟨pyChoice_ok hk, pyChoice_ok hseed, by show (index : Int) < k; omega, pyChoice_ok hmedoid, s1,
      syntheticSlope k seed index p.weight, b, s3, s4, fun ho => ?_, fun he => ?_, ?_, s5⟩
    · rw [syntheticSlope_eq, if_pos ho]; exact hge
    · rw [syntheticSlope_eq, if_neg (by simp only at he; omega)]; linarith
    · rw [syntheticSlope_eq]
      split
      · exact abs_of_pos (by linarith)
      · rw [abs_neg]; exact abs_of_pos (by linarith)

omit [LinearOrder K] in
/-- **C135** (which labels can be told apart): two entries have the same slope exactly if the distances of the index
to the number of clusters agree and the seeds are both odd or both even; so different labels may have the same
slope. -/
theorem C135_slope [LinearOrder K] [IsStrictOrderedRing K] {k seed k' seed' : Int} {index index' : Nat} {w : K}
    (hw : w ≠ 0) (h : (index : Int) < k) (h' : (index' : Int) < k') :
    syntheticSlope k seed index w = syntheticSlope k' seed' index' w ↔
      k - index = k' - index' ∧ seed % 2 = seed' % 2 := by
  rw [syntheticSlope_eq, syntheticSlope_eq]
  have p1 : (0 : K) < ((k - index : Int) : K) := by
    have : (0 : Int) < k - index := by omega
    exact_mod_cast this
  have p2 : (0 : K) < ((k' - index' : Int) : K) := by
    have : (0 : Int) < k' - index' := by omega
    exact_mod_cast this
  rcases Int.emod_two_eq_zero_or_one seed with hs | hs <;> rcases Int.emod_two_eq_zero_or_one seed' with hs' | hs' <;>
    rw [hs, hs']
  · rw [if_neg (by decide), if_neg (by decide), neg_inj, mul_left_inj' hw, Int.cast_inj]
    simp
  · rw [if_neg (by decide), if_pos rfl, ← neg_mul, mul_left_inj' hw]
    simp only [zero_ne_one, and_false, iff_false]
    intro e
    linarith
  · rw [if_pos rfl, if_neg (by decide), ← neg_mul, mul_left_inj' hw]
    simp only [one_ne_zero, and_false, iff_false]
    intro e
    linarith
  · rw [if_pos rfl, if_pos rfl, mul_left_inj' hw, Int.cast_inj]
    simp

/-- **C135**: for positive numbers of clusters, entries are generated whatever the generator draws, if there is
something to choose from, the bounds differ and the standard deviation is not negative. -/
theorem C135_generated (p : SyntheticParams K) (draw : Nat → Nat) (z : Nat → Nat → K)
    (hk : ∀ k ∈ p.ks, 0 < k) :
    (∃ out, generateSyntheticSeries p draw z = .ok out) ↔
      (p.numMedoids = 0 ∨ (0 < p.xLen ∧ 0 < p.yLen)) ∧
      (p.numEntries = 0 ∨ (p.ks ≠ [] ∧ p.seeds ≠ [] ∧ p.numMedoids ≠ 0 ∧ p.bMin ≠ p.bMax ∧ 0 ≤ p.noise)) := by
  have hmapM : ∀ {B : Type} (n : Nat) (f : Nat → Except PyErr B),
      (∃ bs, (List.range n).mapM f = .ok bs) ↔ ∀ i < n, ∃ b, f i = .ok b := by
    intro B n f
    have : ∀ l : List Nat, (∃ bs, l.mapM f = .ok bs) ↔ ∀ i ∈ l, ∃ b, f i = .ok b := by
      intro l
      induction l with
      | nil => exact ⟨fun _ => by simp, fun _ => ⟨[], rfl⟩⟩
      | cons a l ih =>
        rw [List.forall_mem_cons, ← ih, List.mapM_cons]
        cases ha : f a with
        | error e =>
          constructor
          · rintro ⟨bs, hbs⟩; cases hbs
          · rintro ⟨⟨b, hb⟩, _⟩; cases hb
        | ok b =>
          cases hl : l.mapM f with
          | error e =>
            constructor
            · rintro ⟨bs, hbs⟩; cases hbs
            · rintro ⟨_, bs, hbs⟩; cases hbs
          | ok bs => exact ⟨fun _ => ⟨⟨b, rfl⟩, bs, rfl⟩, fun _ => ⟨b :: bs, rfl⟩⟩
    rw [this]
    simp
  have hch : ∀ {A : Type} (l : List A) (d : Nat), (∃ a, pyChoice l d = .ok a) ↔ l ≠ [] := by
    intro A l d
    refine ⟨?_, pyChoice_exists d⟩
    rintro ⟨a, ha⟩ rfl
    cases ha
  have hmed : (∃ ms, syntheticMedoids p draw = .ok ms) ↔ (p.numMedoids = 0 ∨ (0 < p.xLen ∧ 0 < p.yLen)) := by
    unfold syntheticMedoids
    rw [hmapM]
    constructor
    · intro h
      by_cases h0 : p.numMedoids = 0
      · exact .inl h0
      · obtain ⟨m, hm⟩ := h 0 (Nat.pos_of_ne_zero h0)
        split at hm
        · cases hm
        rename_i x hx
        split at hm
        · cases hm
        rename_i y hy
        have hx' := List.mem_range.1 (pyChoice_ok hx)
        have hy' := List.mem_range.1 (pyChoice_ok hy)
        exact .inr ⟨by omega, by omega⟩
    · intro h i hi
      rcases h with h | ⟨h1, h2⟩
      · omega
      · obtain ⟨x, hx⟩ := pyChoice_exists (l := List.range p.xLen) (draw (2 * i)) (by simp; omega)
        obtain ⟨y, hy⟩ := pyChoice_exists (l := List.range p.yLen) (draw (2 * i + 1)) (by simp; omega)
        exact ⟨(x, y), by rw [hx]; simp only; rw [hy]⟩
  unfold generateSyntheticSeries
  cases hms : syntheticMedoids p draw with
  | error e =>
    have : ¬ (p.numMedoids = 0 ∨ (0 < p.xLen ∧ 0 < p.yLen)) := by
      rw [← hmed, hms]; rintro ⟨_, h⟩; cases h
    constructor
    · rintro ⟨out, h⟩; cases h
    · rintro ⟨h, _⟩; exact absurd h this
  | ok ms =>
    have hlen : ms.length = p.numMedoids := by
      unfold syntheticMedoids at hms
      rw [(mapM_index hms).1, List.length_range]
    have h1 := hmed.1 ⟨ms, hms⟩
    simp only
    rw [hmapM]
    constructor
    · intro h
      refine ⟨h1, ?_⟩
      by_cases h0 : p.numEntries = 0
      · exact .inl h0
      · obtain ⟨e, he⟩ := h 0 (Nat.pos_of_ne_zero h0)
        unfold syntheticEntry at he
        split at he
        · cases he
        rename_i k hk'
        split at he
        · cases he
        rename_i seed hseed
        split at he
        · cases he
        rename_i index hindex
        split at he
        · cases he
        rename_i medoid hmedoid
        split at he
        · cases he
        rename_i series hs
        unfold syntheticTemperature at hs
        split at hs
        · cases hs
        rename_i hbb
        split at hs
        · cases hs
        split at hs
        · cases hs
        rename_i hn
        refine .inr ⟨List.ne_nil_of_mem (pyChoice_ok hk'), List.ne_nil_of_mem (pyChoice_ok hseed), ?_, hbb, not_lt.1 hn⟩
        have := List.length_pos_iff.2 (List.ne_nil_of_mem (pyChoice_ok hmedoid))
        omega
    · rintro ⟨_, h⟩ i hi
      rcases h with h | ⟨a1, a2, a3, a4, a5⟩
      · omega
      obtain ⟨k, e1⟩ := pyChoice_exists (draw (2 * p.numMedoids + 5 * i + 0)) a1
      obtain ⟨s, e2⟩ := pyChoice_exists (draw (2 * p.numMedoids + 5 * i + 1)) a2
      have hk' := hk k (pyChoice_ok e1)
      obtain ⟨ix, e3⟩ := pyChoice_exists (l := List.range k.toNat) (draw (2 * p.numMedoids + 5 * i + 2))
        (by simp; omega)
      obtain ⟨m, e4⟩ := pyChoice_exists (l := ms) (draw (2 * p.numMedoids + 5 * i + 3))
        (by rintro rfl; simp at hlen; omega)
      obtain ⟨b, e5⟩ := pyChoice_exists (l := (List.range 12).map fun (i : Nat) => p.bMin + (i : K) * ((p.bMax - p.bMin) / 12))
        (draw (2 * p.numMedoids + 5 * i + 4)) (by simp)
      have e6 : ∃ series, syntheticTemperature p.seriesLen (syntheticSlope k s ix p.weight) p.bMin p.bMax p.noise
          (draw (2 * p.numMedoids + 5 * i + 4)) (z i) = .ok series := by
        unfold syntheticTemperature
        rw [if_neg a4, e5]
        simp only
        rw [if_neg (not_lt.2 a5)]
        exact ⟨_, rfl⟩
      obtain ⟨series, e6⟩ := e6
      refine ⟨⟨k, s, ix, m, series⟩, ?_⟩
      unfold syntheticEntry
      simp only [e1, e2, e3, e4, e6]

theorem natStr_readable {n : Nat} (h : n < 10 ^ 100) : Readable (natStr n) :=
  ⟨le_trans (natStr_length (by decide) h) (by decide), natStr_no_nul n⟩

theorem intStr_readable {i : Int} (h : i.natAbs < 10 ^ 100) : Readable (intStr i) := by
  have hc : ∀ n : Nat, n < 10 ^ 100 → Readable ('-' :: natStr n) := by
    intro n hn
    have := natStr_length (by decide) hn
    refine ⟨by simp; omega, ?_⟩
    have := natStr_no_nul n
    simp only [List.mem_cons, not_or]
    exact ⟨by decide, this⟩
  cases i with
  | ofNat n => exact natStr_readable h
  | negSucc n => exact hc (n + 1) h

/-- **C135** (the file): the text is read back as the header and one row per entry, all of the same width, with
number of clusters, seed, index and medoid of the entry; the columns are those of the training data made of real
series (for k-medoids). -/
theorem C135_file {p : SyntheticParams K} {draw : Nat → Nat} {z : Nat → Nat → K}
    {regionId type mode : Str} {text : K → Str} {file : Str}
    (hk : ∀ k ∈ p.ks, k.natAbs < 10 ^ 100) (hs : ∀ s ∈ p.seeds, s.natAbs < 10 ^ 100)
    (hx : p.xLen ≤ 10 ^ 100) (hy : p.yLen ≤ 10 ^ 100) (hn : p.seriesLen ≤ 10 ^ 100) (hb : p.bMin < p.bMax)
    (hw : 0 < p.weight) (hr : Readable regionId) (ht : Readable type) (hm : Readable mode) (hv : ∀ v, Readable (text v))
    (h : generateSyntheticCsv p draw z regionId type mode text = .ok file) :
    ∃ entries, generateSyntheticSeries p draw z = .ok entries ∧
      csvReadText file = (syntheticHeader p.seriesLen :: entries.map fun e =>
        [regionId, type, intStr e.k, intStr e.seed, mode, natStr e.index, natStr e.medoid.1, natStr e.medoid.2] ++
          e.series.map text, none) ∧
      (∀ row ∈ (csvReadText file).1, row.length = 8 + p.seriesLen) ∧
      ∀ (suite : SuiteResult) repr medoids more m, suite = (repr, medoids) :: more →
        factoryFromRepr repr = .ok (.kmedoids m) →
        trainHeader (K := K) suite p.seriesLen = .ok (syntheticHeader p.seriesLen) := by
  unfold generateSyntheticCsv at h
  split at h
  · cases h
  rename_i entries he
  cases h
  obtain ⟨h1, medoids, h2, h3, h4⟩ := C135_entries hb hw he
  have hent : ∀ e ∈ entries, ∃ i : Nat, entries[i]? = some e := fun e he => List.getElem?_of_mem he
  have hread : csvReadText (csvWrite (syntheticHeader p.seriesLen :: entries.map
      (syntheticRow regionId type mode text))) =
      (syntheticHeader p.seriesLen :: entries.map (syntheticRow regionId type mode text), none) := by
    apply C132_round_trip
    intro row hrow f hf
    rcases List.mem_cons.1 hrow with rfl | hrow
    · unfold syntheticHeader at hf
      rcases List.mem_append.1 hf with hf | hf
      · simp only [List.mem_cons, List.not_mem_nil, or_false] at hf
        rcases hf with rfl | rfl | rfl | rfl | rfl | rfl | rfl | rfl <;> exact ⟨by decide, by decide⟩
      · obtain ⟨i, hi, rfl⟩ := List.mem_map.1 hf
        have hi' := List.mem_range.1 hi
        have := natStr_length (n := i) (d := 100) (by decide) (by omega)
        refine ⟨by simp; omega, ?_⟩
        simp only [List.mem_cons, not_or]
        exact ⟨by decide, natStr_no_nul i⟩
    · obtain ⟨e, hmem, rfl⟩ := List.mem_map.1 hrow
      obtain ⟨i, hi⟩ := hent e hmem
      obtain ⟨g1, g2, g3, g4, _⟩ := h4 i e hi
      have g5 := h3 _ g4
      have g6 := hk _ g1
      have g7 := hs _ g2
      unfold syntheticRow at hf
      rcases List.mem_append.1 hf with hf | hf
      · simp only [List.mem_cons, List.not_mem_nil, or_false] at hf
        rcases hf with rfl | rfl | rfl | rfl | rfl | rfl | rfl | rfl
        · exact hr
        · exact ht
        · exact intStr_readable g6
        · exact intStr_readable g7
        · exact hm
        · exact natStr_readable (by omega)
        · exact natStr_readable (by omega)
        · exact natStr_readable (by omega)
      · obtain ⟨v, _, rfl⟩ := List.mem_map.1 hf
        exact hv v
  refine ⟨entries, he, hread, ?_, ?_⟩
  · rw [hread]
    intro row hrow
    rcases List.mem_cons.1 hrow with rfl | hrow
    · simp [syntheticHeader]; omega
    · obtain ⟨e, hmem, rfl⟩ := List.mem_map.1 hrow
      obtain ⟨i, hi⟩ := hent e hmem
      have := (h4 i e hi).2.2.2.2.1
      simp [syntheticRow, this]; omega
  · rintro suite repr medoids' more m rfl hf
    unfold trainHeader
    simp only [hf]
    rfl

end

/-- Parameters with two numbers of clusters, and three entries. -/
def syntheticExample : SyntheticParams ℚ :=
  { ks := [2, 3], seeds := [0, 1], numMedoids := 2, numEntries := 3, seriesLen := 4, weight := 1 / 100, bMin := 298,
    bMax := 302, noise := 1 / 5 }

/-- The hypotheses of C135 hold for the parameters, and entries are generated, for example these. -/
example : syntheticExample.bMin < syntheticExample.bMax ∧ 0 < syntheticExample.weight ∧
    (∀ k ∈ syntheticExample.ks, 0 < k) ∧
    generateSyntheticSeries { syntheticExample with numEntries := 1 } id (fun _ _ => 0) =
      .ok [⟨2, 1, 0, (2, 3), [298 + 8 / 3, 298 + 8 / 3 + 1 / 50, 298 + 8 / 3 + 2 / 50, 298 + 8 / 3 + 3 / 50]⟩] := by
  refine ⟨by decide +kernel, by decide +kernel, by decide +kernel, by decide +kernel⟩

/-- Different labels with the same slope. -/
example : syntheticSlope (3 : Int) 1 1 (1 / 100 : ℚ) = syntheticSlope 2 5 0 (1 / 100) := by decide +kernel

/-- The file of one entry. -/
example : generateSyntheticCsv { syntheticExample with numEntries := 1, seriesLen := 2 } id (fun _ _ => 0)
      "a b".toList sKmedoids sLite (fun v => if v = 902 / 3 then "300.667".toList else "300.687".toList) =
    .ok ("region_id type k seed mode cluster_index medoid_x medoid_y s0 s1\r\n" ++
      "|a b| kmedoids 2 1 lite 0 2 3 300.667 300.687\r\n").toList := by decide +kernel

/-- There is nothing to choose from. -/
example : generateSyntheticSeries { syntheticExample with ks := [0] } id (fun _ _ => 0) = .error .indexError ∧
    generateSyntheticSeries { syntheticExample with xLen := 0 } id (fun _ _ => 0) = .error .indexError ∧
    generateSyntheticSeries { syntheticExample with noise := -1 } id (fun _ _ => 0) = .error .valueError := by
  refine ⟨by decide +kernel, by decide +kernel, by decide +kernel⟩

end Spta
