import Verif.Spec.FuzzyReport
import Verif.Props.Fuzzy

/-!
# C140: the report of fuzzy k-medoids
-/

namespace Spta

variable {S K : Type} [Field K] [LinearOrder K] [IsStrictOrderedRing K]

/-! ### Memberships are numbers -/

/-- All memberships are numbers. -/
def AllFinite (uij : List (List (FVal K))) : Prop := ∀ row ∈ uij, ∀ u ∈ row, ∃ x, u = FVal.fin x

omit [LinearOrder K] [IsStrictOrderedRing K] in
theorem foldl_add_finite (l : List (FVal K)) : ∀ (a : FVal K) (x : K), l.foldl FVal.add a = .fin x →
    (∃ y, a = .fin y) ∧ ∀ u ∈ l, ∃ y, u = .fin y := by
  induction l with
  | nil => intro a x h; exact ⟨⟨x, h⟩, by simp⟩
  | cons b l ih =>
    intro a x h
    obtain ⟨⟨y, h1⟩, h2⟩ := ih _ x h
    cases a <;> cases b <;> simp_all [FVal.add]

theorem fcm_finite {X : List S} {pw : K → K} {ms : List (Medoid S)} {dm : Measure S K} {tol : K} {c : FcmResult K}
    (h : computeMembershipFcm X pw ms dm tol = .ok c) : AllFinite c.uij := by
  unfold computeMembershipFcm at h
  split at h
  · cases h
  · split at h
    · simp only at h
      split at h
      · rename_i hall
        cases h
        intro row hrow u hu
        have h1 := List.all_eq_true.1 hall row hrow
        unfold FVal.closeToOne at h1
        split at h1
        · rename_i x hx
          exact (foldl_add_finite row _ x hx).2 u hu
        · cases h1
      · cases h
    · cases h

/-- **C31** (check): whatever the distances are, if the memberships are computed then those of each sample are numbers that
add up to 1, up to the tolerance. -/
theorem C31_checked {X : List S} {pw : K → K} {ms : List (Medoid S)} {dm : Measure S K} {tol : K} {c : FcmResult K}
    (h : computeMembershipFcm X pw ms dm tol = .ok c) :
    ∀ row ∈ c.uij, ∃ us : List K, row = us.map FVal.fin ∧ 1 - tol ≤ us.sum ∧ us.sum ≤ 1 + tol := by
  intro row hrow
  have hf := fcm_finite h row hrow
  obtain ⟨us, rfl⟩ : ∃ us : List K, row = us.map FVal.fin := by
    clear hrow
    induction row with
    | nil => exact ⟨[], rfl⟩
    | cons u row ih =>
      obtain ⟨x, rfl⟩ := hf u (by simp)
      obtain ⟨us, rfl⟩ := ih fun u hu => hf u (List.mem_cons_of_mem _ hu)
      exact ⟨x :: us, rfl⟩
  refine ⟨us, rfl, ?_⟩
  unfold computeMembershipFcm at h
  split at h
  · cases h
  · split at h
    · simp only at h
      split at h
      · rename_i hall
        cases h
        have h1 := List.all_eq_true.1 hall _ hrow
        rw [FVal.sum_fin] at h1
        have h2 := of_decide_eq_true h1
        obtain ⟨h3, h4⟩ := abs_le.1 h2
        exact ⟨by linarith, by linarith⟩
      · cases h
    · cases h

/-- The memberships of the samples 0, 1, 3 to the medoids 0 and 3. -/
example : (computeMembershipFcm ([0, 1, 3] : List ℚ) id [⟨0, 0⟩, ⟨2, 3⟩] (.function fun a b => |a - b|)
    (1 / 1000)).toOption.map (fun c => c.uij[1]?) = some (some [.fin (2 / 3), .fin (1 / 3)]) := by decide +kernel

theorem fzTry_finite {X : List S} {pw : K → K} {dm : Measure S K} {tol : K} {i j : Nat} {st st' : FzState S K}
    (h : fzTry X pw dm tol i j st = .ok st') (hs : ∀ u, st.uij = some u → AllFinite u) :
    ∀ u, st'.uij = some u → AllFinite u := by
  unfold fzTry at h
  split at h
  · cases h; exact hs
  · split at h
    · cases h
    · split at h
      · simp only at h
        split at h
        · cases h
        · rename_i c hc
          split at h
          · cases h
            intro u hu
            cases hu
            exact fcm_finite hc
          · cases h; exact hs
      · cases h

theorem fzClusters_finite {X : List S} {pw : K → K} {dm : Measure S K} {tol : K} {i : Nat} :
    ∀ (js : List Nat) {st st' : FzState S K}, fzClusters X pw dm tol i js st = .ok st' →
      (∀ u, st.uij = some u → AllFinite u) → ∀ u, st'.uij = some u → AllFinite u
  | [], _, _, h, hs => by cases h; exact hs
  | j :: js, st, st', h, hs => by
    unfold fzClusters at h
    split at h
    · cases h
    · rename_i hj
      exact fzClusters_finite js h (fzTry_finite hj hs)

theorem fzSamples_finite {X : List S} {k : Nat} {pw : K → K} {dm : Measure S K} {tol : K} :
    ∀ (is : List Nat) {st st' : FzState S K}, fzSamples X k pw dm tol is st = .ok st' →
      (∀ u, st.uij = some u → AllFinite u) → ∀ u, st'.uij = some u → AllFinite u
  | [], _, _, h, hs => by cases h; exact hs
  | i :: is, st, st', h, hs => by
    unfold fzSamples at h
    split at h
    · cases h
    · rename_i hj
      exact fzSamples_finite is h (fzClusters_finite _ hj hs)

theorem fzLoop_finite {X : List S} {k : Nat} {pw : K → K} {dm : Measure S K} {maxIter : Nat} {tol : K} (cc : Nat)
    {st st' : FzState S K} (h : fzLoop X k pw dm maxIter tol cc st = .ok st')
    (hs : ∀ u, st.uij = some u → AllFinite u) : ∀ u, st'.uij = some u → AllFinite u := by
  unfold fzLoop at h
  split at h
  · cases h
  · rename_i st1 h1
    have h2 := fzSamples_finite _ h1 hs
    split at h
    · cases h; exact h2
    · split at h
      · cases h; exact h2
      · exact fzLoop_finite (cc + 1) h h2
  termination_by maxIter + 1 - cc

/-- **C140** (numbers): all memberships of a result of fuzzy k-medoids are numbers, whatever the distances. -/
theorem C140_finite {X : List S} {k : Nat} {pw : K → K} {dm : Measure S K} {initial : Option (List Nat)}
    {outcome : List Nat} {maxIter : Nat} {tol : K} {r : FzResult K}
    (h : runKmedoidsFuzzy X k pw dm initial outcome maxIter tol = .ok r) :
    ∀ row ∈ r.uij, ∀ u ∈ row, ∃ x, u = FVal.fin x := by
  unfold runKmedoidsFuzzy at h
  split at h
  · cases h
  · split at h
    · cases h
    · split at h
      · cases h
      · rename_i st hst
        split at h
        · cases h
        · rename_i u hu
          split at h
          · cases h
            exact fzLoop_finite 0 hst (fun u h => by cases h) u hu
          · cases h

/-! ### The lines of the report -/

theorem rowMajor_one (n : Nat) : rowMajor 1 n = (List.range n).map fun y => (⟨0, y⟩ : Point) := by
  simp [rowMajor]

/-- The line of a cluster counts the samples at which no membership is larger than that of the cluster. -/
theorem reportLine_ok {medoids : List Nat} {u : Nat → Nat → K} {n i m : Nat} (hn : 0 < n) (hi : medoids[i]? = some m) :
    fuzzyReportLine medoids ((List.range n).map fun p => medoids.map fun m => u p m) i =
      .ok (m, ((List.range n).filter fun p => decide (∀ m' ∈ medoids, u p m' ≤ u p m)).length,
        (((List.range n).filter fun p => decide (∀ m' ∈ medoids, u p m' ≤ u p m)).length : K) * 100 / (n : K)) := by
  have hil := (List.getElem?_eq_some_iff.1 hi).1
  set uij := (List.range n).map fun p => medoids.map fun m => u p m with hu
  have hul : uij.length = n := by simp [hu]
  rcases C33_from_uij uij medoids.length 1 uij.length i (0 : K) (by
      intro r hr
      obtain ⟨p, _, rfl⟩ := List.mem_map.1 hr
      simp) with ⟨_, _, _, _, mask, e1, hok, e3, e4, e5, e6, hget⟩ | ⟨h, _⟩
  swap
  · exact absurd ⟨by simp, hil, le_rfl, zero_le_one⟩ h
  have hp0 : mask.pointIndex = 0 := by
    unfold FuzzyMask.fromUij FuzzyMask.create at e1
    split_ifs at e1
    cases e1
    rfl
  have hlen : mask.clusterLen =
      .ok (((List.range n).filter fun p => decide (∀ m' ∈ medoids, u p m' ≤ u p m)).length,
        { mask with pointIndex := 0 }) := by
    unfold FuzzyMask.clusterLen
    rw [FuzzyMask.loop_eq hok, hp0, pointsFrom_zero, e5, e6, hul, rowMajor_one, List.filter_map]
    simp only [List.length_map]
    congr 3
    refine List.filter_congr fun p hp => ?_
    have hpn := List.mem_range.1 hp
    obtain ⟨r, r1, r2⟩ := hget 0 (by omega) p (by rw [hul]; exact hpn)
    rw [hu, List.getElem?_map, Nat.zero_mul, Nat.zero_add, List.getElem?_range hpn] at r1
    simp only [Option.map_some, Option.some.injEq] at r1
    subst r1
    obtain ⟨v, b, g1, g2, g3⟩ := FuzzyMask.isMember_spec hok r2
    rw [e3, List.getElem?_map, hi] at g1
    simp only [Option.map_some, Option.some.injEq] at g1
    subst g1
    simp only [Function.comp_apply, FuzzyMask.has, g2]
    rw [e4] at g3
    rw [Bool.eq_iff_iff, decide_eq_true_iff, decide_eq_true_iff, Except.ok.injEq, g3]
    constructor
    · intro h m' hm'
      have := h _ (List.mem_map.2 ⟨m', hm', rfl⟩)
      linarith
    · intro h x hx
      obtain ⟨m', hm', rfl⟩ := List.mem_map.1 hx
      have := h m' hm'
      linarith
  unfold fuzzyReportLine
  rw [e1]
  simp only
  rw [hlen]
  simp only
  rw [if_neg (by omega), hi, hul]

/-- The largest memberships are those of the nearest medoids. -/
theorem fcmU_nearest {pw : K → K} {d : Nat → Nat → K} {n : Nat} {ms : List Nat} (hp : PowOK pw)
    (hs : ∀ x y, 0 < x → x < y → pw x < pw y) (hd : Separated d n) (hms : ∀ m ∈ ms, m < n) {p : Nat} (hpn : p < n)
    {m : Nat} (hm : m ∈ ms) : (∀ m' ∈ ms, fcmU pw d ms p m' ≤ fcmU pw d ms p m) ↔ NearestTo d ms m p := by
  constructor
  · intro h m' hm'
    by_contra hlt
    rw [not_le] at hlt
    have h1 := h m' hm'
    unfold fcmU at h1
    by_cases hpm : p ∈ ms
    · simp only [hpm, if_true] at h1
      by_cases h2 : p = m
      · subst h2
        rw [(hd p hpn p hpn).2.2 rfl] at hlt
        exact absurd (hd m' (hms m' hm') p hpn).1 (not_le.2 hlt)
      · have h3 := h p hpm
        unfold fcmU at h3
        simp only [hpm, if_true, if_neg h2] at h3
        exact absurd h3 (not_le.2 zero_lt_one)
    · simp only [hpm, if_false] at h1
      have q1 := (powers_pos hp hd hms hpn hpm m hm).1
      have q2 := (powers_pos hp hd hms hpn hpm m' hm').1
      rw [div_le_div_iff_of_pos_right (den_pos hp hd hms hpn hpm (List.ne_nil_of_mem hm))] at h1
      exact absurd (hs _ _ (one_div_pos.2 q1) (one_div_lt_one_div_of_lt q2 hlt)) (not_lt.2 h1)
  · intro h m' hm'
    exact fcmU_nearer hp hd hms hpn hm hm' (h m' hm')

/-- The numbers of samples for which the elements of a list qualify. -/
theorem sum_filter_range {P : Nat → Nat → Prop} [∀ m p, Decidable (P m p)] (ms : List Nat) (n : Nat) :
    (ms.map fun m => ((List.range n).filter fun p => decide (P m p)).length).sum =
      ((List.range n).map fun p => (ms.filter fun m => decide (P m p)).length).sum := by
  induction n with
  | zero => induction ms with
    | nil => simp
    | cons a l ih => simp
  | succ n ih =>
    simp only [List.range_succ, List.filter_append, List.length_append, List.map_append, List.sum_append,
      List.map_cons, List.map_nil, List.sum_cons, List.sum_nil, Nat.add_zero]
    rw [List.sum_map_add, ih]
    congr 1
    clear ih
    induction ms with
    | nil => rfl
    | cons a l ih =>
      rw [List.map_cons, List.sum_cons, ih]
      by_cases h : P a n <;> simp [h, Nat.add_comm]

omit [Field K] [IsStrictOrderedRing K] in
theorem exists_nearest (d : Nat → Nat → K) (p : Nat) : ∀ (ms : List Nat), ms ≠ [] → ∃ m ∈ ms, NearestTo d ms m p := by
  intro ms hne
  obtain ⟨m, h1, h2⟩ := Finset.exists_min_image ms.toFinset (fun m => d m p) (by
    obtain ⟨m, hm⟩ := List.exists_mem_of_ne_nil _ hne
    exact ⟨m, by simpa using hm⟩)
  exact ⟨m, by simpa using h1, fun m' hm' => h2 m' (by simpa using hm')⟩

theorem mapM_range_map {A B : Type} (f : Nat → Except PyErr B) (g : A → B) (l : List A)
    (h : ∀ (i : Nat) a, l[i]? = some a → f i = .ok (g a)) : (List.range l.length).mapM f = .ok (l.map g) := by
  rw [mapM_eq_ok, List.forall₂_iff_get]
  refine ⟨by simp, fun i h1 h2 => ?_⟩
  simp only [List.get_eq_getElem, List.getElem_range, List.getElem_map]
  simp only [List.length_range] at h1
  exact h i _ (List.getElem?_eq_getElem h1)

open Classical in
/-- **C140** (report): if fuzzy k-medoids returns a result (C32), its report has a line for each of the `k` clusters
with the medoid, the number of samples of which it is a nearest medoid, and their percentage. All numbers together are
at least the number of samples, and exactly this number if no sample has two nearest medoids. -/
theorem C140_report {X : List S} {dm : Measure S K} {d : Nat → Nat → K} {pw : K → K} {tol : K}
    (hr : Realises dm X d) (hp : PowOK pw) (hs : ∀ x y, 0 < x → x < y → pw x < pw y) (hd : Separated d X.length)
    {k maxIter : Nat} {initial : Option (List Nat)} {outcome : List Nat} (htol : 0 ≤ tol)
    (hin : ∀ i ∈ initialIndices initial outcome, i < X.length)
    (hn : (initialIndices initial outcome).Nodup)
    (hk : (initialIndices initial outcome).length = k) (h1 : 1 ≤ k) {r : FzResult K}
    (h : runKmedoidsFuzzy X k pw dm initial outcome maxIter tol = .ok r) :
    ∃ (lines : List (Nat × Nat × K)) (near : Nat → Finset Nat), fuzzyReport k r = .ok lines ∧ lines.length = k ∧
      (∀ m p, p ∈ near m ↔ p < X.length ∧ NearestTo d r.medoids m p) ∧
      (∀ (j m : Nat), r.medoids[j]? = some m →
        ∃ percent, lines[j]? = some (m, (near m).card, percent) ∧
          percent * (X.length : K) = 100 * ((near m).card : K)) ∧
      X.length ≤ (lines.map (·.2.1)).sum ∧
      ((∀ p < X.length, ∀ m ∈ r.medoids, ∀ m' ∈ r.medoids, m ≠ m' → d m p ≠ d m' p) →
        (lines.map (·.2.1)).sum = X.length) := by
  obtain ⟨c1, c2⟩ := C32_returns_partial (maxIter := maxIter) hr hp hd htol hin hn hk h1
  have hno : ¬ FzInitialOptimal pw d X.length k tol (initialIndices initial outcome) := by
    intro ho
    rw [c1 ho] at h
    cases h
  obtain ⟨r', e1, e2, e3, e4, e5, _⟩ := c2 hno
  rw [h] at e1
  cases e1
  have hX : 0 < X.length := by
    have : 0 < r.medoids.length := by omega
    have := e4 r.medoids[0] (List.getElem_mem this)
    omega
  have hu : (r.uij.map fun row => row.map FVal.number) =
      (List.range X.length).map fun p => r.medoids.map fun m => fcmU pw d r.medoids p m := by
    rw [e5]
    simp [FVal.number]
  have hnear : ∀ m ∈ r.medoids, ((List.range X.length).filter fun p =>
      decide (∀ m' ∈ r.medoids, fcmU pw d r.medoids p m' ≤ fcmU pw d r.medoids p m)) =
      (List.range X.length).filter fun p => decide (NearestTo d r.medoids m p) := by
    intro m hm
    refine List.filter_congr fun p hp' => ?_
    rw [Bool.eq_iff_iff, decide_eq_true_iff, decide_eq_true_iff]
    exact fcmU_nearest hp hs hd e4 (List.mem_range.1 hp') hm
  set cnt : Nat → Nat := fun m => ((List.range X.length).filter fun p => decide (NearestTo d r.medoids m p)).length
    with hcnt
  have hcard : ∀ m, ((Finset.range X.length).filter fun p => NearestTo d r.medoids m p).card = cnt m := by
    intro m
    rw [hcnt]
    simp only
    rw [← List.toFinset_card_of_nodup (List.nodup_range.filter _), List.toFinset_filter, List.toFinset_range]
    simp
  have hlines : fuzzyReport k r = .ok (r.medoids.map fun m => (m, cnt m, (cnt m : K) * 100 / (X.length : K))) := by
    unfold fuzzyReport
    rw [hu, ← e3]
    refine mapM_range_map _ _ r.medoids fun i m hi => ?_
    rw [reportLine_ok hX hi, hnear m (List.mem_of_getElem? hi)]
  refine ⟨_, fun m => (Finset.range X.length).filter fun p => NearestTo d r.medoids m p, hlines, by simp [e3],
    fun m p => by simp, fun j m hj => ?_, ?_, fun hne => ?_⟩
  · refine ⟨_, by rw [List.getElem?_map, hj, Option.map_some, hcard], ?_⟩
    have : (X.length : K) ≠ 0 := by
      have : (0 : K) < X.length := by exact_mod_cast hX
      exact this.ne'
    rw [hcard]
    field_simp
  · rw [List.map_map]
    show _ ≤ (r.medoids.map fun m => cnt m).sum
    rw [hcnt, sum_filter_range]
    calc X.length = ((List.range X.length).map fun _ => 1).sum := by simp
      _ ≤ _ := by
        refine List.sum_le_sum fun p hp' => ?_
        obtain ⟨m, m1, m2⟩ := exists_nearest d p r.medoids (by rintro h0; rw [h0] at e3; simp at e3; omega)
        exact List.length_pos_of_mem (List.mem_filter.2 ⟨m1, by simpa using m2⟩)
  · rw [List.map_map]
    show (r.medoids.map fun m => cnt m).sum = _
    rw [hcnt, sum_filter_range]
    calc _ = ((List.range X.length).map fun _ => 1).sum := by
          congr 1
          refine List.map_congr_left fun p hp' => ?_
          have hpn := List.mem_range.1 hp'
          obtain ⟨m, m1, m2⟩ := exists_nearest d p r.medoids (by rintro h0; rw [h0] at e3; simp at e3; omega)
          refine le_antisymm ?_ (List.length_pos_of_mem (List.mem_filter.2 ⟨m1, by simpa using m2⟩))
          have hsub : (r.medoids.filter fun m => decide (NearestTo d r.medoids m p)).Subperm [m] :=
            List.subperm_of_subset (e2.filter _) fun m' hm' => by
              obtain ⟨a, b⟩ := List.mem_filter.1 hm'
              rw [decide_eq_true_iff] at b
              by_contra hmm
              exact hne p hpn m' a m m1 (by simpa using hmm) (le_antisymm (b m m1) (m2 m' a))
          simpa using hsub.length_le
      _ = X.length := by simp

/-- The result of an example and its report. -/
def reportExample (X : List ℚ) : Except PyErr (List Nat × List (Nat × Nat × ℚ)) :=
  match runKmedoidsFuzzy X 2 id (.function fuzzyDist) (some [0, 1]) [] 1000 (1 / 1000) with
  | .error e => .error e
  | .ok r => (fuzzyReport 2 r).map fun l => (r.medoids, l)

/-- Four samples in two clusters; with five samples, the one in the middle is counted twice. -/
example : reportExample [0, 1, 3, 4] = .ok ([3, 1], [(3, 2, 50), (1, 2, 50)]) ∧
    reportExample [0, 1, 2, 3, 4] = .ok ([3, 1], [(3, 3, 60), (1, 3, 60)]) :=
  ⟨by decide +kernel, by decide +kernel⟩

end Spta
