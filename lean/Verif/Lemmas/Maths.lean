import Mathlib.Data.List.Sort
import Verif.Model.Maths
import Verif.Lemmas.Grid

/-!
# Helper lemmas for divisors and regular partitioning
-/

namespace Spta

theorem le_isqrt {n d : Nat} (h : d * d ≤ n) : d ≤ isqrt n := by
  have hd : d ≤ n := by
    rcases Nat.eq_zero_or_pos d with h0 | h0
    · omega
    · exact Nat.le_trans (Nat.le_mul_of_pos_left d h0) h
  exact Nat.le_findGreatest (P := fun r => r * r ≤ n) hd h

theorem mem_divisors {n d : Nat} (hn : 1 ≤ n) : d ∈ divisors n ↔ d ∣ n := by
  simp only [divisors, List.mem_insertionSort, List.mem_dedup, List.mem_cons, List.mem_flatMap,
    List.mem_filter, List.mem_range'_1, beq_iff_eq, List.not_mem_nil, or_false]
  constructor
  · rintro (rfl | rfl | ⟨i, ⟨⟨h2, _⟩, hi⟩, rfl | rfl⟩)
    · exact Nat.one_dvd _
    · exact Nat.dvd_refl _
    · exact Nat.dvd_of_mod_eq_zero hi
    · exact Nat.div_dvd_of_dvd (Nat.dvd_of_mod_eq_zero hi)
  · rintro ⟨e, rfl⟩
    by_cases h1 : d = 1
    · exact Or.inl h1
    by_cases h2 : e = 1
    · subst h2; exact Or.inr (Or.inl (by simp))
    have hd0 : d ≠ 0 := by rintro rfl; simp at hn
    have he0 : e ≠ 0 := by rintro rfl; simp at hn
    refine Or.inr (Or.inr ?_)
    rcases Nat.le_total d e with hde | hde
    · refine ⟨d, ⟨⟨by omega, ?_⟩, by simp⟩, Or.inl rfl⟩
      have : d ≤ isqrt (d * e) := le_isqrt (Nat.mul_le_mul_left _ hde)
      omega
    · refine ⟨e, ⟨⟨by omega, ?_⟩, by simp⟩, Or.inr ?_⟩
      · have : e ≤ isqrt (d * e) := le_isqrt (Nat.mul_le_mul_right _ hde)
        omega
      · exact (Nat.mul_div_cancel _ (by omega)).symm

theorem divisors_nodup (n : Nat) : (divisors n).Nodup :=
  ((List.perm_insertionSort _ _).nodup_iff).2 (List.nodup_dedup _)

theorem divisors_sorted (n : Nat) : (divisors n).Pairwise (· < ·) := by
  have h1 : (divisors n).Pairwise (· ≤ ·) :=
    List.pairwise_insertionSort _ _
  have h2 := divisors_nodup n
  rw [List.Nodup] at h2
  exact (h1.and h2).imp (by intro a b h; obtain ⟨h3, h4⟩ := h; omega)

theorem balancedLoop_spec {n : Nat} :
    ∀ (l : List Nat), l ≠ [] → l.Pairwise (· < ·) → (∃ d ∈ l, n / d ≤ d) →
      ∃ b ∈ l, balancedLoop n l = .ok (n / b, b) ∧ n / b ≤ b ∧
        ∀ d ∈ l, n / d ≤ d → b ≤ d
  | [], h, _, _ => absurd rfl h
  | [d], _, _, he => by
      refine ⟨d, by simp, rfl, ?_, ?_⟩
      · simpa using he
      · simp
  | d :: d' :: ds, _, hs, he => by
      by_cases hd : n / d ≤ d
      · refine ⟨d, by simp, by simp [balancedLoop, hd], hd, ?_⟩
        intro e he' _
        rcases List.mem_cons.1 he' with rfl | h
        · exact Nat.le_refl _
        · exact Nat.le_of_lt ((List.pairwise_cons.1 hs).1 e h)
      · obtain ⟨e, hel, hee⟩ := he
        have hel' : e ∈ d' :: ds := by
          rcases List.mem_cons.1 hel with rfl | h
          · exact absurd hee hd
          · exact h
        obtain ⟨b, hb, hr, hbb, hmin⟩ :=
          balancedLoop_spec (d' :: ds) (by simp) (List.pairwise_cons.1 hs).2 ⟨e, hel', hee⟩
        refine ⟨b, List.mem_cons_of_mem _ hb, by simp [balancedLoop, hd, hr], hbb, ?_⟩
        intro f hf hff
        rcases List.mem_cons.1 hf with rfl | h
        · exact absurd hff hd
        · exact hmin f h hff

/-- The factorisation found for `n ≥ 1`: it multiplies to `n`, is ordered, and its larger factor
is the smallest possible larger factor. -/
theorem findTwoBalancedDivisors_spec {n : Nat} (hn : 1 ≤ n) :
    ∃ a b, findTwoBalancedDivisors n = .ok (a, b) ∧ a * b = n ∧ a ≤ b ∧
      ∀ c d, c * d = n → c ≤ d → b ≤ d ∧ c ≤ a := by
  have hmem := @mem_divisors n
  have hs := divisors_sorted n
  have key : ∀ b, b ∈ divisors n → n / b ≤ b → (∀ d ∈ divisors n, n / d ≤ d → b ≤ d) →
      (n / b) * b = n ∧ n / b ≤ b ∧
      ∀ c d, c * d = n → c ≤ d → b ≤ d ∧ c ≤ n / b := by
    intro b hb hbb hmin
    have hbd : b ∣ n := (hmem hn).1 hb
    refine ⟨Nat.div_mul_cancel hbd, hbb, ?_⟩
    intro c d hcd hle
    have hd0 : 0 < d := by
      rcases Nat.eq_zero_or_pos d with h | h
      · subst h; simp at hcd; omega
      · exact h
    have hdm : d ∈ divisors n := (hmem hn).2 ⟨c, by rw [← hcd, Nat.mul_comm]⟩
    have hq : n / d = c := by rw [← hcd]; exact Nat.mul_div_cancel _ hd0
    have hb' := hmin d hdm (by omega)
    refine ⟨hb', ?_⟩
    have hb0 : 0 < b := Nat.pos_of_dvd_of_pos hbd hn
    rw [Nat.le_div_iff_mul_le hb0, ← hcd]
    exact Nat.mul_le_mul_left _ hb'
  have hne : divisors n ≠ [] := by
    intro h
    have := (hmem hn (d := 1)).2 (Nat.one_dvd _)
    simp [h] at this
  have hex : ∃ d ∈ divisors n, n / d ≤ d :=
    ⟨n, (hmem hn).2 (Nat.dvd_refl _), by rw [Nat.div_self (by omega)]; omega⟩
  unfold findTwoBalancedDivisors
  split
  · rename_i a b hab
    -- two divisors only: they are 1 and n
    rw [hab] at hs hmem
    have hlt : a < b := by simpa using hs
    have h1 : 1 ∈ [a, b] := (hmem hn).2 (Nat.one_dvd _)
    have hN : n ∈ [a, b] := (hmem hn).2 (Nat.dvd_refl _)
    have ha : a = 1 := by
      have : 0 < a := Nat.pos_of_dvd_of_pos ((hmem hn).1 (by simp)) hn
      simp at h1; omega
    subst ha
    have hb : b = n := by
      have : b ∣ n := (hmem hn).1 (by simp)
      have := Nat.le_of_dvd hn this
      simp at hN; omega
    subst hb
    refine ⟨1, b, rfl, by simp, by omega, ?_⟩
    intro c d hcd hle
    have hcm : c ∈ [1, b] := (hmem hn).2 ⟨d, hcd.symm⟩
    simp at hcm
    rcases hcm with rfl | rfl
    · simp at hcd; omega
    · have : d = 1 := by
        have h0 : 0 < c := by omega
        have : c * d = c * 1 := by simpa using hcd
        exact Nat.eq_of_mul_eq_mul_left h0 this
      omega
  · obtain ⟨b, hb, hr, hbb, hmin⟩ := balancedLoop_spec (n := n) (divisors n) hne hs hex
    exact ⟨n / b, b, hr, key b hb hbb hmin⟩

/-! ### Bands -/

/-- `cut` of a band: the line where band `r` starts, `cut div = len`. -/
def bandCut (len div r : Nat) : Nat :=
  if r = div then len else (bandLines len div).1 * r

theorem bandLines_facts {len div : Nat} (h0 : 0 < div) (h : div ≤ len) :
    1 ≤ (bandLines len div).1 ∧ (bandLines len div).1 * (div - 1) < len ∧
      (((bandLines len div).1 * div : Nat) : Int) + (bandLines len div).2 = len := by
  have hl : 1 ≤ len / div := (Nat.one_le_div_iff h0).2 h
  have hm := Nat.div_add_mod len div
  have hr := Nat.mod_lt len h0
  unfold bandLines
  simp only
  split
  · rename_i hc
    refine ⟨by simp, ?_, by simp⟩
    simp only
    generalize len / div = l at *
    generalize len % div = r at *
    obtain ⟨d, rfl⟩ : ∃ d, div = d + 1 := ⟨div - 1, by omega⟩
    simp only [Nat.add_sub_cancel]
    have hk : d + 1 ≤ l + 1 + r := by
      by_contra hlt
      have h2 := hc.2
      have hge : (1 : Int) ≤ (d + 1 : Nat) - l - 1 := by omega
      have : ((d + 1 : Nat) : Int) * 1 ≤ ((d + 1 : Nat) : Int) * ((d + 1 : Nat) - l - 1) :=
        Int.mul_le_mul_of_nonneg_left hge (by omega)
      omega
    have hkr : d < l + r := by
      by_contra hlt
      have heq : d = l + r := by omega
      have h2 := hc.2
      rcases Nat.eq_zero_or_pos r with h0r | h0r
      · subst h0r
        have : ((d + 1 : Nat) : Int) - l - 1 = 0 := by omega
        rw [this] at h2; simp at h2
      · have hge : (1 : Int) ≤ (d + 1 : Nat) - l - 1 := by omega
        have : ((d + 1 : Nat) : Int) * 1 ≤ ((d + 1 : Nat) : Int) * ((d + 1 : Nat) - l - 1) :=
          Int.mul_le_mul_of_nonneg_left hge (by omega)
        omega
    nlinarith
  · refine ⟨hl, ?_, ?_⟩
    · simp only
      have h1 : len / div * (div - 1) < len / div * div :=
        Nat.mul_lt_mul_of_pos_left (by omega) (by omega)
      have h2 : len / div * div ≤ len := Nat.div_mul_le_self _ _
      omega
    · simp only
      rw [Nat.mul_comm]
      omega

theorem bandCut_zero {len div : Nat} (h0 : 0 < div) : bandCut len div 0 = 0 := by
  unfold bandCut
  rw [if_neg (by omega)]; simp

theorem bandCut_last (len div : Nat) : bandCut len div div = len := by simp [bandCut]

theorem bandCut_le {len div r : Nat} (h0 : 0 < div) (h : div ≤ len) (hr : r ≤ div) :
    bandCut len div r ≤ len := by
  obtain ⟨_, h2, _⟩ := bandLines_facts h0 h
  unfold bandCut
  split
  · exact Nat.le_refl _
  · have : (bandLines len div).1 * r ≤ (bandLines len div).1 * (div - 1) :=
      Nat.mul_le_mul_left _ (by omega)
    omega

theorem bandCut_lt_succ {len div r : Nat} (h0 : 0 < div) (h : div ≤ len) (hr : r < div) :
    bandCut len div r < bandCut len div (r + 1) := by
  obtain ⟨h1, h2, _⟩ := bandLines_facts h0 h
  unfold bandCut
  rw [if_neg (by omega)]
  split
  · rename_i he
    have : r = div - 1 := by omega
    rw [this]; exact h2
  · exact Nat.mul_lt_mul_of_pos_left (by omega) (by omega)

theorem bandCut_mono {len div : Nat} (h0 : 0 < div) (h : div ≤ len) {r s : Nat} (hrs : r ≤ s)
    (hs : s ≤ div) : bandCut len div r ≤ bandCut len div s := by
  induction s with
  | zero => simp at hrs; subst hrs; exact Nat.le_refl _
  | succ s ih =>
    rcases Nat.lt_or_ge r (s + 1) with hlt | hge
    · exact Nat.le_trans (ih (by omega) (by omega)) (Nat.le_of_lt (bandCut_lt_succ h0 h (by omega)))
    · have : r = s + 1 := by omega
      subst this; exact Nat.le_refl _

theorem pyBound_bandStart {len div r : Nat} (h0 : 0 < div) (h : div ≤ len) (hr : r < div) :
    pyBound len (bandStart (bandLines len div).1 r) = bandCut len div r := by
  have hle := bandCut_le h0 h (Nat.le_of_lt hr)
  unfold bandCut at *
  rw [if_neg (by omega)] at *
  unfold pyBound bandStart
  rw [if_neg (by omega)]
  omega

theorem pyBound_bandEnd {len div r : Nat} (h0 : 0 < div) (h : div ≤ len) (hr : r < div) :
    pyBound len (bandEnd (bandLines len div).1 (bandLines len div).2 div r) =
      bandCut len div (r + 1) := by
  have hle := bandCut_le h0 h (r := r + 1) hr
  obtain ⟨_, _, h3⟩ := bandLines_facts h0 h
  unfold bandCut bandEnd bandStart at *
  have hexp : (bandLines len div).1 * (r + 1) = (bandLines len div).1 * r + (bandLines len div).1 := by
    ring
  split
  · rename_i he
    have : (((bandLines len div).1 * r : Nat) : Int) + ((bandLines len div).1 : Int) +
        (bandLines len div).2 = len := by
      rw [he] at hexp
      rw [hexp] at h3
      push_cast at h3 ⊢
      linarith
    rw [this]
    unfold pyBound
    rw [if_neg (by omega)]
    omega
  · rename_i he
    rw [if_neg he] at hle
    unfold pyBound
    rw [if_neg (by omega)]
    omega

/-- Every line belongs to some band. -/
theorem exists_band {len div : Nat} (h0 : 0 < div) {x : Nat} (hx : x < len) :
    ∃ r, r < div ∧ bandCut len div r ≤ x ∧ x < bandCut len div (r + 1) := by
  have : ∀ m, m ≤ div → x < bandCut len div m →
      ∃ r, r < m ∧ bandCut len div r ≤ x ∧ x < bandCut len div (r + 1) := by
    intro m
    induction m with
    | zero => intro _ h; rw [bandCut_zero h0] at h; omega
    | succ m ih =>
      intro hm hlt
      by_cases hc : x < bandCut len div m
      · obtain ⟨r, h1, h2⟩ := ih (by omega) hc
        exact ⟨r, by omega, h2⟩
      · exact ⟨m, by omega, by omega, hlt⟩
  exact this div (Nat.le_refl _) (by rw [bandCut_last]; exact hx)

theorem band_unique {len div : Nat} (h0 : 0 < div) (h : div ≤ len) {x r s : Nat} (hr : r < div)
    (hs : s < div) (h1 : bandCut len div r ≤ x ∧ x < bandCut len div (r + 1))
    (h2 : bandCut len div s ≤ x ∧ x < bandCut len div (s + 1)) : r = s := by
  rcases Nat.lt_trichotomy r s with hlt | heq | hgt
  · have := bandCut_mono h0 h (r := r + 1) (s := s) hlt (by omega); omega
  · exact heq
  · have := bandCut_mono h0 h (r := s + 1) (s := r) hgt (by omega); omega

/-- A fold of slice assignments gives a cell the value of the only block containing it. -/
theorem foldl_setSlice {α ι : Type} (blocks : List ι) (a b c d : ι → Int) (lab : ι → α)
    {p : Point} : ∀ (g : Grid α), g.WF → p.x < g.xLen → p.y < g.yLen → ∀ (v : α),
      (∀ i ∈ blocks,
        (pyBound g.xLen (a i) ≤ p.x ∧ p.x < pyBound g.xLen (b i) ∧
         pyBound g.yLen (c i) ≤ p.y ∧ p.y < pyBound g.yLen (d i)) → lab i = v) →
      ((∃ i ∈ blocks,
        (pyBound g.xLen (a i) ≤ p.x ∧ p.x < pyBound g.xLen (b i) ∧
         pyBound g.yLen (c i) ≤ p.y ∧ p.y < pyBound g.yLen (d i))) ∨ g.get p = .ok v) →
      (blocks.foldl (fun m i => m.setSlice (a i) (b i) (c i) (d i) (lab i)) g).get p = .ok v := by
  induction blocks with
  | nil => intro g _ _ _ v _ h; simpa using h
  | cons i is ih =>
    intro g hg hx hy v hall hex
    simp only [List.foldl_cons]
    apply ih _ (Grid.setSlice_wf hg _ _ _ _ _) hx hy
    · intro j hj hjin
      exact hall j (List.mem_cons_of_mem _ hj) hjin
    · by_cases hi : (pyBound g.xLen (a i) ≤ p.x ∧ p.x < pyBound g.xLen (b i) ∧
         pyBound g.yLen (c i) ≤ p.y ∧ p.y < pyBound g.yLen (d i))
      · right
        rw [Grid.get_setSlice g hg _ _ _ _ _ hx hy, if_pos hi, hall i (by simp) hi]
      · rcases hex with ⟨j, hj, hjin⟩ | hv
        · left
          rcases List.mem_cons.1 hj with rfl | hj'
          · exact absurd hjin hi
          · exact ⟨j, hj', hjin⟩
        · right
          rw [Grid.get_setSlice g hg _ _ _ _ _ hx hy, if_neg hi, hv]

theorem foldl_setSlice_shape {α ι : Type} (blocks : List ι) (a b c d : ι → Int) (lab : ι → α) :
    ∀ (g : Grid α), g.WF →
      (blocks.foldl (fun m i => m.setSlice (a i) (b i) (c i) (d i) (lab i)) g).WF ∧
      (blocks.foldl (fun m i => m.setSlice (a i) (b i) (c i) (d i) (lab i)) g).xLen = g.xLen ∧
      (blocks.foldl (fun m i => m.setSlice (a i) (b i) (c i) (d i) (lab i)) g).yLen = g.yLen := by
  induction blocks with
  | nil => intro g hg; simp [hg]
  | cons i is ih =>
    intro g hg
    simp only [List.foldl_cons]
    obtain ⟨h1, h2, h3⟩ := ih _ (Grid.setSlice_wf hg (a i) (b i) (c i) (d i) (lab i))
    exact ⟨h1, by rw [h2]; rfl, by rw [h3]; rfl⟩

/-- The factors used by `regular_partitioning`. -/
theorem order_spec {k : Nat} (hk : 1 ≤ k) (xLen yLen : Nat) :
    ∃ a b, findTwoBalancedDivisors k = .ok (a, b) ∧ a ≤ b ∧ a * b = k ∧
      twoBalancedDivisorsOrderXY k xLen yLen =
        .ok (if xLen < yLen then a else b, if xLen < yLen then b else a) := by
  obtain ⟨a, b, hr, hm, hle, _⟩ := findTwoBalancedDivisors_spec hk
  refine ⟨a, b, hr, hle, hm, ?_⟩
  unfold twoBalancedDivisorsOrderXY
  rw [hr]
  by_cases h : xLen < yLen <;> simp [h, bind, Except.bind, pure, Except.pure]

/-- Full description of a successful regular partition. -/
theorem regularPartitioning_ok {xLen yLen k divX divY : Nat}
    (hd : twoBalancedDivisorsOrderXY k xLen yLen = .ok (divX, divY))
    (hx0 : 0 < divX) (hy0 : 0 < divY) (hx : divX ≤ xLen) (hy : divY ≤ yLen) :
    ∃ g, regularPartitioning xLen yLen k = .ok g ∧ g.WF ∧ g.xLen = xLen ∧ g.yLen = yLen ∧
      ∀ row col : Nat, row < divX → col < divY → ∀ p : Point,
        bandCut xLen divX row ≤ p.x → p.x < bandCut xLen divX (row + 1) →
        bandCut yLen divY col ≤ p.y → p.y < bandCut yLen divY (col + 1) →
        g.get p = .ok (row * divY + col) := by
  unfold regularPartitioning
  rw [hd]
  simp only [bind, Except.bind]
  rw [if_neg (by omega), if_neg (by omega)]
  simp only [pure, Except.pure]
  refine ⟨_, rfl, ?_⟩
  have hsh := foldl_setSlice_shape
    ((List.range divX).flatMap fun row => (List.range divY).map fun col => (row, col))
    (fun i : Nat × Nat => bandStart (bandLines xLen divX).1 i.1)
    (fun i => bandEnd (bandLines xLen divX).1 (bandLines xLen divX).2 divX i.1)
    (fun i => bandStart (bandLines yLen divY).1 i.2)
    (fun i => bandEnd (bandLines yLen divY).1 (bandLines yLen divY).2 divY i.2)
    (fun i => i.1 * divY + i.2) (Grid.const xLen yLen 0) (Grid.const_wf _ _ _)
  refine ⟨hsh.1, hsh.2.1, hsh.2.2, ?_⟩
  intro row col hrow hcol p h1 h2 h3 h4
  have hpx : p.x < xLen := by
    have := bandCut_le hx0 hx (r := row + 1) hrow; omega
  have hpy : p.y < yLen := by
    have := bandCut_le hy0 hy (r := col + 1) hcol; omega
  apply foldl_setSlice
    ((List.range divX).flatMap fun row => (List.range divY).map fun col => (row, col))
    (fun i : Nat × Nat => bandStart (bandLines xLen divX).1 i.1)
    (fun i => bandEnd (bandLines xLen divX).1 (bandLines xLen divX).2 divX i.1)
    (fun i => bandStart (bandLines yLen divY).1 i.2)
    (fun i => bandEnd (bandLines yLen divY).1 (bandLines yLen divY).2 divY i.2)
    (fun i => i.1 * divY + i.2) (Grid.const xLen yLen 0) (Grid.const_wf _ _ _) hpx hpy
  · rintro ⟨r, c⟩ hi hin
    simp only [List.mem_flatMap, List.mem_range, List.mem_map, Prod.mk.injEq] at hi
    obtain ⟨r', hr', c', hc', rfl, rfl⟩ := hi
    simp only [Grid.const] at hin
    rw [pyBound_bandStart hx0 hx hr', pyBound_bandEnd hx0 hx hr',
      pyBound_bandStart hy0 hy hc', pyBound_bandEnd hy0 hy hc'] at hin
    have e1 := band_unique hx0 hx hr' hrow ⟨hin.1, hin.2.1⟩ ⟨h1, h2⟩
    have e2 := band_unique hy0 hy hc' hcol ⟨hin.2.2.1, hin.2.2.2⟩ ⟨h3, h4⟩
    rw [e1, e2]
  · left
    refine ⟨(row, col), ?_, ?_⟩
    · simp only [List.mem_flatMap, List.mem_range, List.mem_map, Prod.mk.injEq]
      exact ⟨row, hrow, col, hcol, rfl, rfl⟩
    · simp only [Grid.const]
      rw [pyBound_bandStart hx0 hx hrow, pyBound_bandEnd hx0 hx hrow,
        pyBound_bandStart hy0 hy hcol, pyBound_bandEnd hy0 hy hcol]
      exact ⟨h1, h2, h3, h4⟩

end Spta
