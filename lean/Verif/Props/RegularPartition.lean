import Mathlib.Data.Nat.Prime.Infinite
import Mathlib.Tactic.IntervalCases
import Verif.Lemmas.Maths

/-!
# C01–C05: divisors and regular partitioning

Specifications are stated with plain arithmetic (divisibility, products, rectangles).
-/

namespace Spta

/-- Specification: the points labelled `l` in `g` are exactly the points of the half-open
rectangle `[x1, x2) × [y1, y2)`, which is non-empty and lies inside the array. -/
def LabelIsRect (g : Grid Nat) (l x1 x2 y1 y2 : Nat) : Prop :=
  x1 < x2 ∧ x2 ≤ g.xLen ∧ y1 < y2 ∧ y2 ≤ g.yLen ∧
  ∀ p : Point, g.get p = .ok l ↔ (x1 ≤ p.x ∧ p.x < x2 ∧ y1 ≤ p.y ∧ p.y < y2)

/-- Specification: `(a, b)` is the factorisation of `n` with `a ≤ b` whose factors are closest. -/
def MostBalanced (n a b : Nat) : Prop :=
  a * b = n ∧ a ≤ b ∧ ∀ c d, c * d = n → c ≤ d → b - a ≤ d - c

/-- C04: `divisors n` is strictly increasing and lists exactly the divisors of `n`. -/
theorem C04_divisors_exact_sorted (n : Nat) (hn : 1 ≤ n) :
    (divisors n).Pairwise (· < ·) ∧ ∀ d, d ∈ divisors n ↔ ∃ e, n = d * e :=
  ⟨divisors_sorted n, fun _ => mem_divisors hn⟩

example : divisors 36 = [1, 2, 3, 4, 6, 9, 12, 18, 36] := by decide +kernel

/-- C05 (first part): the balanced factorisation multiplies to `n` and is the closest one. -/
theorem C05_balanced_divisors (n : Nat) (hn : 1 ≤ n) :
    ∃ a b, findTwoBalancedDivisors n = .ok (a, b) ∧ MostBalanced n a b := by
  obtain ⟨a, b, hr, hm, hle, hbest⟩ := findTwoBalancedDivisors_spec hn
  refine ⟨a, b, hr, hm, hle, ?_⟩
  intro c d hcd hle'
  obtain ⟨h1, h2⟩ := hbest c d hcd hle'
  omega

/-- C05 (second part): the larger factor goes to the longer axis (to x for a square region). -/
theorem C05_order_follows_shape (n xLen yLen : Nat) (hn : 1 ≤ n) :
    ∃ dx dy, twoBalancedDivisorsOrderXY n xLen yLen = .ok (dx, dy) ∧
      MostBalanced n (min dx dy) (max dx dy) ∧
      (xLen < yLen → dx ≤ dy) ∧ (yLen ≤ xLen → dy ≤ dx) := by
  obtain ⟨a, b, hr, hbal⟩ := C05_balanced_divisors n hn
  obtain ⟨a', b', hr', hle, _, ho⟩ := order_spec hn xLen yLen
  rw [hr] at hr'
  cases hr'
  by_cases h : xLen < yLen
  · refine ⟨a, b, by simpa [h] using ho, ?_, fun _ => hle, by omega⟩
    rw [Nat.min_eq_left hle, Nat.max_eq_right hle]; exact hbal
  · refine ⟨b, a, by simpa [h] using ho, ?_, by omega, fun _ => hle⟩
    rw [Nat.min_eq_right hle, Nat.max_eq_left hle]; exact hbal

example : twoBalancedDivisorsOrderXY 24 10 20 = .ok (4, 6) ∧
    twoBalancedDivisorsOrderXY 24 20 10 = .ok (6, 4) := by decide +kernel

/-- Helper: a most balanced factorisation is unique. -/
theorem MostBalanced.unique {n a b a' b' : Nat} (h : MostBalanced n a b)
    (h' : MostBalanced n a' b') : a = a' ∧ b = b' := by
  obtain ⟨h1, h2, h3⟩ := h
  obtain ⟨h1', h2', h3'⟩ := h'
  have e1 := h3 a' b' h1' h2'
  have e2 := h3' a b h1 h2
  -- b - a = b' - a' and a*b = a'*b'
  obtain ⟨t, rfl⟩ : ∃ t, b = a + t := ⟨b - a, by omega⟩
  have hb' : b' = a' + t := by omega
  subst hb'
  have hprod : a * (a + t) = a' * (a' + t) := by rw [h1, h1']
  have hmono : ∀ u v : Nat, u < v → u * (u + t) < v * (v + t) := fun u v huv =>
    Nat.mul_lt_mul_of_lt_of_le huv (by omega) (by omega)
  rcases Nat.lt_trichotomy a a' with hlt | heq | hgt
  · have := hmono _ _ hlt; omega
  · subst heq; exact ⟨rfl, rfl⟩
  · have := hmono _ _ hgt; omega

/-- C02: with `(a, b)` the most balanced factorisation of `k`, the call raises ValueError exactly
when the longer axis has fewer than `b` lines or the shorter one fewer than `a`; otherwise it
returns a label matrix with the shape of the region. -/
theorem C02_rejects_exactly_small (xLen yLen k a b : Nat) (hk : 1 ≤ k)
    (hab : MostBalanced k a b) :
    (regularPartitioning xLen yLen k = .error .valueError ↔
      (max xLen yLen < b ∨ min xLen yLen < a)) ∧
    (¬ (max xLen yLen < b ∨ min xLen yLen < a) →
      ∃ g, regularPartitioning xLen yLen k = .ok g ∧ g.WF ∧ g.xLen = xLen ∧ g.yLen = yLen) := by
  obtain ⟨a', b', hr, hbal⟩ := C05_balanced_divisors k hk
  obtain ⟨rfl, rfl⟩ := MostBalanced.unique hab hbal
  obtain ⟨a', b', hr', hle, hmul, ho⟩ := order_spec hk xLen yLen
  rw [hr] at hr'
  cases hr'
  have ha0 : 0 < a := by
    rcases Nat.eq_zero_or_pos a with h | h
    · subst h; simp at hmul; omega
    · exact h
  have hb0 : 0 < b := by omega
  have hok : ¬ (max xLen yLen < b ∨ min xLen yLen < a) →
      ∃ g, regularPartitioning xLen yLen k = .ok g ∧ g.WF ∧ g.xLen = xLen ∧ g.yLen = yLen := by
    intro hns
    by_cases h : xLen < yLen
    · simp only [h, if_true] at ho
      obtain ⟨g, h1, h2, h3, h4, _⟩ := regularPartitioning_ok ho ha0 hb0 (by omega) (by omega)
      exact ⟨g, h1, h2, h3, h4⟩
    · simp only [h, if_false] at ho
      obtain ⟨g, h1, h2, h3, h4, _⟩ := regularPartitioning_ok ho hb0 ha0 (by omega) (by omega)
      exact ⟨g, h1, h2, h3, h4⟩
  refine ⟨⟨?_, ?_⟩, hok⟩
  · intro he
    by_contra hns
    obtain ⟨g, h1, _⟩ := hok hns
    rw [h1] at he; cases he
  · intro hs
    unfold regularPartitioning
    rw [ho]
    simp only [bind, Except.bind]
    by_cases h : xLen < yLen
    · simp only [h, if_true]
      rw [if_pos (by omega)]; rfl
    · simp only [h, if_false]
      rw [if_pos (by omega)]; rfl

example : MostBalanced 12 3 4 := by
  refine ⟨rfl, by omega, ?_⟩
  intro c d h hle
  have : c < 4 := by
    by_contra hc
    have : 4 * 4 ≤ c * d := Nat.mul_le_mul (by omega) (by omega)
    omega
  interval_cases c <;> omega

/-- k = 0 (outside the property's range) is never answered with a matrix. -/
theorem C02_zero_clusters_raise (xLen yLen : Nat) :
    ∃ e, regularPartitioning xLen yLen 0 = .error e := by
  have h0 : findTwoBalancedDivisors 0 = .ok (0, 1) := by decide +kernel
  unfold regularPartitioning twoBalancedDivisorsOrderXY
  rw [h0]
  by_cases h : xLen < yLen <;>
    simp only [h, bind, Except.bind, pure, Except.pure, if_true, if_false]
  · by_cases h2 : xLen < 0 ∨ yLen < 1
    · exact ⟨_, by rw [if_pos h2]; rfl⟩
    · rw [if_neg h2]; exact ⟨_, rfl⟩
  · by_cases h2 : xLen < 1 ∨ yLen < 0
    · exact ⟨_, by rw [if_pos h2]; rfl⟩
    · rw [if_neg h2]; exact ⟨_, rfl⟩

/-- Lemma for C01, C87: the cells are numbered with the divisors that are used. -/
theorem regularPartitioning_cells (xLen yLen k : Nat) (hk : 1 ≤ k) (g : Grid Nat)
    (h : regularPartitioning xLen yLen k = .ok g) :
    g.xLen = xLen ∧ g.yLen = yLen ∧
    (∀ p : Point, p.x < xLen → p.y < yLen → ∃ l, l < k ∧ g.get p = .ok l) ∧
    (∀ l, l < k → ∃ x1 x2 y1 y2, LabelIsRect g l x1 x2 y1 y2) ∧
    (∃ dx dy, twoBalancedDivisorsOrderXY k xLen yLen = .ok (dx, dy) ∧ dx * dy = k ∧ ∃ cx cy : Nat → Nat,
      cx 0 = 0 ∧ cx dx = xLen ∧ cy 0 = 0 ∧ cy dy = yLen ∧
      (∀ r, r < dx → cx r < cx (r + 1)) ∧ (∀ c, c < dy → cy c < cy (c + 1)) ∧
      ∀ r c, r < dx → c < dy →
        LabelIsRect g (r * dy + c) (cx r) (cx (r + 1)) (cy c) (cy (c + 1))) := by
  obtain ⟨a, b, hab, hle, hmul, ho⟩ := order_spec hk xLen yLen
  obtain ⟨dx, dy, ho, hdm⟩ : ∃ dx dy, twoBalancedDivisorsOrderXY k xLen yLen = .ok (dx, dy) ∧
      dx * dy = k := by
    refine ⟨_, _, ho, ?_⟩
    by_cases h : xLen < yLen
    · simp [h, hmul]
    · simp only [h, if_false]; rw [Nat.mul_comm]; exact hmul
  have hx0 : 0 < dx := by
    rcases Nat.eq_zero_or_pos dx with h | h
    · subst h; simp at hdm; omega
    · exact h
  have hy0 : 0 < dy := by
    rcases Nat.eq_zero_or_pos dy with h | h
    · subst h; simp at hdm; omega
    · exact h
  have hfit : dx ≤ xLen ∧ dy ≤ yLen := by
    by_contra hns
    unfold regularPartitioning at h
    rw [ho] at h
    simp only [bind, Except.bind] at h
    rw [if_pos (by omega)] at h
    cases h
  obtain ⟨g', hg', hwf, hgx, hgy, hlab⟩ := regularPartitioning_ok ho hx0 hy0 hfit.1 hfit.2
  rw [h] at hg'
  cases hg'
  -- every point lies in one band cell
  have hcell : ∀ p : Point, p.x < xLen → p.y < yLen → ∃ r c, r < dx ∧ c < dy ∧
      bandCut xLen dx r ≤ p.x ∧ p.x < bandCut xLen dx (r + 1) ∧
      bandCut yLen dy c ≤ p.y ∧ p.y < bandCut yLen dy (c + 1) ∧ g.get p = .ok (r * dy + c) := by
    intro p hpx hpy
    obtain ⟨r, hr, hr1, hr2⟩ := exists_band hx0 hpx
    obtain ⟨c, hc, hc1, hc2⟩ := exists_band hy0 hpy
    exact ⟨r, c, hr, hc, hr1, hr2, hc1, hc2, hlab r c hr hc p hr1 hr2 hc1 hc2⟩
  have hrect : ∀ r c, r < dx → c < dy →
      LabelIsRect g (r * dy + c) (bandCut xLen dx r) (bandCut xLen dx (r + 1))
        (bandCut yLen dy c) (bandCut yLen dy (c + 1)) := by
    intro r c hr hc
    refine ⟨bandCut_lt_succ hx0 hfit.1 hr, ?_, bandCut_lt_succ hy0 hfit.2 hc, ?_, ?_⟩
    · rw [hgx]; exact bandCut_le hx0 hfit.1 hr
    · rw [hgy]; exact bandCut_le hy0 hfit.2 hc
    · intro p
      constructor
      · intro hp
        have hb := (Grid.get_eq_ok_iff g p _).1 hp
        rw [hgx, hgy] at hb
        obtain ⟨r', c', hr', hc', h1, h2, h3, h4, h5⟩ := hcell p hb.1 hb.2.1
        rw [h5] at hp
        have hinj := idx_inj hc' hc (by simpa using hp)
        rw [← hinj.1, ← hinj.2]
        exact ⟨h1, h2, h3, h4⟩
      · rintro ⟨h1, h2, h3, h4⟩
        exact hlab r c hr hc p h1 h2 h3 h4
  refine ⟨hgx, hgy, ?_, ?_, dx, dy, ho, hdm, bandCut xLen dx, bandCut yLen dy, bandCut_zero hx0,
    bandCut_last _ _, bandCut_zero hy0, bandCut_last _ _,
    fun r hr => bandCut_lt_succ hx0 hfit.1 hr, fun c hc => bandCut_lt_succ hy0 hfit.2 hc, hrect⟩
  · intro p hpx hpy
    obtain ⟨r, c, hr, hc, _, _, _, _, h5⟩ := hcell p hpx hpy
    exact ⟨_, hdm ▸ idx_lt hr hc, h5⟩
  · intro l hl
    rw [← hdm] at hl
    have := hrect (l / dy) (l % dy) (div_lt_of_lt_mul' hl) (mod_lt_of_lt_mul hl)
    rw [idx_of_div_mod] at this
    exact ⟨_, _, _, _, this⟩

/-- C01: in a successful regular partition every point has exactly one label below `k` (the
matrix is single-valued), every label is used and its points form one solid rectangle; the labels
number the cells of a `dx` by `dy` grid of bands in row-major order. -/
theorem C01_regular_partition_covers (xLen yLen k : Nat) (hk : 1 ≤ k) (g : Grid Nat)
    (h : regularPartitioning xLen yLen k = .ok g) :
    g.xLen = xLen ∧ g.yLen = yLen ∧
    (∀ p : Point, p.x < xLen → p.y < yLen → ∃ l, l < k ∧ g.get p = .ok l) ∧
    (∀ l, l < k → ∃ x1 x2 y1 y2, LabelIsRect g l x1 x2 y1 y2) ∧
    (∃ dx dy, dx * dy = k ∧ ∃ cx cy : Nat → Nat,
      cx 0 = 0 ∧ cx dx = xLen ∧ cy 0 = 0 ∧ cy dy = yLen ∧
      (∀ r, r < dx → cx r < cx (r + 1)) ∧ (∀ c, c < dy → cy c < cy (c + 1)) ∧
      ∀ r c, r < dx → c < dy →
        LabelIsRect g (r * dy + c) (cx r) (cx (r + 1)) (cy c) (cy (c + 1))) := by
  obtain ⟨h1, h2, h3, h4, dx, dy, _, h5⟩ := regularPartitioning_cells xLen yLen k hk g h
  exact ⟨h1, h2, h3, h4, dx, dy, h5⟩

example : ∃ g, regularPartitioning 5 7 6 = .ok g ∧ g.get ⟨4, 6⟩ = .ok 5 := by
  refine ⟨_, rfl, ?_⟩; decide +kernel

/-- C03 is false: for every `n` there are a region and a `k` such that the regular partition has
one cluster consisting of a single point and another one with at least `n` points. -/
theorem C03_equal_size_refuted (n : Nat) :
    ∃ xLen yLen k g, 1 ≤ k ∧ regularPartitioning xLen yLen k = .ok g ∧
      ∃ l₁ l₂ x₁ x₂ m, n ≤ m ∧ LabelIsRect g l₁ x₁ (x₁ + 1) 0 1 ∧
        LabelIsRect g l₂ x₂ (x₂ + m) 0 1 := by
  obtain ⟨p, hp, hpp⟩ := Nat.exists_infinite_primes (n + 3)
  have hbal : MostBalanced p 1 p := by
    refine ⟨by simp, by omega, ?_⟩
    intro c d hcd hle
    rcases (Nat.dvd_prime hpp).1 ⟨d, hcd.symm⟩ with rfl | rfl
    · simp at hcd; omega
    · have : d = 1 := by
        have : c * d = c * 1 := by simpa using hcd
        exact Nat.eq_of_mul_eq_mul_left (by omega) this
      omega
  obtain ⟨a, b, hr, hle, hmul, ho⟩ := order_spec (k := p) (by omega) (2 * p - 1) 1
  obtain ⟨a', b', hr', hbal'⟩ := C05_balanced_divisors p (by omega)
  rw [hr] at hr'; cases hr'
  obtain ⟨rfl, rfl⟩ := MostBalanced.unique hbal hbal'
  rw [if_neg (by omega), if_neg (by omega)] at ho
  obtain ⟨g, hg, _, hgx, hgy, hlab⟩ :=
    regularPartitioning_ok ho (by omega) (by omega) (by omega) (by omega)
  have hlines : bandLines (2 * p - 1) p = (1, ((p - 1 : Nat) : Int)) := by
    have h1 : (2 * p - 1) / p = 1 := by
      rw [Nat.div_eq_iff (by omega)]; omega
    have h2 : (2 * p - 1) % p = p - 1 := by
      have := Nat.div_add_mod (2 * p - 1) p
      rw [h1] at this; omega
    unfold bandLines
    simp only [h1, h2]
    rw [if_neg]
    rintro ⟨_, h⟩
    have h3 : (p : Int) * 1 ≤ (p : Int) * ((p : Int) - (1 : Nat) - 1) :=
      Int.mul_le_mul_of_nonneg_left (by omega) (by omega)
    omega
  have hcut : ∀ r, r < p → bandCut (2 * p - 1) p r = r := by
    intro r hr
    unfold bandCut
    rw [if_neg (by omega), hlines]; simp
  have hcuty : bandCut 1 1 0 = 0 ∧ bandCut 1 1 1 = 1 := by decide
  -- rectangles come from the general description (C01)
  have hrect : ∀ r, r < p → LabelIsRect g r (bandCut (2 * p - 1) p r)
      (bandCut (2 * p - 1) p (r + 1)) 0 1 := by
    intro r hr
    have hs := bandCut_lt_succ (len := 2 * p - 1) (div := p) (by omega) (by omega) hr
    refine ⟨hs, by rw [hgx]; exact bandCut_le (by omega) (by omega) hr, by omega, by omega, ?_⟩
    intro q
    constructor
    · intro hq
      have hb := (Grid.get_eq_ok_iff g q _).1 hq
      rw [hgx, hgy] at hb
      obtain ⟨r', hr', h1, h2⟩ := exists_band (len := 2 * p - 1) (div := p) (by omega) hb.1
      have h3 := hlab r' 0 hr' (by omega) q h1 h2 (by omega)
        (by rw [bandCut_last]; omega)
      rw [hq] at h3
      have : r = r' := by simpa using h3
      subst this
      exact ⟨h1, h2, by omega, by omega⟩
    · rintro ⟨h1, h2, h3, h4⟩
      have := hlab r 0 hr (by omega) q h1 h2 (by rw [hcuty.1]; omega)
        (by rw [bandCut_last]; omega)
      simpa using this
  refine ⟨2 * p - 1, 1, p, g, by omega, hg, 0, p - 1, 0, p - 1, p, by omega, ?_, ?_⟩
  · have := hrect 0 (by omega)
    rw [hcut 0 (by omega), hcut (0 + 1) (by omega)] at this
    exact this
  · have := hrect (p - 1) (by omega)
    rw [hcut (p - 1) (by omega), Nat.sub_add_cancel (by omega), bandCut_last] at this
    have e : p - 1 + p = 2 * p - 1 := by omega
    rw [e]; exact this

/-- C03, what holds: when each axis has at least about as many lines per band as bands
(`dx ≤ xLen / dx + 1`, and the same for y), all bands but the last one of an axis have the same
number of lines `L` and the last one has at least one and fewer than `2 * L` lines.
Missing: the other sizes, where the claim is false (`C03_equal_size_refuted`). -/
theorem C03_equal_size_partial (xLen yLen k dx dy : Nat) (hk : 1 ≤ k) (g : Grid Nat)
    (h : regularPartitioning xLen yLen k = .ok g)
    (hd : twoBalancedDivisorsOrderXY k xLen yLen = .ok (dx, dy))
    (hbx : dx ≤ xLen / dx + 1) (hby : dy ≤ yLen / dy + 1) :
    ∃ Lx Ly, ∃ wx wy sx sy : Nat → Nat,
      (∀ r, r + 1 < dx → wx r = Lx) ∧ 1 ≤ wx (dx - 1) ∧ wx (dx - 1) < 2 * Lx ∧
      (∀ c, c + 1 < dy → wy c = Ly) ∧ 1 ≤ wy (dy - 1) ∧ wy (dy - 1) < 2 * Ly ∧
      ∀ r c, r < dx → c < dy →
        LabelIsRect g (r * dy + c) (sx r) (sx r + wx r) (sy c) (sy c + wy c) := by
  obtain ⟨a, b, hab, hle, hmul, ho⟩ := order_spec hk xLen yLen
  rw [hd] at ho
  have hdm : dx * dy = k := by
    by_cases h : xLen < yLen
    · simp only [h, if_true, Except.ok.injEq, Prod.mk.injEq] at ho
      rw [ho.1, ho.2, hmul]
    · simp only [h, if_false, Except.ok.injEq, Prod.mk.injEq] at ho
      rw [ho.1, ho.2, Nat.mul_comm, hmul]
  have hx0 : 0 < dx := by
    rcases Nat.eq_zero_or_pos dx with h | h
    · subst h; simp at hdm; omega
    · exact h
  have hy0 : 0 < dy := by
    rcases Nat.eq_zero_or_pos dy with h | h
    · subst h; simp at hdm; omega
    · exact h
  have hfit : dx ≤ xLen ∧ dy ≤ yLen := by
    by_contra hns
    unfold regularPartitioning at h
    rw [hd] at h
    simp only [bind, Except.bind] at h
    rw [if_pos (by omega)] at h
    cases h
  obtain ⟨g', hg', hwf, hgx, hgy, hlab⟩ := regularPartitioning_ok hd hx0 hy0 hfit.1 hfit.2
  rw [h] at hg'
  cases hg'
  -- the widths of the bands of one axis
  have hw : ∀ len div : Nat, 0 < div → div ≤ len → div ≤ len / div + 1 →
      (∀ r, r + 1 < div → bandCut len div (r + 1) - bandCut len div r = (bandLines len div).1) ∧
      1 ≤ bandCut len div (div - 1 + 1) - bandCut len div (div - 1) ∧
      bandCut len div (div - 1 + 1) - bandCut len div (div - 1) < 2 * (bandLines len div).1 := by
    intro len div h0 hle hb
    refine ⟨?_, ?_, ?_⟩
    · intro r hr
      unfold bandCut
      rw [if_neg (by omega), if_neg (by omega), Nat.mul_add]; omega
    · have := bandCut_lt_succ (r := div - 1) h0 hle (by omega); omega
    · obtain ⟨h1, h2, h3⟩ := bandLines_facts h0 hle
      rw [Nat.sub_add_cancel h0, bandCut_last]
      unfold bandCut
      rw [if_neg (by omega)]
      have hm := Nat.div_add_mod len div
      have hr := Nat.mod_lt len h0
      have hl : 1 ≤ len / div := (Nat.one_le_div_iff h0).2 hle
      have hexp : (bandLines len div).1 * div =
          (bandLines len div).1 * (div - 1) + (bandLines len div).1 := by
        obtain ⟨d, rfl⟩ : ∃ d, div = d + 1 := ⟨div - 1, by omega⟩
        simp only [Nat.add_sub_cancel]; ring
      have hres : (bandLines len div).2 < (bandLines len div).1 := by
        unfold bandLines
        simp only
        split
        · simp only
          have : (len / div + 1) * div = div * (len / div) + div := by ring
          omega
        · rename_i hc
          simp only
          by_contra hge
          apply hc
          refine ⟨by omega, ?_⟩
          rcases Nat.lt_or_ge div (len / div + 1) with hlt | hge'
          · have : (div : Int) * ((div : Int) - ((len / div : Nat) : Int) - 1) ≤ (div : Int) * (-1) :=
              Int.mul_le_mul_of_nonneg_left (by omega) (by omega)
            omega
          · have e : (div : Int) - ((len / div : Nat) : Int) - 1 = 0 := by omega
            rw [e]; omega
      omega
  obtain ⟨wx1, wx2, wx3⟩ := hw xLen dx hx0 hfit.1 hbx
  obtain ⟨wy1, wy2, wy3⟩ := hw yLen dy hy0 hfit.2 hby
  refine ⟨(bandLines xLen dx).1, (bandLines yLen dy).1,
    fun r => bandCut xLen dx (r + 1) - bandCut xLen dx r,
    fun c => bandCut yLen dy (c + 1) - bandCut yLen dy c,
    bandCut xLen dx, bandCut yLen dy, wx1, wx2, wx3, wy1, wy2, wy3, ?_⟩
  intro r c hr hc
  have hcx := bandCut_lt_succ hx0 hfit.1 hr
  have hcy := bandCut_lt_succ hy0 hfit.2 hc
  simp only
  rw [Nat.add_sub_cancel' (Nat.le_of_lt hcx), Nat.add_sub_cancel' (Nat.le_of_lt hcy)]
  refine ⟨hcx, by rw [hgx]; exact bandCut_le hx0 hfit.1 hr, hcy,
    by rw [hgy]; exact bandCut_le hy0 hfit.2 hc, ?_⟩
  intro p
  constructor
  · intro hp
    have hb := (Grid.get_eq_ok_iff g p _).1 hp
    rw [hgx, hgy] at hb
    obtain ⟨r', hr', h1, h2⟩ := exists_band hx0 hb.1
    obtain ⟨c', hc', h3, h4⟩ := exists_band hy0 hb.2.1
    have h5 := hlab r' c' hr' hc' p h1 h2 h3 h4
    rw [h5] at hp
    have hinj := idx_inj hc' hc (by simpa using hp)
    rw [← hinj.1, ← hinj.2]
    exact ⟨h1, h2, h3, h4⟩
  · rintro ⟨h1, h2, h3, h4⟩
    exact hlab r c hr hc p h1 h2 h3 h4

example : twoBalancedDivisorsOrderXY 12 20 30 = .ok (3, 4) ∧ 3 ≤ 20 / 3 + 1 ∧ 4 ≤ 30 / 4 + 1 ∧
    ∃ g, regularPartitioning 20 30 12 = .ok g :=
  ⟨by decide +kernel, by decide, by decide, _, rfl⟩

/-- The number of lines of all bands of an axis but the last one: the quotient, or one more if more than half of it would
be left over and there are at most as many bands as lines then. -/
theorem bandLines_eq {len div : Nat} (h0 : 0 < div) (hle : div ≤ len) :
    (bandLines len div).1 =
      if len / div < 2 * (len % div) ∧ div ≤ len / div + 1 then len / div + 1 else len / div := by
  have hr := Nat.mod_lt len h0
  have hl : 1 ≤ len / div := (Nat.one_le_div_iff h0).2 hle
  have hiff : (2 * (len % div) > len / div ∧
      ((len % div : Nat) : Int) > (div : Int) * ((div : Int) - ((len / div : Nat) : Int) - 1)) ↔
      (len / div < 2 * (len % div) ∧ div ≤ len / div + 1) := by
    constructor
    · rintro ⟨h1, h2⟩
      refine ⟨h1, ?_⟩
      by_contra hlt
      have : (div : Int) * 1 ≤ (div : Int) * ((div : Int) - ((len / div : Nat) : Int) - 1) :=
        Int.mul_le_mul_of_nonneg_left (by omega) (by omega)
      omega
    · rintro ⟨h1, h2⟩
      refine ⟨h1, ?_⟩
      have : (div : Int) * ((div : Int) - ((len / div : Nat) : Int) - 1) ≤ (div : Int) * 0 :=
        Int.mul_le_mul_of_nonneg_left (by omega) (by omega)
      omega
  unfold bandLines
  simp only
  by_cases hc : len / div < 2 * (len % div) ∧ div ≤ len / div + 1
  · rw [if_pos (hiff.2 hc), if_pos hc]
  · rw [if_neg fun h => hc (hiff.1 h), if_neg hc]

/-- C03, the sizes for all regions and all k: on each axis all bands but the last one have the same number of lines and
the last one has the rest. That number is the quotient of length and number of bands, or one more if more than half of
the quotient would be left over and there are at most quotient + 1 bands. So with more bands than that the last band has
all of the remainder, which can be almost as many lines as there are bands. -/
theorem C03_any_size_partial (xLen yLen k dx dy : Nat) (hk : 1 ≤ k) (g : Grid Nat)
    (h : regularPartitioning xLen yLen k = .ok g)
    (hd : twoBalancedDivisorsOrderXY k xLen yLen = .ok (dx, dy)) :
    ∃ Lx Ly, ∃ wx wy sx sy : Nat → Nat,
      Lx = (if xLen / dx < 2 * (xLen % dx) ∧ dx ≤ xLen / dx + 1 then xLen / dx + 1 else xLen / dx) ∧
      Ly = (if yLen / dy < 2 * (yLen % dy) ∧ dy ≤ yLen / dy + 1 then yLen / dy + 1 else yLen / dy) ∧
      (∀ r, r + 1 < dx → wx r = Lx) ∧ 1 ≤ wx (dx - 1) ∧ wx (dx - 1) + Lx * (dx - 1) = xLen ∧
      (∀ c, c + 1 < dy → wy c = Ly) ∧ 1 ≤ wy (dy - 1) ∧ wy (dy - 1) + Ly * (dy - 1) = yLen ∧
      ∀ r c, r < dx → c < dy →
        LabelIsRect g (r * dy + c) (sx r) (sx r + wx r) (sy c) (sy c + wy c) := by
  obtain ⟨a, b, hab, hle, hmul, ho⟩ := order_spec hk xLen yLen
  rw [hd] at ho
  have hdm : dx * dy = k := by
    by_cases h : xLen < yLen
    · simp only [h, if_true, Except.ok.injEq, Prod.mk.injEq] at ho
      rw [ho.1, ho.2, hmul]
    · simp only [h, if_false, Except.ok.injEq, Prod.mk.injEq] at ho
      rw [ho.1, ho.2, Nat.mul_comm, hmul]
  have hx0 : 0 < dx := by
    rcases Nat.eq_zero_or_pos dx with h | h
    · subst h; simp at hdm; omega
    · exact h
  have hy0 : 0 < dy := by
    rcases Nat.eq_zero_or_pos dy with h | h
    · subst h; simp at hdm; omega
    · exact h
  have hfit : dx ≤ xLen ∧ dy ≤ yLen := by
    by_contra hns
    unfold regularPartitioning at h
    rw [hd] at h
    simp only [bind, Except.bind] at h
    rw [if_pos (by omega)] at h
    cases h
  obtain ⟨g', hg', hwf, hgx, hgy, hlab⟩ := regularPartitioning_ok hd hx0 hy0 hfit.1 hfit.2
  rw [h] at hg'
  cases hg'
  have hw : ∀ len div : Nat, 0 < div → div ≤ len →
      (∀ r, r + 1 < div → bandCut len div (r + 1) - bandCut len div r = (bandLines len div).1) ∧
      1 ≤ bandCut len div (div - 1 + 1) - bandCut len div (div - 1) ∧
      bandCut len div (div - 1 + 1) - bandCut len div (div - 1) + (bandLines len div).1 * (div - 1) = len := by
    intro len div h0 hle
    refine ⟨?_, ?_, ?_⟩
    · intro r hr
      unfold bandCut
      rw [if_neg (by omega), if_neg (by omega), Nat.mul_add]; omega
    · have := bandCut_lt_succ (r := div - 1) h0 hle (by omega); omega
    · obtain ⟨h1, h2, h3⟩ := bandLines_facts h0 hle
      rw [Nat.sub_add_cancel h0, bandCut_last]
      unfold bandCut
      rw [if_neg (by omega)]
      omega
  obtain ⟨wx1, wx2, wx3⟩ := hw xLen dx hx0 hfit.1
  obtain ⟨wy1, wy2, wy3⟩ := hw yLen dy hy0 hfit.2
  refine ⟨(bandLines xLen dx).1, (bandLines yLen dy).1,
    fun r => bandCut xLen dx (r + 1) - bandCut xLen dx r,
    fun c => bandCut yLen dy (c + 1) - bandCut yLen dy c,
    bandCut xLen dx, bandCut yLen dy, bandLines_eq hx0 hfit.1, bandLines_eq hy0 hfit.2, wx1, wx2, wx3, wy1, wy2, wy3, ?_⟩
  intro r c hr hc
  have hcx := bandCut_lt_succ hx0 hfit.1 hr
  have hcy := bandCut_lt_succ hy0 hfit.2 hc
  simp only
  rw [Nat.add_sub_cancel' (Nat.le_of_lt hcx), Nat.add_sub_cancel' (Nat.le_of_lt hcy)]
  refine ⟨hcx, by rw [hgx]; exact bandCut_le hx0 hfit.1 hr, hcy,
    by rw [hgy]; exact bandCut_le hy0 hfit.2 hc, ?_⟩
  intro p
  constructor
  · intro hp
    have hb := (Grid.get_eq_ok_iff g p _).1 hp
    rw [hgx, hgy] at hb
    obtain ⟨r', hr', h1, h2⟩ := exists_band hx0 hb.1
    obtain ⟨c', hc', h3, h4⟩ := exists_band hy0 hb.2.1
    have h5 := hlab r' c' hr' hc' p h1 h2 h3 h4
    rw [h5] at hp
    have hinj := idx_inj hc' hc (by simpa using hp)
    rw [← hinj.1, ← hinj.2]
    exact ⟨h1, h2, h3, h4⟩
  · rintro ⟨h1, h2, h3, h4⟩
    exact hlab r c hr hc p h1 h2 h3 h4

/-- With k = 7 for 13 by 2 points the last of the seven bands has seven lines, the others one. -/
example : twoBalancedDivisorsOrderXY 7 13 2 = .ok (7, 1) ∧ (∃ g, regularPartitioning 13 2 7 = .ok g) ∧
    (if 13 / 7 < 2 * (13 % 7) ∧ 7 ≤ 13 / 7 + 1 then 13 / 7 + 1 else 13 / 7) = 1 ∧ 7 + 1 * (7 - 1) = 13 :=
  ⟨by decide +kernel, ⟨_, rfl⟩, by decide, by decide⟩

end Spta
