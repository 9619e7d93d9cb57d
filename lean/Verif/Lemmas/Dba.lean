import Verif.Model.Dba
import Verif.Spec.Dba
import Mathlib.Tactic.Ring
import Mathlib.Tactic.Linarith
import Mathlib.Tactic.FieldSimp
import Mathlib.Algebra.BigOperators.Group.List.Basic
import Mathlib.Algebra.Order.BigOperators.Group.Finset
import Mathlib.Algebra.BigOperators.Ring.Finset

/-!
# Lemmas on squared DTW and DBA
-/

set_option linter.unusedSectionVars false

namespace Spta

/-! ### Loops -/

theorem forRange_ind {S : Type} {a b : Nat} {f : Nat → S → S} {s : S} (P : Nat → S → Prop)
    (h0 : P a s) (hs : ∀ i s, a ≤ i → i < b → P i s → P (i + 1) (f i s)) (hab : a ≤ b) :
    P b (forRange a b f s) := by
  have key : ∀ (n a : Nat) (s : S), P a s → (∀ i s, a ≤ i → i < a + n → P i s → P (i + 1) (f i s)) →
      P (a + n) ((List.range' a n).foldl (fun s i => f i s) s) := by
    intro n
    induction n with
    | zero => intro a s h _; exact h
    | succ n ih =>
      intro a s h hs
      rw [List.range'_succ, List.foldl_cons]
      have := ih (a + 1) (f a s) (hs a s (Nat.le_refl _) (by omega) h)
        (fun i s h1 h2 => hs i s (by omega) (by omega))
      rw [show a + (n + 1) = a + 1 + n by omega]
      exact this
  have := key (b - a) a s h0 (fun i s h1 h2 => hs i s h1 (by omega))
  rw [show a + (b - a) = b by omega] at this
  exact this

theorem forRange_map {S T : Type} {a b : Nat} {f : Nat → S → S} {g : Nat → T → T} (p : S → T)
    (h : ∀ i s, p (f i s) = g i (p s)) (s : S) : p (forRange a b f s) = forRange a b g (p s) := by
  unfold forRange
  generalize List.range' a (b - a) = l
  induction l generalizing s with
  | nil => rfl
  | cons i l ih => rw [List.foldl_cons, List.foldl_cons, ih, h]

theorem Mat.set_at {A : Type} (m : Mat A) (i j : Nat) (v : A) (a b : Nat) :
    (m.set i j v).at_ a b = if a = i ∧ b = j then v else m.at_ a b := rfl

theorem Mat.set_n {A : Type} (m : Mat A) (i j : Nat) (v : A) : (m.set i j v).n = m.n := rfl

theorem pyIndex_nat {n i : Nat} (h : i < n) : pyIndex n (i : Int) = .ok i := by
  unfold pyIndex
  rw [if_pos (by omega), if_pos (by omega)]
  rfl

theorem Mat.getInt_nat {A : Type} {m : Mat A} {i j : Nat} (hi : i < m.n) (hj : j < m.n) :
    m.getInt (i : Int) (j : Int) = .ok (m.at_ i j) := by
  rw [Mat.getInt, pyIndex_nat hi, pyIndex_nat hj]

theorem listAtInt_nat {A : Type} {l : List A} {i : Nat} {a : A} (h : l[i]? = some a) :
    listAtInt l (i : Int) = .ok a := by
  unfold listAtInt
  rw [if_pos (by omega), Int.toNat_natCast, listAt, h]

/-! ### Paths -/

section paths

variable {w : List (Nat × Nat)} {m n : Nat}

theorem IsWarpingPath.single : IsWarpingPath [(0, 0)] 0 0 := ⟨by simp, rfl, rfl⟩

theorem IsWarpingPath.snoc {a : Nat × Nat} (h : IsWarpingPath w a.1 a.2) (hs : IsStep a (m, n)) :
    IsWarpingPath (w ++ [(m, n)]) m n := by
  refine ⟨?_, ?_, by simp⟩
  · rw [List.isChain_append]
    refine ⟨h.chain, by simp, ?_⟩
    intro x hx y hy
    rw [h.stop] at hx
    simp at hx hy
    subst hx hy
    exact hs
  · rw [List.head?_append, h.start]; rfl

theorem IsWarpingPath.cases (h : IsWarpingPath w m n) :
    (w = [(0, 0)] ∧ m = 0 ∧ n = 0) ∨
    ∃ w' a, w = w' ++ [(m, n)] ∧ IsWarpingPath w' a.1 a.2 ∧ IsStep a (m, n) := by
  rcases List.eq_nil_or_concat w with rfl | ⟨w', x, rfl⟩
  · have := h.start; simp at this
  · have hx : x = (m, n) := by have := h.stop; simpa using this
    subst hx
    rcases List.eq_nil_or_concat w' with rfl | ⟨w'', a, rfl⟩
    · have := h.start
      simp at this
      left
      simp [this]
    · right
      have hc := h.chain
      simp only [List.concat_eq_append] at hc
      refine ⟨(w'' ++ [a]), a, by simp, ⟨(List.isChain_append.1 hc).1, ?_, by simp⟩, ?_⟩
      · have := h.start
        simp only [List.concat_eq_append] at this
        rw [List.append_assoc, List.head?_append] at this
        rw [List.head?_append]
        cases hw : w''.head? with
        | none => rw [hw] at this; simpa using this
        | some y => rw [hw] at this; simpa using this
      · exact (List.isChain_append.1 hc).2.2 a (by simp) (m, n) (by simp)

/-- A path stays within its end point. -/
theorem IsWarpingPath.le (h : IsWarpingPath w m n) : ∀ p ∈ w, p.1 ≤ m ∧ p.2 ≤ n := by
  have key : ∀ k (w : List (Nat × Nat)) m n, w.length = k → IsWarpingPath w m n →
      ∀ p ∈ w, p.1 ≤ m ∧ p.2 ≤ n := by
    intro k
    induction k with
    | zero =>
      intro w m n hl h
      have := h.start
      rw [List.length_eq_zero_iff.1 hl] at this
      simp at this
    | succ k ih =>
      intro w m n hl h p hp
      rcases h.cases with ⟨rfl, rfl, rfl⟩ | ⟨w', a, rfl, h', hs⟩
      · simp at hp; subst hp; simp
      · rcases List.mem_append.1 hp with hp | hp
        · have := ih w' a.1 a.2 (by simpa using hl) h' p hp
          rcases hs with hs | hs | hs <;> (simp at hs; omega)
        · simp at hp; subst hp; simp
  exact key _ w m n rfl h

/-- Every position of the first series is visited. -/
theorem IsWarpingPath.covers (h : IsWarpingPath w m n) : ∀ i ≤ m, ∃ j, (i, j) ∈ w := by
  have key : ∀ k (w : List (Nat × Nat)) m n, w.length = k → IsWarpingPath w m n →
      ∀ i ≤ m, ∃ j, (i, j) ∈ w := by
    intro k
    induction k with
    | zero =>
      intro w m n hl h
      have := h.start
      rw [List.length_eq_zero_iff.1 hl] at this
      simp at this
    | succ k ih =>
      intro w m n hl h i hi
      rcases h.cases with ⟨rfl, rfl, rfl⟩ | ⟨w', a, rfl, h', hs⟩
      · exact ⟨0, by simp; omega⟩
      · by_cases he : i = m
        · exact ⟨n, by simp [he]⟩
        · have : i ≤ a.1 := by rcases hs with hs | hs | hs <;> (simp at hs; omega)
          obtain ⟨j, hj⟩ := ih w' a.1 a.2 (by simpa using hl) h' i this
          exact ⟨j, by simp [hj]⟩
  exact key _ w m n rfl h

/-- Exchanging the two series. -/
theorem IsWarpingPath.swap (h : IsWarpingPath w m n) : IsWarpingPath (w.map Prod.swap) n m := by
  refine ⟨?_, by simp [h.start], by rw [List.getLast?_map, h.stop]; rfl⟩
  rw [List.isChain_map]
  refine h.chain.imp ?_
  intro a b hab
  rcases hab with rfl | rfl | rfl
  · exact Or.inr (Or.inl rfl)
  · exact Or.inl rfl
  · exact Or.inr (Or.inr rfl)

/-- The diagonal of two series of equal length. -/
theorem IsWarpingPath.diagonal (m : Nat) :
    IsWarpingPath ((List.range (m + 1)).map fun i => (i, i)) m m := by
  induction m with
  | zero => exact .single
  | succ m ih =>
    rw [List.range_succ, List.map_append]
    exact ih.snoc (a := (m, m)) (Or.inr (Or.inr rfl))

end paths

section

variable {K : Type} [Field K] [LinearOrder K] [IsStrictOrderedRing K]

/-- The smallest of the three neighbours, as the code picks it. -/
def pick3 (diag left top : K) : K :=
  if diag ≤ left then (if diag ≤ top then diag else top) else (if left ≤ top then left else top)

/-- The move that goes with it. -/
def move3 (diag left top : K) : Int :=
  if diag ≤ left then (if diag ≤ top then 0 else 2) else (if left ≤ top then 1 else 2)

/-- The recursion that the loops compute. -/
def dpCost (δ : Nat → Nat → K) : Nat → Nat → K
  | 0, 0 => δ 0 0
  | i + 1, 0 => dpCost δ i 0 + δ (i + 1) 0
  | 0, j + 1 => dpCost δ 0 j + δ 0 (j + 1)
  | i + 1, j + 1 => pick3 (dpCost δ i j) (dpCost δ (i + 1) j) (dpCost δ i (j + 1)) + δ (i + 1) (j + 1)
termination_by i j => i + j

/-- The moves that the loops compute. -/
def dpMove (δ : Nat → Nat → K) : Nat → Nat → Int
  | 0, 0 => -1
  | _ + 1, 0 => 2
  | 0, _ + 1 => 1
  | i + 1, j + 1 => move3 (dpCost δ i j) (dpCost δ (i + 1) j) (dpCost δ i (j + 1))

theorem pick3_le (a b c : K) : pick3 a b c ≤ a ∧ pick3 a b c ≤ b ∧ pick3 a b c ≤ c := by
  unfold pick3
  split <;> split <;> rename_i h1 h2
  · exact ⟨le_refl _, h1, h2⟩
  · have := le_of_lt (not_le.1 h2); exact ⟨this, le_trans this h1, le_refl _⟩
  · have := le_of_lt (not_le.1 h1); exact ⟨this, le_refl _, h2⟩
  · have h1' := le_of_lt (not_le.1 h1)
    have h2' := le_of_lt (not_le.1 h2)
    exact ⟨le_trans h2' h1', h2', le_refl _⟩

theorem pick3_move (a b c : K) :
    (move3 a b c = 0 ∧ pick3 a b c = a) ∨ (move3 a b c = 1 ∧ pick3 a b c = b) ∨
      (move3 a b c = 2 ∧ pick3 a b c = c) := by
  unfold pick3 move3
  split <;> split <;> simp

/-- Sum along a path for general local costs. -/
def pathSum (δ : Nat → Nat → K) (w : List (Nat × Nat)) : K := (w.map fun p => δ p.1 p.2).sum

theorem pathSum_snoc (δ : Nat → Nat → K) (w : List (Nat × Nat)) (a b : Nat) :
    pathSum δ (w ++ [(a, b)]) = pathSum δ w + δ a b := by
  simp [pathSum]

/-- Every path costs at least what the recursion says. -/
theorem dpCost_le (δ : Nat → Nat → K) : ∀ {w : List (Nat × Nat)} {i j : Nat}, IsWarpingPath w i j →
    dpCost δ i j ≤ pathSum δ w := by
  have key : ∀ k (w : List (Nat × Nat)) i j, w.length = k → IsWarpingPath w i j →
      dpCost δ i j ≤ pathSum δ w := by
    intro k
    induction k with
    | zero =>
      intro w m n hl h
      have := h.start
      rw [List.length_eq_zero_iff.1 hl] at this
      simp at this
    | succ k ih =>
      intro w i j hl h
      rcases h.cases with ⟨rfl, rfl, rfl⟩ | ⟨w', a, rfl, h', hs⟩
      · simp [pathSum, dpCost]
      · have h1 := ih w' a.1 a.2 (by simpa using hl) h'
        rw [pathSum_snoc]
        obtain ⟨a1, a2⟩ := a
        simp only [IsStep, Prod.mk.injEq] at hs h1
        rcases hs with ⟨rfl, rfl⟩ | ⟨rfl, rfl⟩ | ⟨rfl, rfl⟩
        · cases j with
          | zero => rw [dpCost]; linarith
          | succ j => rw [dpCost]; have := (pick3_le (dpCost δ a1 j) (dpCost δ (a1 + 1) j) (dpCost δ a1 (j + 1))).2.2; linarith
        · cases i with
          | zero => rw [dpCost]; linarith
          | succ i => rw [dpCost]; have := (pick3_le (dpCost δ i a2) (dpCost δ (i + 1) a2) (dpCost δ i (a2 + 1))).2.1; linarith
        · rw [dpCost]; have := (pick3_le (dpCost δ a1 a2) (dpCost δ (a1 + 1) a2) (dpCost δ a1 (a2 + 1))).1; linarith
  intro w i j h
  exact key _ w i j rfl h

/-- The predecessor that a move leads to. -/
theorem dpMove_cases (δ : Nat → Nat → K) (i j : Nat) :
    (i = 0 ∧ j = 0 ∧ dpMove δ i j = -1 ∧ dpCost δ i j = δ 0 0) ∨
    (∃ i' j', i = i' + 1 ∧ j = j' + 1 ∧ dpMove δ i j = 0 ∧ dpCost δ i j = dpCost δ i' j' + δ i j) ∨
    (∃ j', j = j' + 1 ∧ dpMove δ i j = 1 ∧ dpCost δ i j = dpCost δ i j' + δ i j) ∨
    (∃ i', i = i' + 1 ∧ dpMove δ i j = 2 ∧ dpCost δ i j = dpCost δ i' j + δ i j) := by
  cases i with
  | zero =>
    cases j with
    | zero => left; simp [dpMove, dpCost]
    | succ j => right; right; left; exact ⟨j, rfl, rfl, by rw [dpCost]⟩
  | succ i =>
    cases j with
    | zero => right; right; right; exact ⟨i, rfl, rfl, by rw [dpCost]⟩
    | succ j =>
      right
      have hm : dpMove δ (i + 1) (j + 1) =
          move3 (dpCost δ i j) (dpCost δ (i + 1) j) (dpCost δ i (j + 1)) := rfl
      rcases pick3_move (dpCost δ i j) (dpCost δ (i + 1) j) (dpCost δ i (j + 1)) with
        ⟨h1, h2⟩ | ⟨h1, h2⟩ | ⟨h1, h2⟩
      · left; exact ⟨i, j, rfl, rfl, by rw [hm, h1], by rw [dpCost, h2]⟩
      · right; left; exact ⟨j, rfl, by rw [hm, h1], by rw [dpCost, h2]⟩
      · right; right; exact ⟨i, rfl, by rw [hm, h1], by rw [dpCost, h2]⟩

/-- Some path costs exactly what the recursion says. -/
theorem dpCost_attained (δ : Nat → Nat → K) : ∀ (k i j : Nat), i + j = k →
    ∃ w, IsWarpingPath w i j ∧ pathSum δ w = dpCost δ i j := by
  intro k
  induction k using Nat.strong_induction_on with
  | _ k ih =>
    intro i j hk
    rcases dpMove_cases δ i j with ⟨rfl, rfl, _, h⟩ | ⟨i', j', rfl, rfl, _, h⟩ | ⟨j', rfl, _, h⟩ |
      ⟨i', rfl, _, h⟩
    · exact ⟨[(0, 0)], .single, by rw [h]; simp [pathSum]⟩
    · obtain ⟨w, h1, h2⟩ := ih (i' + j') (by omega) i' j' rfl
      exact ⟨_, h1.snoc (a := (i', j')) (Or.inr (Or.inr rfl)), by rw [pathSum_snoc, h2, h]⟩
    · obtain ⟨w, h1, h2⟩ := ih (i + j') (by omega) i j' rfl
      exact ⟨_, h1.snoc (a := (i, j')) (Or.inr (Or.inl rfl)), by rw [pathSum_snoc, h2, h]⟩
    · obtain ⟨w, h1, h2⟩ := ih (i' + j) (by omega) i' j rfl
      exact ⟨_, h1.snoc (a := (i', j)) (Or.inl rfl), by rw [pathSum_snoc, h2, h]⟩

/-! ### Filling the matrices -/

/-- The cells in `S` are final. -/
def Filled (δ : Nat → Nat → K) (st : Mat K × Mat Int) (S : Nat → Nat → Prop) : Prop :=
  ∀ a b, S a b → st.1.at_ a b = dpCost δ a b ∧ st.2.at_ a b = dpMove δ a b

theorem Filled.set {δ : Nat → Nat → K} {st : Mat K × Mat Int} {S : Nat → Nat → Prop}
    (h : Filled δ st S) (i j : Nat) {v : K} {mv : Int} (hv : v = dpCost δ i j)
    (hm : mv = dpMove δ i j) (S' : Nat → Nat → Prop)
    (hS : ∀ a b, S' a b → S a b ∨ (a = i ∧ b = j)) :
    Filled δ (st.1.set i j v, st.2.set i j mv) S' := by
  intro a b hab
  simp only [Mat.set_at]
  by_cases he : a = i ∧ b = j
  · rw [if_pos he, if_pos he, he.1, he.2]; exact ⟨hv, hm⟩
  · rw [if_neg he, if_neg he]
    rcases hS a b hab with h' | h'
    · exact h a b h'
    · exact absurd h' he

theorem dbaCell_eq (delta : Mat K) (i j : Nat) (st : Mat K × Mat Int) :
    dbaCell delta i j st =
      (st.1.set i j (pick3 (st.1.at_ (i - 1) (j - 1)) (st.1.at_ i (j - 1)) (st.1.at_ (i - 1) j) +
        delta.at_ i j),
       st.2.set i j (move3 (st.1.at_ (i - 1) (j - 1)) (st.1.at_ i (j - 1)) (st.1.at_ (i - 1) j))) := by
  unfold dbaCell pick3 move3
  simp only
  split <;> split <;> rfl

theorem dbaFill_filled (delta : Mat K) {cLen sLen : Nat} (hc : 1 ≤ cLen) (hs : 1 ≤ sLen)
    (st : Mat K × Mat Int) :
    Filled delta.at_ (dbaFill cLen sLen delta st) (fun a b => a < cLen ∧ b < sLen) := by
  unfold dbaFill
  simp only
  -- corner
  have h0 : Filled delta.at_ (st.1.set 0 0 (delta.at_ 0 0), st.2.set 0 0 (-1))
      (fun a b => a = 0 ∧ b = 0) := by
    have : Filled delta.at_ st (fun _ _ => False) := fun _ _ h => h.elim
    exact this.set 0 0 (by rw [dpCost]) rfl _ (fun a b h => Or.inr h)
  -- first column
  have h1 := forRange_ind (a := 1) (b := cLen)
    (f := fun i (st : Mat K × Mat Int) =>
      (st.1.set i 0 (st.1.at_ (i - 1) 0 + delta.at_ i 0), st.2.set i 0 2))
    (s := (st.1.set 0 0 (delta.at_ 0 0), st.2.set 0 0 (-1)))
    (fun i st => Filled delta.at_ st (fun a b => a < i ∧ b = 0))
    (fun a b h => h0 a b (by omega))
    (by
      intro i st hi _ h
      obtain ⟨i, rfl⟩ : ∃ i', i = i' + 1 := ⟨i - 1, by omega⟩
      refine h.set (i + 1) 0 ?_ rfl _ (fun a b h => by omega)
      rw [dpCost, Nat.add_sub_cancel, (h i 0 (by omega)).1]) hc
  -- first row
  have h2 := forRange_ind (a := 1) (b := sLen)
    (f := fun j (st : Mat K × Mat Int) =>
      (st.1.set 0 j (st.1.at_ 0 (j - 1) + delta.at_ 0 j), st.2.set 0 j 1))
    (fun j st => Filled delta.at_ st (fun a b => (a < cLen ∧ b = 0) ∨ (a = 0 ∧ b < j)))
    (fun a b h => h1 a b (by omega))
    (by
      intro j st hj _ h
      obtain ⟨j, rfl⟩ : ∃ j', j = j' + 1 := ⟨j - 1, by omega⟩
      refine h.set 0 (j + 1) ?_ rfl _ (fun a b h => by omega)
      rw [dpCost, Nat.add_sub_cancel, (h 0 j (by omega)).1]) hs
  -- the rest
  have h3 := forRange_ind (a := 1) (b := cLen)
    (f := fun i st => forRange 1 sLen (fun j st => dbaCell delta i j st) st)
    (fun i st => Filled delta.at_ st (fun a b => a < cLen ∧ b < sLen ∧ (b = 0 ∨ a < i)))
    (fun a b h => h2 a b (by omega))
    (by
      intro i st hi hic h
      have := forRange_ind (a := 1) (b := sLen) (f := fun j st => dbaCell delta i j st) (s := st)
        (fun j st => Filled delta.at_ st
          (fun a b => a < cLen ∧ b < sLen ∧ (b = 0 ∨ a < i ∨ (a = i ∧ b < j))))
        (fun a b h' => h a b (by omega))
        (by
          intro j st hj hjs h
          obtain ⟨j, rfl⟩ : ∃ j', j = j' + 1 := ⟨j - 1, by omega⟩
          obtain ⟨i, rfl⟩ : ∃ i', i = i' + 1 := ⟨i - 1, by omega⟩
          rw [dbaCell_eq, Nat.add_sub_cancel, Nat.add_sub_cancel, (h i j (by omega)).1,
            (h (i + 1) j (by omega)).1, (h i (j + 1) (by omega)).1]
          exact h.set (i + 1) (j + 1) (by rw [dpCost]) rfl _ (fun a b h => by omega)) hs
      exact fun a b h' => this a b (by omega)) hc
  exact fun a b h => h3 a b (by omega)

theorem dbaFill_n (cLen sLen : Nat) (delta : Mat K) (st : Mat K × Mat Int) :
    (dbaFill cLen sLen delta st).1.n = st.1.n ∧ (dbaFill cLen sLen delta st).2.n = st.2.n := by
  have hn : ∀ (a b : Nat) (f : Nat → Mat K × Mat Int → Mat K × Mat Int),
      (∀ i st, (f i st).1.n = st.1.n ∧ (f i st).2.n = st.2.n) → ∀ st,
      (forRange a b f st).1.n = st.1.n ∧ (forRange a b f st).2.n = st.2.n := by
    intro a b f hf st
    have h1 := forRange_map (a := a) (b := b) (f := f) (g := fun _ n => n)
      (fun (st : Mat K × Mat Int) => (st.1.n, st.2.n)) (fun i st => by rw [(hf i st).1, (hf i st).2]) st
    have h2 : ∀ (x : Nat × Nat), forRange a b (fun _ n => n) x = x := by
      intro x
      unfold forRange
      generalize List.range' a (b - a) = l
      induction l with
      | nil => rfl
      | cons i l ih => exact ih
    rw [h2] at h1
    exact ⟨congrArg Prod.fst h1, congrArg Prod.snd h1⟩
  unfold dbaFill
  simp only
  have hcell : ∀ i j (st : Mat K × Mat Int),
      (dbaCell delta i j st).1.n = st.1.n ∧ (dbaCell delta i j st).2.n = st.2.n := by
    intro i j st; rw [dbaCell_eq]; exact ⟨rfl, rfl⟩
  have hrow := fun i st => hn 1 sLen (fun j st => dbaCell delta i j st) (fun j st => hcell i j st) st
  have e3 := fun st => hn 1 cLen (fun i st => forRange 1 sLen (fun j st => dbaCell delta i j st) st)
    (fun i st => hrow i st) st
  have e2 := fun st => hn 1 sLen (fun j (st : Mat K × Mat Int) =>
    (st.1.set 0 j (st.1.at_ 0 (j - 1) + delta.at_ 0 j), st.2.set 0 j 1)) (fun _ _ => ⟨rfl, rfl⟩) st
  have e1 := fun st => hn 1 cLen (fun i (st : Mat K × Mat Int) =>
    (st.1.set i 0 (st.1.at_ (i - 1) 0 + delta.at_ i 0), st.2.set i 0 2)) (fun _ _ => ⟨rfl, rfl⟩) st
  exact ⟨by rw [(e3 _).1, (e2 _).1, (e1 _).1]; rfl, by rw [(e3 _).2, (e2 _).2, (e1 _).2]; rfl⟩

/-- The loops of `squared_DTW` compute the same costs. -/
theorem dtwFill_eq (sLen tLen : Nat) (delta cost : Mat K) (path : Mat Int) :
    dtwFill sLen tLen delta cost = (dbaFill sLen tLen delta (cost, path)).1 := by
  have hcell : ∀ i j (st : Mat K × Mat Int),
      (dbaCell delta i j st).1 = dtwCell delta i j st.1 := by
    intro i j st; rw [dbaCell_eq]; rfl
  unfold dtwFill dbaFill
  simp only
  rw [forRange_map (a := 1) (b := sLen)
    (f := fun i st => forRange 1 tLen (fun j st => dbaCell delta i j st) st)
    (g := fun i cost => forRange 1 tLen (fun j cost => dtwCell delta i j cost) cost) Prod.fst
    (fun i st => forRange_map Prod.fst (fun j st => hcell i j st) st)]
  rw [forRange_map (a := 1) (b := tLen)
    (f := fun j (st : Mat K × Mat Int) =>
      (st.1.set 0 j (st.1.at_ 0 (j - 1) + delta.at_ 0 j), st.2.set 0 j 1))
    (g := fun j cost => cost.set 0 j (cost.at_ 0 (j - 1) + delta.at_ 0 j)) Prod.fst (fun _ _ => rfl)]
  rw [forRange_map (a := 1) (b := sLen)
    (f := fun i (st : Mat K × Mat Int) =>
      (st.1.set i 0 (st.1.at_ (i - 1) 0 + delta.at_ i 0), st.2.set i 0 2))
    (g := fun i cost => cost.set i 0 (cost.at_ (i - 1) 0 + delta.at_ i 0)) Prod.fst (fun _ _ => rfl)]

/-- The local costs. -/
def sqDelta (s t : List K) (i j : Nat) : K := (s.getD i 0 - t.getD j 0) ^ 2

theorem fillDelta_ok {s t : List K} {delta : Mat K} (hs : s.length ≤ delta.n) (ht : t.length ≤ delta.n) :
    ∃ delta', fillDelta s t delta = .ok delta' ∧ delta'.n = delta.n ∧
      ∀ i j, i < s.length → j < t.length → delta'.at_ i j = sqDelta s t i j := by
  refine ⟨⟨delta.n, fun i j =>
      if i < s.length ∧ j < t.length then (s.getD i 0 - t.getD j 0) * (s.getD i 0 - t.getD j 0)
      else delta.at_ i j⟩, by rw [fillDelta, if_neg (by omega)], rfl, ?_⟩
  intro i j hi hj
  simp only [hi, hj, and_self, if_true, sqDelta]
  ring

/-- The recursion only looks at the cells below. -/
theorem dpCost_congr {δ δ' : Nat → Nat → K} {m n : Nat} (h : ∀ i j, i < m → j < n → δ i j = δ' i j) :
    ∀ (k i j : Nat), i + j = k → i < m → j < n → dpCost δ i j = dpCost δ' i j := by
  intro k
  induction k using Nat.strong_induction_on with
  | _ k ih =>
    intro i j hk hi hj
    cases i with
    | zero =>
      cases j with
      | zero => rw [dpCost, dpCost, h 0 0 hi hj]
      | succ j => rw [dpCost, dpCost, h _ _ hi hj, ih (0 + j) (by omega) 0 j rfl hi (by omega)]
    | succ i =>
      cases j with
      | zero => rw [dpCost, dpCost, h _ _ hi hj, ih (i + 0) (by omega) i 0 rfl (by omega) hj]
      | succ j =>
        rw [dpCost, dpCost, h _ _ hi hj, ih (i + j) (by omega) i j rfl (by omega) (by omega),
          ih (i + 1 + j) (by omega) (i + 1) j rfl hi (by omega),
          ih (i + (j + 1)) (by omega) i (j + 1) rfl (by omega) hj]

theorem squaredDTW_eq {s t : List K} (hs : s ≠ []) (ht : t ≠ []) (cost delta : Mat K)
    (hn : cost.n = delta.n) (hs' : s.length ≤ delta.n) (ht' : t.length ≤ delta.n) :
    ∃ cost' delta', squaredDTW s t cost delta =
        (.ok (dpCost (sqDelta s t) (s.length - 1) (t.length - 1)), cost', delta') ∧
      cost'.n = cost.n ∧ delta'.n = delta.n := by
  have hs1 : 1 ≤ s.length := List.length_pos_iff.2 hs
  have ht1 : 1 ≤ t.length := List.length_pos_iff.2 ht
  obtain ⟨delta', h1, h2, h3⟩ := fillDelta_ok hs' ht'
  refine ⟨dtwFill s.length t.length delta' cost, delta', ?_, ?_, h2⟩
  · unfold squaredDTW
    rw [h1]
    simp only
    rw [if_neg (by omega)]
    have hfill := dbaFill_filled delta' hs1 ht1 (cost, (⟨0, fun _ _ => 0⟩ : Mat Int))
    have hfn := (dbaFill_n s.length t.length delta' (cost, (⟨0, fun _ _ => 0⟩ : Mat Int))).1
    rw [dtwFill_eq s.length t.length delta' cost (⟨0, fun _ _ => 0⟩ : Mat Int)]
    have e1 : (s.length : Int) - 1 = ((s.length - 1 : Nat) : Int) := by omega
    have e2 : (t.length : Int) - 1 = ((t.length - 1 : Nat) : Int) := by omega
    rw [e1, e2, Mat.getInt_nat (by rw [hfn]; simp only; omega) (by rw [hfn]; simp only; omega),
      (hfill (s.length - 1) (t.length - 1) (by omega)).1,
      dpCost_congr h3 _ _ _ rfl (by omega) (by omega)]
  · rw [dtwFill_eq s.length t.length delta' cost (⟨0, fun _ _ => 0⟩ : Mat Int)]
    exact (dbaFill_n s.length t.length delta' (cost, (⟨0, fun _ _ => 0⟩ : Mat Int))).1

/-- The recursion computes the least cost. -/
theorem dpCost_isDTW (s t : List K) :
    IsDTW s t (dpCost (sqDelta s t) (s.length - 1) (t.length - 1)) := by
  refine ⟨?_, fun w hw => dpCost_le _ hw⟩
  obtain ⟨w, h1, h2⟩ := dpCost_attained (sqDelta s t) _ (s.length - 1) (t.length - 1) rfl
  exact ⟨w, h1, h2⟩

theorem sumOfSquares_eq {s : List K} (hs : s ≠ []) (series : List (List K))
    (hne : ∀ t ∈ series, t ≠ []) (cost delta : Mat K) (hn : cost.n = delta.n)
    (hs' : s.length ≤ delta.n) (hlen : ∀ t ∈ series, t.length ≤ delta.n) :
    ∃ cost' delta', sumOfSquares s series cost delta =
        (.ok (series.map fun t => dpCost (sqDelta s t) (s.length - 1) (t.length - 1)).sum,
          cost', delta') ∧ cost'.n = cost.n ∧ delta'.n = delta.n := by
  induction series generalizing cost delta with
  | nil => exact ⟨cost, delta, rfl, rfl, rfl⟩
  | cons t ts ih =>
    obtain ⟨c1, d1, h1, h2, h3⟩ := squaredDTW_eq hs (hne t (by simp)) cost delta hn hs'
      (hlen t (by simp))
    obtain ⟨c2, d2, g1, g2, g3⟩ := ih (fun t ht => hne t (by simp [ht])) c1 d1 (by omega) (by omega)
      (fun t ht => by rw [h3]; exact hlen t (by simp [ht]))
    refine ⟨c2, d2, ?_, by omega, by omega⟩
    rw [sumOfSquares, h1]
    simp only
    rw [g1]
    simp

/-! ### Backtracking -/

theorem addAt_ok {A : Type} [AddMonoid A] {l : List A} {i : Nat} (hi : i < l.length) (v : A) :
    ∃ l', addAt l (i : Int) v = .ok l' ∧ l'.length = l.length ∧
      ∀ a, l'.getD a 0 = l.getD a 0 + if i = a then v else 0 := by
  refine ⟨l.modify i (· + v), by rw [addAt, pyIndex_nat hi], by simp, ?_⟩
  intro a
  rw [List.getD_eq_getElem?_getD, List.getD_eq_getElem?_getD, List.getElem?_modify]
  by_cases h : i = a
  · subst h; simp [hi]
  · simp [h]

/-- What is added for one path. -/
structure Added (s : List K) (w : List (Nat × Nat)) (acc acc' : List K × List Nat) : Prop where
  len1 : acc'.1.length = acc.1.length
  len2 : acc'.2.length = acc.2.length
  sum : ∀ a, acc'.1.getD a 0 = acc.1.getD a 0 +
    ((w.filter fun p => p.1 = a).map fun p => s.getD p.2 0).sum
  count : ∀ a, acc'.2.getD a 0 = acc.2.getD a 0 + (w.filter fun p => p.1 = a).length

theorem accumulate_ok {s : List K} {i j : Nat} {acc : List K × List Nat} (hj : j < s.length)
    (h1 : i < acc.1.length) (h2 : i < acc.2.length) :
    ∃ acc', accumulate s (i : Int) (j : Int) acc = .ok acc' ∧ Added s [(i, j)] acc acc' := by
  obtain ⟨u, hu1, hu2, hu3⟩ := addAt_ok h1 (s.getD j 0)
  obtain ⟨n, hn1, hn2, hn3⟩ := addAt_ok h2 1
  refine ⟨(u, n), ?_, hu2, hn2, ?_, ?_⟩
  · rw [accumulate, listAtInt_nat (a := s.getD j 0) (by simp [hj])]
    simp only
    rw [hu1]
    simp only
    rw [hn1]
  · intro a
    rw [hu3]
    by_cases h : i = a
    · simp [h]
    · simp [h]
  · intro a
    rw [hn3]
    by_cases h : i = a
    · simp [h]
    · simp [h]

theorem Added.trans {s : List K} {w w' : List (Nat × Nat)} {a b c : List K × List Nat}
    (h : Added s w a b) (h' : Added s w' b c) : Added s (w' ++ w) a c := by
  refine ⟨h'.len1.trans h.len1, h'.len2.trans h.len2, ?_, ?_⟩
  · intro i
    rw [h'.sum, h.sum, List.filter_append, List.map_append, List.sum_append]
    ring
  · intro i
    rw [h'.count, h.count, List.filter_append, List.length_append]
    omega

theorem backtrack_ok {δ : Nat → Nat → K} {path : Mat Int} {s : List K} {m : Nat}
    (hpath : ∀ a b, a < m → b < s.length → path.at_ a b = dpMove δ a b)
    (hm : m ≤ path.n) (hs : s.length ≤ path.n) :
    ∀ (fuel i j : Nat) (acc : List K × List Nat), i + j < fuel → i < m → j < s.length →
      m = acc.1.length → m = acc.2.length →
      ∃ acc' w, backtrack path s fuel (i : Int) (j : Int) acc = .ok acc' ∧ IsWarpingPath w i j ∧
        pathSum δ w = dpCost δ i j ∧ Added s w acc acc' := by
  intro fuel
  induction fuel with
  | zero => intro i j acc h; omega
  | succ fuel ih =>
    intro i j acc hf hi hj ha1 ha2
    obtain ⟨acc1, h1, h2⟩ := accumulate_ok (acc := acc) hj (by omega : i < _) (by omega)
    rw [backtrack, Mat.getInt_nat (by omega) (by omega), hpath i j hi hj]
    simp only
    have b1 := h2.len1
    have b2 := h2.len2
    rcases dpMove_cases δ i j with ⟨rfl, rfl, e, h⟩ | ⟨i', j', rfl, rfl, e, h⟩ | ⟨j', rfl, e, h⟩ |
      ⟨i', rfl, e, h⟩
    · rw [e, if_pos rfl, if_pos (by simp)]
      exact ⟨acc1, [(0, 0)], h1, .single, by rw [h]; simp [pathSum], h2⟩
    · rw [e, if_neg (by decide), h1]
      have ho : optionsArgmin 0 = .ok (-1, -1) := rfl
      rw [ho]
      simp only
      have e1 : ((i' + 1 : Nat) : Int) + -1 = (i' : Int) := by omega
      have e2 : ((j' + 1 : Nat) : Int) + -1 = (j' : Int) := by omega
      rw [e1, e2]
      obtain ⟨acc', w, g1, g2, g3, g4⟩ := ih i' j' acc1 (by omega) (by omega) (by omega) (by omega)
        (by omega)
      exact ⟨acc', w ++ [(i' + 1, j' + 1)], g1, g2.snoc (a := (i', j')) (Or.inr (Or.inr rfl)),
        by rw [pathSum_snoc, g3, h], h2.trans g4⟩
    · rw [e, if_neg (by decide), h1]
      have ho : optionsArgmin 1 = .ok (0, -1) := rfl
      rw [ho]
      simp only
      have e1 : (i : Int) + 0 = (i : Int) := by omega
      have e2 : ((j' + 1 : Nat) : Int) + -1 = (j' : Int) := by omega
      rw [e1, e2]
      obtain ⟨acc', w, g1, g2, g3, g4⟩ := ih i j' acc1 (by omega) (by omega) (by omega) (by omega)
        (by omega)
      exact ⟨acc', w ++ [(i, j' + 1)], g1, g2.snoc (a := (i, j')) (Or.inr (Or.inl rfl)),
        by rw [pathSum_snoc, g3, h], h2.trans g4⟩
    · rw [e, if_neg (by decide), h1]
      have ho : optionsArgmin 2 = .ok (-1, 0) := rfl
      rw [ho]
      simp only
      have e1 : ((i' + 1 : Nat) : Int) + -1 = (i' : Int) := by omega
      have e2 : (j : Int) + 0 = (j : Int) := by omega
      rw [e1, e2]
      obtain ⟨acc', w, g1, g2, g3, g4⟩ := ih i' j acc1 (by omega) (by omega) (by omega) (by omega)
        (by omega)
      exact ⟨acc', w ++ [(i' + 1, j)], g1, g2.snoc (a := (i', j)) (Or.inl rfl),
        by rw [pathSum_snoc, g3, h], h2.trans g4⟩

/-- The optimal alignments of the centre with the series, and what they add up to. -/
theorem dbaLoop_ok {center : List K} (hc : center ≠ []) :
    ∀ (series : List (List K)), (∀ s ∈ series, s ≠ []) → ∀ (cost : Mat K) (path : Mat Int)
      (delta : Mat K) (acc : List K × List Nat), cost.n = delta.n → path.n = delta.n →
      center.length ≤ delta.n → (∀ s ∈ series, s.length ≤ delta.n) →
      center.length = acc.1.length → center.length = acc.2.length →
      ∃ acc' ws cost' path' delta', dbaLoop center series cost path delta acc =
          (.ok acc', cost', path', delta') ∧ cost'.n = cost.n ∧ path'.n = path.n ∧
          delta'.n = delta.n ∧
        List.Forall₂ (fun s w => IsWarpingPath w (center.length - 1) (s.length - 1) ∧
          pathCost center s w = dpCost (sqDelta center s) (center.length - 1) (s.length - 1))
          series ws ∧
        acc'.1.length = acc.1.length ∧ acc'.2.length = acc.2.length ∧
        (∀ a, acc'.1.getD a 0 = acc.1.getD a 0 + (alignedAt series ws a).sum) ∧
        (∀ a, acc'.2.getD a 0 = acc.2.getD a 0 + (alignedAt series ws a).length) := by
  intro series
  have hc1 : 1 ≤ center.length := List.length_pos_iff.2 hc
  induction series with
  | nil =>
    intro _ cost path delta acc _ _ _ _ _ _
    exact ⟨acc, [], cost, path, delta, rfl, rfl, rfl, rfl, .nil, rfl, rfl,
      by intro a; simp [alignedAt, alignedPairs], by intro a; simp [alignedAt, alignedPairs]⟩
  | cons s ss ih =>
    intro hne cost path delta acc hn1 hn2 hcn hlen ha1 ha2
    have hs1 : 1 ≤ s.length := List.length_pos_iff.2 (hne s (by simp))
    have hsn := hlen s (by simp)
    obtain ⟨delta', d1, d2, d3⟩ := fillDelta_ok hcn hsn
    have hfill := dbaFill_filled delta' hc1 hs1 (cost, path)
    have hfn := dbaFill_n center.length s.length delta' (cost, path)
    obtain ⟨acc1, w, b1, b2, b3, b4⟩ := backtrack_ok (δ := delta'.at_)
      (path := (dbaFill center.length s.length delta' (cost, path)).2) (s := s) (m := center.length)
      (fun a b ha hb => (hfill a b ⟨ha, hb⟩).2) (by rw [hfn.2]; simp only; omega)
      (by rw [hfn.2]; simp only; omega)
      (center.length + s.length + 1) (center.length - 1) (s.length - 1) acc (by omega) (by omega)
      (by omega) ha1 ha2
    obtain ⟨acc', ws, cost', path', delta'', r1, r2, r3, r4, r5, r6, r7, r8, r9⟩ :=
      ih (fun t ht => hne t (by simp [ht]))
        (dbaFill center.length s.length delta' (cost, path)).1
        (dbaFill center.length s.length delta' (cost, path)).2 delta' acc1
        (by rw [hfn.1]; simp only; omega) (by rw [hfn.2]; simp only; omega) (by omega)
        (fun t ht => by rw [d2]; exact hlen t (by simp [ht])) (by rw [b4.len1]; exact ha1)
        (by rw [b4.len2]; exact ha2)
    have hal : ∀ a, alignedAt (s :: ss) (w :: ws) a =
        ((w.filter fun p => p.1 = a).map fun p => s.getD p.2 0) ++ alignedAt ss ws a := by
      intro a
      simp only [alignedAt, alignedPairs, List.zip_cons_cons, List.flatMap_cons, List.filter_append,
        List.map_append, List.filter_map, List.map_map]
      rfl
    refine ⟨acc', w :: ws, cost', path', delta'', ?_, by rw [r2, hfn.1], by rw [r3, hfn.2], by omega,
      .cons ⟨b2, ?_⟩ r5, by rw [r6, b4.len1], by rw [r7, b4.len2], ?_, ?_⟩
    · rw [dbaLoop, d1]
      simp only
      rw [if_neg (by omega)]
      have e1 : (center.length : Int) - 1 = ((center.length - 1 : Nat) : Int) := by omega
      have e2 : (s.length : Int) - 1 = ((s.length - 1 : Nat) : Int) := by omega
      rw [e1, e2, b1]
      exact r1
    · rw [← dpCost_congr d3 _ _ _ rfl (by omega) (by omega), ← b3]
      unfold pathCost pathSum
      congr 1
      apply List.map_congr_left
      intro p hp
      have := b2.le p hp
      exact (d3 p.1 p.2 (by omega) (by omega)).symm
    · intro a
      rw [r8, b4.sum, hal, List.sum_append]
      ring
    · intro a
      rw [r9, b4.count, hal, List.length_append, List.length_map]
      omega

/-! ### Means -/

/-- The mean minimises the sum of squared differences. -/
theorem mean_minimises (l : List K) (hl : l ≠ []) (c : K) :
    (l.map fun v => (l.sum / (l.length : K) - v) ^ 2).sum ≤ (l.map fun v => (c - v) ^ 2).sum := by
  have hpos : (0 : K) < (l.length : K) := by exact_mod_cast List.length_pos_iff.2 hl
  have key : ∀ (l : List K) (a : K), (l.map fun v => (a - v) ^ 2).sum =
      (l.length : K) * a ^ 2 - 2 * a * l.sum + (l.map fun v => v ^ 2).sum := by
    intro l a
    induction l with
    | nil => simp
    | cons v l ih => simp only [List.map_cons, List.sum_cons, List.length_cons, ih]; push_cast; ring
  rw [key, key]
  have h1 : (l.length : K) * (l.sum / (l.length : K)) ^ 2 - 2 * (l.sum / (l.length : K)) * l.sum =
      - (l.sum ^ 2 / (l.length : K)) := by field_simp; ring
  have h2 : (l.length : K) * c ^ 2 - 2 * c * l.sum + l.sum ^ 2 / (l.length : K) =
      (l.length : K) * (c - l.sum / (l.length : K)) ^ 2 := by field_simp; ring
  have h3 : 0 ≤ (l.length : K) * (c - l.sum / (l.length : K)) ^ 2 :=
    mul_nonneg (le_of_lt hpos) (sq_nonneg _)
  linarith

/-- A sum over pairs, grouped by the first component. -/
theorem sum_by_position (f : Nat × K → K) (n : Nat) (T : List (Nat × K)) (hT : ∀ p ∈ T, p.1 < n) :
    (T.map f).sum = ∑ a ∈ Finset.range n, ((T.filter fun p => p.1 = a).map f).sum := by
  induction T with
  | nil => simp
  | cons p T ih =>
    rw [List.map_cons, List.sum_cons, ih fun q hq => hT q (by simp [hq])]
    have : ∀ a, (((p :: T).filter fun q => q.1 = a).map f).sum =
        (if p.1 = a then f p else 0) + ((T.filter fun q => q.1 = a).map f).sum := by
      intro a
      by_cases h : p.1 = a
      · rw [List.filter_cons_of_pos (by simpa using h), if_pos h]; simp
      · rw [List.filter_cons_of_neg (by simpa using h), if_neg h]; simp
    simp only [this, Finset.sum_add_distrib]
    congr 1
    rw [Finset.sum_ite_eq, if_pos (Finset.mem_range.2 (hT p (by simp)))]

/-- The cost of all the paths, as a sum over the aligned pairs. -/
theorem sum_pathCost (c : List K) {series : List (List K)} {ws : List (List (Nat × Nat))}
    (h : series.length = ws.length) :
    (List.zipWith (pathCost c) series ws).sum =
      ((alignedPairs series ws).map fun p => (c.getD p.1 0 - p.2) ^ 2).sum := by
  induction series generalizing ws with
  | nil => simp [alignedPairs]
  | cons s ss ih =>
    cases ws with
    | nil => simp at h
    | cons w ws =>
      rw [List.zipWith_cons_cons, List.sum_cons, ih (by simpa using h)]
      simp only [alignedPairs, List.zip_cons_cons, List.flatMap_cons, List.map_append, List.sum_append,
        List.map_map]
      rfl

end

end Spta
