import Mathlib.Data.List.Basic
import Mathlib.Tactic.Ring
import Verif.Model.Strings

/-!
# Lemmas about strings
-/

namespace Spta

theorem digitChar_val {d : Nat} (h : d < 10) : digitVal (digitChar d) = some d := by
  revert d; decide

theorem digitChar_ne {d : Nat} (h : d < 10) :
    digitChar d ≠ '_' ∧ digitChar d ≠ '-' ∧ digitChar d ≠ '+' ∧ digitChar d ≠ '/' ∧
      digitChar d ≠ ' ' ∧ digitChar d ≠ ',' ∧ digitChar d ≠ '|' ∧ digitChar d ≠ '(' ∧
      digitChar d ≠ ')' ∧ digitChar d ≠ 's' := by
  revert d; decide

theorem natStr_ne_nil (n : Nat) : natStr n ≠ [] := by
  rw [natStr]; split <;> simp

theorem mem_natStr {n : Nat} {c : Char} (h : c ∈ natStr n) : ∃ d < 10, c = digitChar d := by
  induction n using Nat.strongRecOn with
  | _ n ih =>
    rw [natStr] at h
    split at h
    · rename_i hn
      exact ⟨n, hn, by simpa using h⟩
    · rcases List.mem_append.1 h with h | h
      · exact ih (n / 10) (by omega) h
      · exact ⟨n % 10, Nat.mod_lt _ (by decide), by simpa using h⟩

theorem digitsVal_append (a b : Str) (acc : Nat) :
    digitsVal acc (a ++ b) = (digitsVal acc a).bind fun n => digitsVal n b := by
  induction a generalizing acc with
  | nil => rfl
  | cons c cs ih =>
    show (match digitVal c with | some d => digitsVal (10 * acc + d) (cs ++ b) | none => none) = _
    rw [digitsVal]
    cases digitVal c with
    | none => rfl
    | some d => exact ih _

theorem digitsVal_natStr (n : Nat) : digitsVal 0 (natStr n) = some n := by
  induction n using Nat.strongRecOn with
  | _ n ih =>
    rw [natStr]
    split
    · rename_i hn
      simp [digitsVal, digitChar_val hn]
    · rename_i hn
      rw [digitsVal_append, ih (n / 10) (by omega)]
      simp only [Option.bind_some, digitsVal, digitChar_val (Nat.mod_lt n (by decide : 10 > 0))]
      congr 1
      omega

theorem natStr_inj {a b : Nat} (h : natStr a = natStr b) : a = b := by
  have h1 := digitsVal_natStr a
  rw [h, digitsVal_natStr] at h1
  exact (Option.some.inj h1).symm

theorem pyInt_natStr (n : Nat) : pyInt (natStr n) = .ok (n : Int) := by
  have h := digitsVal_natStr n
  cases hs : natStr n with
  | nil => exact absurd hs (natStr_ne_nil n)
  | cons c cs =>
    rw [hs] at h
    obtain ⟨d, hd, hc⟩ := mem_natStr (n := n) (c := c) (by rw [hs]; simp)
    have h1 := (digitChar_ne hd).2.1
    have h2 := (digitChar_ne hd).2.2.1
    rw [← hc] at h1 h2
    unfold pyInt
    split
    · simp at *
    · rename_i heq; simp at heq; exact absurd heq.1 h1
    · rename_i heq; simp at heq; exact absurd heq.1 h2
    · rename_i heq; cases heq; rw [h]

theorem pyInt_intStr (i : Int) : pyInt (intStr i) = .ok i := by
  cases i with
  | ofNat n => exact pyInt_natStr n
  | negSucc n =>
    have h := digitsVal_natStr (n + 1)
    show pyInt ('-' :: natStr (n + 1)) = _
    cases hs : natStr (n + 1) with
    | nil => exact absurd hs (natStr_ne_nil _)
    | cons c cs =>
      rw [hs] at h
      simp only [pyInt, h]
      rfl

theorem intStr_inj {a b : Int} (h : intStr a = intStr b) : a = b := by
  have := pyInt_intStr a
  rw [h, pyInt_intStr] at this
  exact (Except.ok.inj this).symm

theorem intStr_ne_nil (i : Int) : intStr i ≠ [] := by
  cases i with
  | ofNat n => exact natStr_ne_nil n
  | negSucc n => exact List.cons_ne_nil _ _

theorem mem_intStr {i : Int} {c : Char} (h : c ∈ intStr i) : c = '-' ∨ ∃ d < 10, c = digitChar d := by
  cases i with
  | ofNat n => exact Or.inr (mem_natStr h)
  | negSucc n =>
    rcases List.mem_cons.1 h with h | h
    · exact Or.inl h
    · exact Or.inr (mem_natStr h)

theorem natStr_not_mem {n : Nat} {c : Char} (h : ∀ d < 10, c ≠ digitChar d) : c ∉ natStr n :=
  fun hm => by obtain ⟨d, hd, e⟩ := mem_natStr hm; exact h d hd e

theorem intStr_not_mem {i : Int} {c : Char} (h0 : c ≠ '-') (h : ∀ d < 10, c ≠ digitChar d) :
    c ∉ intStr i := fun hm => by
  rcases mem_intStr hm with e | ⟨d, hd, e⟩
  · exact h0 e
  · exact h d hd e

/-! ### split and join -/

theorem pySplit_ne_nil (sep : Char) (s : Str) : pySplit sep s ≠ [] := by
  cases s with
  | nil => simp [pySplit]
  | cons c cs =>
    rw [pySplit]
    split
    · simp
    · split <;> simp

/-- Splitting at the first separator. -/
theorem pySplit_append (sep : Char) (a b : Str) :
    pySplit sep (a ++ sep :: b) = pySplit sep a ++ pySplit sep b := by
  induction a with
  | nil => simp [pySplit]
  | cons c cs ih =>
    rw [List.cons_append, pySplit, pySplit]
    split
    · rw [ih]; rfl
    · rw [ih]
      cases hs : pySplit sep cs with
      | nil => exact absurd hs (pySplit_ne_nil _ _)
      | cons w ws => rfl

theorem pySplit_of_not_mem {sep : Char} {s : Str} (h : sep ∉ s) : pySplit sep s = [s] := by
  induction s with
  | nil => rfl
  | cons c cs ih =>
    rw [pySplit, if_neg (fun e => h (by simp [e])), ih (fun hm => h (by simp [hm]))]

theorem pySplit_pyJoin {sep : Char} : ∀ {parts : List Str}, parts ≠ [] →
    (∀ w ∈ parts, sep ∉ w) → pySplit sep (pyJoin [sep] parts) = parts := by
  intro parts
  induction parts with
  | nil => intro h _; exact absurd rfl h
  | cons w ws ih =>
    intro _ hw
    cases ws with
    | nil => exact pySplit_of_not_mem (hw w (by simp))
    | cons w' ws =>
      show pySplit sep (w ++ [sep] ++ pyJoin [sep] (w' :: ws)) = _
      rw [List.append_assoc]
      show pySplit sep (w ++ sep :: pyJoin [sep] (w' :: ws)) = _
      rw [pySplit_append, pySplit_of_not_mem (hw w (by simp)),
        ih (by simp) fun x hx => hw x (by simp [hx])]
      rfl

theorem pyJoin_pySplit (sep : Char) (s : Str) : pyJoin [sep] (pySplit sep s) = s := by
  induction s with
  | nil => rfl
  | cons c cs ih =>
    rw [pySplit]
    split
    · rename_i h
      cases hs : pySplit sep cs with
      | nil => exact absurd hs (pySplit_ne_nil _ _)
      | cons w ws => rw [hs] at ih; simp [pyJoin, h, ih]
    · cases hs : pySplit sep cs with
      | nil => exact absurd hs (pySplit_ne_nil _ _)
      | cons w ws =>
        rw [hs] at ih
        cases ws with
        | nil => simp [pyJoin] at ih ⊢; exact ih
        | cons w' ws => simp [pyJoin] at ih ⊢; exact ih

theorem pySplit_inj {sep : Char} {a b : Str} (h : pySplit sep a = pySplit sep b) : a = b := by
  rw [← pyJoin_pySplit sep a, h, pyJoin_pySplit]

/-! ### csv -/

theorem csvRead_quoted (f acc rest : Str) :
    csvRead .inQuoted acc (csvDouble f ++ '|' :: rest) =
      csvRead .quoteInQuoted (f.reverse ++ acc) rest := by
  induction f generalizing acc with
  | nil => rfl
  | cons c cs ih =>
    rw [csvDouble]
    by_cases h : c = '|'
    · subst h
      rw [if_pos rfl]
      show csvRead .inQuoted ('|' :: acc) (csvDouble cs ++ '|' :: rest) = _
      rw [ih]; simp
    · rw [if_neg h, List.cons_append, csvRead]
      simp only [h, if_false]
      rw [ih]; simp

theorem csvRead_plain {f : Str} (h : ∀ c ∈ f, c ≠ ' ') (acc rest : Str) :
    csvRead .inField acc (f ++ rest) = csvRead .inField (f.reverse ++ acc) rest := by
  induction f generalizing acc with
  | nil => rfl
  | cons c cs ih =>
    rw [List.cons_append, csvRead]
    simp only [h c (by simp), if_false]
    rw [ih fun x hx => h x (by simp [hx])]
    simp

theorem csvRead_field_end (f : Str) : csvRead .startField [] (csvField f) = .ok [f] := by
  unfold csvField
  by_cases hq : csvNeedsQuotes f = true
  · rw [if_pos hq]
    show csvRead .inQuoted [] (csvDouble f ++ '|' :: []) = _
    rw [csvRead_quoted]
    simp [csvRead]
  · rw [if_neg hq]
    have hc : ∀ c ∈ f, c ≠ ' ' ∧ c ≠ '|' := by
      intro c hc
      simp only [csvNeedsQuotes, List.any_eq_true, not_exists, not_and] at hq
      have := hq c hc
      simp at this
      exact ⟨this.1.1.1, this.1.1.2⟩
    cases f with
    | nil => rfl
    | cons c cs =>
      rw [csvRead]
      simp only [(hc c (by simp)).1, (hc c (by simp)).2, if_false]
      have := csvRead_plain (f := cs) (fun x hx => (hc x (by simp [hx])).1) [c] []
      rw [List.append_nil] at this
      rw [this]
      simp [csvRead]

theorem csvRead_field_more (f rest : Str) (fs : List Str)
    (hr : csvRead .startField [] rest = .ok fs) :
    csvRead .startField [] (csvField f ++ ' ' :: rest) = .ok (f :: fs) := by
  unfold csvField
  by_cases hq : csvNeedsQuotes f = true
  · rw [if_pos hq]
    show csvRead .inQuoted [] ((csvDouble f ++ ['|']) ++ ' ' :: rest) = _
    rw [List.append_assoc]
    show csvRead .inQuoted [] (csvDouble f ++ '|' :: ' ' :: rest) = _
    rw [csvRead_quoted, csvRead]
    simp [hr]
  · rw [if_neg hq]
    have hc : ∀ c ∈ f, c ≠ ' ' ∧ c ≠ '|' := by
      intro c hc
      simp only [csvNeedsQuotes, List.any_eq_true, not_exists, not_and] at hq
      have := hq c hc
      simp at this
      exact ⟨this.1.1.1, this.1.1.2⟩
    cases f with
    | nil =>
      rw [List.nil_append, csvRead]
      simp [hr]
    | cons c cs =>
      rw [List.cons_append, csvRead]
      simp only [(hc c (by simp)).1, (hc c (by simp)).2, if_false]
      rw [csvRead_plain (f := cs) (fun x hx => (hc x (by simp [hx])).1) [c]]
      rw [csvRead]
      simp [hr]

theorem csvRead_row : ∀ {fields : List Str}, fields ≠ [] →
    csvRead .startField [] (csvRow fields) = .ok fields := by
  intro fields
  induction fields with
  | nil => intro h; exact absurd rfl h
  | cons f fs ih =>
    intro _
    cases fs with
    | nil => exact csvRead_field_end f
    | cons g gs =>
      have := csvRead_field_more f (csvRow (g :: gs)) (g :: gs) (ih (by simp))
      simpa [csvRow, pyJoin] using this

/-- The csv module reads back what it wrote (rows of at least two fields without line breaks). -/
theorem csvReadRow_csvRow {f g : Str} {fs : List Str} :
    csvReadRow (csvRow (f :: g :: fs)) = .ok (f :: g :: fs) := by
  have h : csvRow (f :: g :: fs) ≠ [] := by simp [csvRow, pyJoin]
  have h2 := csvRead_row (fields := f :: g :: fs) (by simp)
  unfold csvReadRow
  split
  · rename_i e; exact absurd e h
  · exact h2

end Spta
