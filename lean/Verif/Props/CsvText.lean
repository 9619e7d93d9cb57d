import Verif.Spec.CsvText
import Verif.Lemmas.Strings
import Verif.Props.PartitionAnalysis
import Verif.Props.Result

/-!
# C132, C133: the text of the CSV files and the lines on the screen
-/

namespace Spta

/-! ### The csv module -/

theorem csvTokens_cons {c : Char} {cs : Str} (h : cs ≠ []) :
    csvTokens (c :: cs) = some c ::
      ((if c = '\n' ∨ (c = '\r' ∧ cs.head? ≠ some '\n') then [none] else []) ++ csvTokens cs) := by
  cases cs with
  | nil => exact absurd rfl h
  | cons d ds =>
    rw [csvTokens]
    simp only [List.head?_cons, ne_eq, Option.some.injEq]
    split <;> simp

theorem csvTokens_plain {c : Char} {cs : Str} (h : cs ≠ []) (hn : c ≠ '\n') (hr : c ≠ '\r') :
    csvTokens (c :: cs) = some c :: csvTokens cs := by
  rw [csvTokens_cons h, if_neg (by simp [hn, hr]), List.nil_append]

theorem csvTokens_crlf (rest : Str) :
    csvTokens ('\r' :: '\n' :: rest) = some '\r' :: some '\n' :: none :: csvTokens rest := by
  cases rest with
  | nil => rfl
  | cons d ds => rw [csvTokens, if_neg (by decide), csvTokens, if_pos (.inl rfl)]

theorem csvRun_char {c : Char} {ts : List (Option Char)} {r r' : CsvReader} (h : r.process (some c) = .ok r') :
    csvRun (some c :: ts) r = csvRun ts r' := by
  rw [csvRun, h]
  simp

theorem csvRun_quoted : ∀ (f acc : Str) (fs : List Str) (rest : Str), acc.length + f.length ≤ csvFieldLimit →
    '\x00' ∉ f →
    csvRun (csvTokens (csvDouble f ++ '|' :: rest)) ⟨.inQuoted, acc, fs⟩ =
      csvRun (csvTokens ('|' :: rest)) ⟨.inQuoted, f.reverse ++ acc, fs⟩
  | [], _, _, _, _, _ => rfl
  | c :: cs, acc, fs, rest, hlen, hnul => by
    have hc : c ≠ '\x00' := fun h => hnul (by simp [h])
    have hcs : '\x00' ∉ cs := fun h => hnul (by simp [h])
    have hacc : ¬ csvFieldLimit ≤ acc.length := by simp at hlen; omega
    have ih := csvRun_quoted cs (c :: acc) fs rest (by simp at hlen ⊢; omega) hcs
    by_cases hq : c = '|'
    · subst hq
      have e : csvDouble ('|' :: cs) = '|' :: '|' :: csvDouble cs := by rw [csvDouble, if_pos rfl]
      rw [e]
      simp only [List.cons_append]
      rw [csvTokens_plain (by simp) (by decide) (by decide), csvTokens_plain (by simp) (by decide) (by decide),
        csvRun_char (r' := ⟨.quoteInQuoted, acc, fs⟩) (by simp [CsvReader.process]),
        csvRun_char (r' := ⟨.inQuoted, '|' :: acc, fs⟩) (by simp [CsvReader.process, CsvReader.addChar, hacc]), ih]
      simp
    · have e : csvDouble (c :: cs) = c :: csvDouble cs := by rw [csvDouble, if_neg hq]
      rw [e, List.cons_append, csvTokens_cons (by simp),
        csvRun_char (r' := ⟨.inQuoted, c :: acc, fs⟩) (by simp [CsvReader.process, CsvReader.addChar, hacc, hc, hq])]
      have : ∀ ts, csvRun ((if c = '\n' ∨ (c = '\r' ∧ (csvDouble cs ++ '|' :: rest).head? ≠ some '\n') then [none]
          else []) ++ ts) ⟨.inQuoted, c :: acc, fs⟩ = csvRun ts ⟨.inQuoted, c :: acc, fs⟩ := by
        intro ts
        split
        · show csvRun (none :: ts) _ = _
          rw [csvRun]
          simp [CsvReader.process]
        · rfl
      rw [this, ih]
      simp

theorem csvRun_plain : ∀ (f acc : Str) (fs : List Str) (rest : Str), rest ≠ [] →
    acc.length + f.length ≤ csvFieldLimit →
    (∀ c ∈ f, c ≠ ' ' ∧ c ≠ '|' ∧ c ≠ '\r' ∧ c ≠ '\n' ∧ c ≠ '\x00') →
    csvRun (csvTokens (f ++ rest)) ⟨.inField, acc, fs⟩ = csvRun (csvTokens rest) ⟨.inField, f.reverse ++ acc, fs⟩
  | [], _, _, _, _, _, _ => rfl
  | c :: cs, acc, fs, rest, hrest, hlen, hf => by
    obtain ⟨h1, h2, h3, h4, h5⟩ := hf c (by simp)
    have hacc : ¬ csvFieldLimit ≤ acc.length := by simp at hlen; omega
    rw [List.cons_append, csvTokens_plain (by simp [hrest]) h4 h3,
      csvRun_char (r' := ⟨.inField, c :: acc, fs⟩) (by simp [CsvReader.process, CsvReader.addChar, hacc, h1, h3, h4, h5]),
      csvRun_plain cs (c :: acc) fs rest hrest (by simp at hlen ⊢; omega) fun x hx => hf x (by simp [hx])]
    simp

/-- After the characters of a field. -/
theorem csvRun_field {m : CsvMode} (hm : m = .startRecord ∨ m = .startField) (f : Str) (hf : Readable f)
    (fs : List Str) (rest : Str) (hrest : rest ≠ []) :
    ∃ m', (m' = .inField ∨ m' = .quoteInQuoted ∨ (m' = m ∧ f = [])) ∧
      csvRun (csvTokens (csvField f ++ rest)) ⟨m, [], fs⟩ = csvRun (csvTokens rest) ⟨m', f.reverse, fs⟩ := by
  unfold csvField
  by_cases hq : csvNeedsQuotes f = true
  · rw [if_pos hq]
    refine ⟨.quoteInQuoted, .inr (.inl rfl), ?_⟩
    show csvRun (csvTokens ('|' :: ((csvDouble f ++ ['|']) ++ rest))) _ = _
    rw [List.append_assoc, csvTokens_plain (by simp) (by decide) (by decide),
      csvRun_char (r' := ⟨.inQuoted, [], fs⟩)
        (by rcases hm with rfl | rfl <;> simp [CsvReader.process, CsvReader.fieldChar])]
    show csvRun (csvTokens (csvDouble f ++ '|' :: rest)) _ = _
    rw [csvRun_quoted f [] fs rest (by simpa [csvFieldLimit] using hf.1) hf.2, List.append_nil,
      csvTokens_plain hrest (by decide) (by decide),
      csvRun_char (r' := ⟨.quoteInQuoted, f.reverse, fs⟩) (by simp [CsvReader.process])]
  · rw [if_neg hq]
    have hc : ∀ c ∈ f, c ≠ ' ' ∧ c ≠ '|' ∧ c ≠ '\r' ∧ c ≠ '\n' ∧ c ≠ '\x00' := by
      intro c hc
      simp only [csvNeedsQuotes, List.any_eq_true, not_exists, not_and] at hq
      have := hq c hc
      simp at this
      exact ⟨this.1.1.1, this.1.1.2, this.1.2, this.2, fun h => hf.2 (h ▸ hc)⟩
    cases f with
    | nil => exact ⟨m, .inr (.inr ⟨rfl, rfl⟩), rfl⟩
    | cons c cs =>
      obtain ⟨h1, h2, h3, h4, h5⟩ := hc c (by simp)
      refine ⟨.inField, .inl rfl, ?_⟩
      rw [List.cons_append, csvTokens_plain (by simp [hrest]) h4 h3,
        csvRun_char (r' := ⟨.inField, [c], fs⟩)
          (by rcases hm with rfl | rfl <;>
            simp [CsvReader.process, CsvReader.fieldChar, CsvReader.addChar, csvFieldLimit, h1, h2, h3, h4, h5]),
        csvRun_plain cs [c] fs rest hrest (by have := hf.1; simp [csvFieldLimit] at this ⊢; omega)
          fun x hx => hc x (by simp [hx])]
      simp

/-- The end of a record. -/
theorem csvRun_crlf {m : CsvMode} (hm : m = .startField ∨ m = .inField ∨ m = .quoteInQuoted) (acc : Str)
    (fs : List Str) (rest : Str) :
    csvRun (csvTokens ('\r' :: '\n' :: rest)) ⟨m, acc, fs⟩ =
      ((acc.reverse :: fs).reverse :: (csvReadText rest).1, (csvReadText rest).2) := by
  rw [csvTokens_crlf, csvRun_char (r' := ⟨.eatCrnl, [], acc.reverse :: fs⟩)
      (by rcases hm with rfl | rfl | rfl <;> simp [CsvReader.process, CsvReader.fieldChar, CsvReader.save]),
    csvRun_char (r' := ⟨.eatCrnl, [], acc.reverse :: fs⟩) (by simp [CsvReader.process]), csvRun]
  simp [CsvReader.process, csvReadText]

/-- The rest of a record. -/
theorem csvRun_fields : ∀ (fields : List Str) (m : CsvMode), m = .startRecord ∨ m = .startField → fields ≠ [] →
    (m = .startRecord → fields ≠ [[]]) → (∀ f ∈ fields, Readable f) → ∀ (fs : List Str) (rest : Str),
    csvRun (csvTokens (csvRow fields ++ '\r' :: '\n' :: rest)) ⟨m, [], fs⟩ =
      ((fs.reverse ++ fields) :: (csvReadText rest).1, (csvReadText rest).2)
  | [], _, _, h, _, _, _, _ => absurd rfl h
  | [f], m, hm, _, hne, hf, fs, rest => by
    obtain ⟨m', h1, h2⟩ := csvRun_field hm f (hf f (by simp)) fs ('\r' :: '\n' :: rest) (by simp)
    have e : csvRow [f] = csvField f := rfl
    rw [e, h2, csvRun_crlf]
    · simp
    · rcases h1 with h | h | ⟨h, rfl⟩
      · exact .inr (.inl h)
      · exact .inr (.inr h)
      · rcases hm with rfl | rfl
        · exact absurd rfl (hne rfl)
        · exact .inl h
  | f :: g :: gs, m, hm, _, _, hf, fs, rest => by
    obtain ⟨m', h1, h2⟩ := csvRun_field hm f (hf f (by simp)) fs
      (' ' :: (csvRow (g :: gs) ++ '\r' :: '\n' :: rest)) (by simp)
    have e : csvRow (f :: g :: gs) ++ '\r' :: '\n' :: rest =
        csvField f ++ ' ' :: (csvRow (g :: gs) ++ '\r' :: '\n' :: rest) := by
      simp [csvRow, pyJoin]
    rw [e, h2, csvTokens_plain (by simp) (by decide) (by decide),
      csvRun_char (r' := ⟨.startField, [], f :: fs⟩)
        (by rcases h1 with rfl | rfl | ⟨rfl, rfl⟩
            · simp [CsvReader.process, CsvReader.save]
            · simp [CsvReader.process, CsvReader.save]
            · rcases hm with rfl | rfl <;> simp [CsvReader.process, CsvReader.fieldChar, CsvReader.save]),
      csvRun_fields (g :: gs) .startField (.inr rfl) (by simp) (by simp) (fun x hx => hf x (by simp [hx]))]
    simp

theorem csvReadText_record (row : List Str) (h : ∀ f ∈ row, Readable f) (rest : Str) :
    csvReadText (csvRecord row ++ rest) = (row :: (csvReadText rest).1, (csvReadText rest).2) := by
  unfold csvRecord
  by_cases hs : row = [[]]
  · subst hs
    rw [if_pos rfl]
    show csvRun (csvTokens ('|' :: '|' :: '\r' :: '\n' :: rest)) .start = _
    rw [csvTokens_plain (by simp) (by decide) (by decide), csvTokens_plain (by simp) (by decide) (by decide),
      csvRun_char (r' := ⟨.inQuoted, [], []⟩) (by simp [CsvReader.process, CsvReader.fieldChar, CsvReader.start]),
      csvRun_char (r' := ⟨.quoteInQuoted, [], []⟩) (by simp [CsvReader.process]),
      csvRun_crlf (.inr (.inr rfl))]
    rfl
  · rw [if_neg hs]
    by_cases hn : row = []
    · subst hn
      show csvRun (csvTokens ('\r' :: '\n' :: rest)) .start = _
      rw [csvTokens_crlf, csvRun_char (r' := ⟨.eatCrnl, [], []⟩) (by simp [CsvReader.process, CsvReader.start]),
        csvRun_char (r' := ⟨.eatCrnl, [], []⟩) (by simp [CsvReader.process]), csvRun]
      simp [CsvReader.process, csvReadText]
    · rw [List.append_assoc]
      exact csvRun_fields row .startRecord (.inl rfl) hn (fun _ => hs) h [] rest

/-- **C132**: what the programs write with the csv module is read back by it, whatever the fields: empty ones, ones
with blanks, quotes or line breaks, rows without fields. -/
theorem C132_round_trip (rows : List (List Str)) (h : ∀ row ∈ rows, ∀ f ∈ row, Readable f) :
    csvReadText (csvWrite rows) = (rows, none) := by
  induction rows with
  | nil => rfl
  | cons row rows ih =>
    have : csvWrite (row :: rows) = csvRecord row ++ csvWrite rows := rfl
    rw [this, csvReadText_record row (h row (by simp)), ih fun r hr => h r (by simp [hr])]

/-! ### The reader of single lines -/

/-- The state of the parser of a text for a state of the reader of a line. -/
def CsvState.mode : CsvState → CsvMode
  | .startField => .startField
  | .inField => .inField
  | .inQuoted => .inQuoted
  | .quoteInQuoted => .quoteInQuoted

theorem csvRun_read : ∀ (cs : Str) (st : CsvState) (acc : Str) (fs : List Str) (row : List Str) (rest : Str),
    acc.length + cs.length ≤ csvFieldLimit → '\r' ∉ cs → '\n' ∉ cs → '\x00' ∉ cs → csvRead st acc cs = .ok row →
    csvRun (csvTokens (cs ++ '\r' :: '\n' :: rest)) ⟨st.mode, acc, fs⟩ =
      ((fs.reverse ++ row) :: (csvReadText rest).1, (csvReadText rest).2)
  | [], st, acc, fs, row, rest, _, _, _, _, h => by
    cases st with
    | inQuoted => cases h
    | startField => cases h; simp only [CsvState.mode]; rw [List.nil_append, csvRun_crlf (.inl rfl)]; simp
    | inField => cases h; simp only [CsvState.mode]; rw [List.nil_append, csvRun_crlf (.inr (.inl rfl))]; simp
    | quoteInQuoted => cases h; simp only [CsvState.mode]; rw [List.nil_append, csvRun_crlf (.inr (.inr rfl))]; simp
  | c :: cs, st, acc, fs, row, rest, hl, hr, hn, h0, h => by
    simp only [List.mem_cons, not_or] at hr hn h0
    simp only [List.length_cons] at hl
    have ih := csvRun_read cs
    have hc : ¬ (c = '\n' ∨ c = '\r') := by rintro (e | e) <;> simp_all
    have hz : ¬ (some c = some '\x00') := by intro e; cases e; exact h0.1 rfl
    have hlim : ¬ csvFieldLimit ≤ acc.length := by omega
    rw [List.cons_append, csvTokens_plain (by simp) (fun e => hn.1 e.symm) (fun e => hr.1 e.symm)]
    have save : ∀ {st : CsvState}, CsvReader.process ⟨st.mode, acc, fs⟩ (some c) =
          .ok ⟨.startField, [], acc.reverse :: fs⟩ →
        (match csvRead .startField [] cs with
          | .ok fs => (.ok (acc.reverse :: fs) : Except PyErr (List Str))
          | .error e => .error e) = .ok row →
        csvRun (some c :: csvTokens (cs ++ '\r' :: '\n' :: rest)) ⟨st.mode, acc, fs⟩ =
          ((fs.reverse ++ row) :: (csvReadText rest).1, (csvReadText rest).2) := by
      intro st hp h
      cases hf : csvRead .startField [] cs with
      | error e => rw [hf] at h; cases h
      | ok more =>
        rw [hf] at h
        cases h
        rw [csvRun_char hp]
        have := ih .startField [] (acc.reverse :: fs) more rest (by simp; omega) hr.2 hn.2 h0.2 hf
        simp only [CsvState.mode] at this
        rw [this]
        simp
    cases st with
    | startField =>
      simp only [csvRead] at h
      by_cases hq : c = '|'
      · rw [if_pos hq] at h
        rw [csvRun_char (r' := ⟨.inQuoted, acc, fs⟩)
          (by simp [CsvReader.process, CsvReader.fieldChar, CsvState.mode, hq])]
        exact ih .inQuoted acc fs row rest (by omega) hr.2 hn.2 h0.2 h
      · rw [if_neg hq] at h
        by_cases hb : c = ' '
        · rw [if_pos hb] at h
          exact save (by simp [CsvReader.process, CsvReader.fieldChar, CsvState.mode, hb, CsvReader.save]) h
        · rw [if_neg hb] at h
          rw [csvRun_char (r' := ⟨.inField, c :: acc, fs⟩)
            (by simp only [CsvReader.process, if_neg hz, CsvReader.fieldChar, CsvState.mode, if_neg hq, if_neg hb,
              if_neg hc, CsvReader.addChar, if_neg hlim])]
          exact ih .inField (c :: acc) fs row rest (by simp; omega) hr.2 hn.2 h0.2 h
    | inField =>
      simp only [csvRead] at h
      by_cases hb : c = ' '
      · rw [if_pos hb] at h
        exact save (st := .inField) (by simp [CsvReader.process, CsvState.mode, hb, CsvReader.save]) h
      · rw [if_neg hb] at h
        rw [csvRun_char (r' := ⟨.inField, c :: acc, fs⟩)
          (by simp only [CsvReader.process, if_neg hz, CsvState.mode, if_neg hb, if_neg hc, CsvReader.addChar,
            if_neg hlim])]
        exact ih .inField (c :: acc) fs row rest (by simp; omega) hr.2 hn.2 h0.2 h
    | inQuoted =>
      simp only [csvRead] at h
      by_cases hq : c = '|'
      · rw [if_pos hq] at h
        rw [csvRun_char (r' := ⟨.quoteInQuoted, acc, fs⟩) (by simp [CsvReader.process, CsvState.mode, hq])]
        exact ih .quoteInQuoted acc fs row rest (by omega) hr.2 hn.2 h0.2 h
      · rw [if_neg hq] at h
        rw [csvRun_char (r' := ⟨.inQuoted, c :: acc, fs⟩)
          (by simp only [CsvReader.process, if_neg hz, CsvState.mode, if_neg hq, CsvReader.addChar, if_neg hlim])]
        exact ih .inQuoted (c :: acc) fs row rest (by simp; omega) hr.2 hn.2 h0.2 h
    | quoteInQuoted =>
      simp only [csvRead] at h
      by_cases hq : c = '|'
      · rw [if_pos hq] at h
        rw [csvRun_char (r' := ⟨.inQuoted, c :: acc, fs⟩)
          (by simp only [CsvReader.process, if_neg hz, CsvState.mode, if_pos hq, CsvReader.addChar, if_neg hlim])]
        exact ih .inQuoted (c :: acc) fs row rest (by simp; omega) hr.2 hn.2 h0.2 h
      · rw [if_neg hq] at h
        by_cases hb : c = ' '
        · rw [if_pos hb] at h
          exact save (st := .quoteInQuoted) (by simp [CsvReader.process, CsvState.mode, hb, CsvReader.save]) h
        · rw [if_neg hb] at h
          rw [csvRun_char (r' := ⟨.inField, c :: acc, fs⟩)
            (by simp only [CsvReader.process, if_neg hz, CsvState.mode, if_neg hq, if_neg hb, if_neg hc,
              CsvReader.addChar, if_neg hlim])]
          exact ih .inField (c :: acc) fs row rest (by simp; omega) hr.2 hn.2 h0.2 h

/-- **C132** (any lines, not only written ones): a text of lines that end outside of quotes is read row by row like its
lines; an empty line is a row without fields. -/
theorem C132_lines (file : List Str) (rows : List (List Str))
    (h : List.Forall₂ (fun line row => csvReadRow line = .ok row ∧ Readable line ∧ '\r' ∉ line ∧ '\n' ∉ line)
      file rows) :
    csvReadText (fileText file) = (rows, none) := by
  induction h with
  | nil => rfl
  | @cons line row file rows hl _ ih =>
    obtain ⟨h1, ⟨h2, h3⟩, h4, h5⟩ := hl
    have e : fileText (line :: file) = line ++ '\r' :: '\n' :: fileText file := by simp [fileText]
    rw [e]
    cases line with
    | nil =>
      cases h1
      have := csvReadText_record [] (by simp) (fileText file)
      rw [ih] at this
      exact this
    | cons c cs =>
      have h6 : csvRead .startField [] (c :: cs) = .ok row := h1
      have h7 := csvRun_read (c :: cs) .startField [] [] row (fileText file) (by simpa [csvFieldLimit] using h2) h4 h5 h3 h6
      rw [ih] at h7
      simp only [List.reverse_nil, List.nil_append] at h7
      rw [← h7]
      simp only [List.mem_cons, not_or] at h4 h5
      unfold csvReadText
      rw [List.cons_append, csvTokens_plain (by simp) (fun e => h5.1 e.symm) (fun e => h4.1 e.symm), csvRun, csvRun]
      have hc : ¬ (c = '\n' ∨ c = '\r') := by rintro (e | e) <;> simp_all
      have : CsvReader.process .start (some c) = CsvReader.process ⟨CsvState.startField.mode, [], []⟩ (some c) := by
        simp only [CsvReader.process, CsvReader.start, CsvState.mode, if_neg hc, CsvReader.fieldChar, CsvReader.save,
          CsvReader.addChar]
        rfl
      rw [this]

/-- A text that no program writes: a quote within a field, an empty line, text after a quoted field. -/
example : csvReadText "a|b c\r\n\r\n|d e|f g\r\n".toList =
      ([["a|b".toList, ['c']], [], ["d ef".toList, ['g']]], none) ∧
    csvReadRow "|d e|f g".toList = .ok ["d ef".toList, ['g']] ∧ csvReadRow [] = .ok [] := by
  refine ⟨by decide +kernel, by decide +kernel, by decide +kernel⟩

/-! ### The limit of the reader -/

theorem csvRun_error {c : Char} {ts : List (Option Char)} {r : CsvReader} {e : PyErr}
    (h : r.process (some c) = .error e) : csvRun (some c :: ts) r = ([], some e) := by
  rw [csvRun, h]

theorem csvRun_quoted_long : ∀ (f acc : Str) (fs : List Str) (rest : Str), acc.length ≤ csvFieldLimit →
    csvFieldLimit < acc.length + f.length →
    csvRun (csvTokens (csvDouble f ++ '|' :: rest)) ⟨.inQuoted, acc, fs⟩ = ([], some .valueError)
  | [], acc, _, _, h, hlen => by simp at hlen; omega
  | c :: cs, acc, fs, rest, h, hlen => by
    by_cases hq : c = '|'
    · subst hq
      have e : csvDouble ('|' :: cs) = '|' :: '|' :: csvDouble cs := by rw [csvDouble, if_pos rfl]
      rw [e]
      simp only [List.cons_append]
      rw [csvTokens_plain (by simp) (by decide) (by decide), csvTokens_plain (by simp) (by decide) (by decide),
        csvRun_char (r' := ⟨.quoteInQuoted, acc, fs⟩) (by simp [CsvReader.process])]
      by_cases hacc : csvFieldLimit ≤ acc.length
      · rw [csvRun_error]
        simp [CsvReader.process, CsvReader.addChar, hacc]
      · rw [csvRun_char (r' := ⟨.inQuoted, '|' :: acc, fs⟩)
          (by simp [CsvReader.process, CsvReader.addChar, hacc])]
        exact csvRun_quoted_long cs ('|' :: acc) fs rest (by simp; omega) (by simp at hlen ⊢; omega)
    · have e : csvDouble (c :: cs) = c :: csvDouble cs := by rw [csvDouble, if_neg hq]
      rw [e, List.cons_append, csvTokens_cons (by simp)]
      by_cases hc : c = '\x00'
      · rw [csvRun_error]
        simp [CsvReader.process, hc]
      by_cases hacc : csvFieldLimit ≤ acc.length
      · rw [csvRun_error]
        simp [CsvReader.process, CsvReader.addChar, hacc, hq]
      rw [csvRun_char (r' := ⟨.inQuoted, c :: acc, fs⟩) (by simp [CsvReader.process, CsvReader.addChar, hacc, hc, hq])]
      have : ∀ ts, csvRun ((if c = '\n' ∨ (c = '\r' ∧ (csvDouble cs ++ '|' :: rest).head? ≠ some '\n') then [none]
          else []) ++ ts) ⟨.inQuoted, c :: acc, fs⟩ = csvRun ts ⟨.inQuoted, c :: acc, fs⟩ := by
        intro ts
        split
        · show csvRun (none :: ts) _ = _
          rw [csvRun]
          simp [CsvReader.process]
        · rfl
      rw [this]
      exact csvRun_quoted_long cs (c :: acc) fs rest (by simp; omega) (by simp at hlen ⊢; omega)

theorem csvRun_plain_long : ∀ (f acc : Str) (fs : List Str) (rest : Str), rest ≠ [] → acc.length ≤ csvFieldLimit →
    csvFieldLimit < acc.length + f.length →
    (∀ c ∈ f, c ≠ ' ' ∧ c ≠ '|' ∧ c ≠ '\r' ∧ c ≠ '\n') →
    csvRun (csvTokens (f ++ rest)) ⟨.inField, acc, fs⟩ = ([], some .valueError)
  | [], _, _, _, _, h, hlen, _ => by simp at hlen; omega
  | c :: cs, acc, fs, rest, hrest, h, hlen, hf => by
    obtain ⟨h1, h2, h3, h4⟩ := hf c (by simp)
    rw [List.cons_append, csvTokens_plain (by simp [hrest]) h4 h3]
    by_cases hc : c = '\x00'
    · rw [csvRun_error]
      simp [CsvReader.process, hc]
    by_cases hacc : csvFieldLimit ≤ acc.length
    · rw [csvRun_error]
      simp [CsvReader.process, CsvReader.addChar, hacc, h1, h3, h4]
    rw [csvRun_char (r' := ⟨.inField, c :: acc, fs⟩)
      (by simp [CsvReader.process, CsvReader.addChar, hacc, h1, h3, h4, hc])]
    exact csvRun_plain_long cs (c :: acc) fs rest hrest (by simp; omega) (by simp at hlen ⊢; omega)
      fun x hx => hf x (by simp [hx])

theorem csvRun_field_long {m : CsvMode} (hm : m = .startRecord ∨ m = .startField) (f : Str) (hf : 131072 < f.length)
    (fs : List Str) (rest : Str) (hrest : rest ≠ []) :
    csvRun (csvTokens (csvField f ++ rest)) ⟨m, [], fs⟩ = ([], some .valueError) := by
  unfold csvField
  by_cases hq : csvNeedsQuotes f = true
  · rw [if_pos hq]
    show csvRun (csvTokens ('|' :: ((csvDouble f ++ ['|']) ++ rest))) _ = _
    rw [List.append_assoc, csvTokens_plain (by simp) (by decide) (by decide),
      csvRun_char (r' := ⟨.inQuoted, [], fs⟩)
        (by rcases hm with rfl | rfl <;> simp [CsvReader.process, CsvReader.fieldChar])]
    exact csvRun_quoted_long f [] fs rest (by simp) (by simpa [csvFieldLimit] using hf)
  · rw [if_neg hq]
    have hc : ∀ c ∈ f, c ≠ ' ' ∧ c ≠ '|' ∧ c ≠ '\r' ∧ c ≠ '\n' := by
      intro c hc
      simp only [csvNeedsQuotes, List.any_eq_true, not_exists, not_and] at hq
      have := hq c hc
      simp at this
      exact ⟨this.1.1.1, this.1.1.2, this.1.2, this.2⟩
    cases f with
    | nil => simp at hf
    | cons c cs =>
      obtain ⟨h1, h2, h3, h4⟩ := hc c (by simp)
      rw [List.cons_append, csvTokens_plain (by simp [hrest]) h4 h3]
      by_cases h5 : c = '\x00'
      · rw [csvRun_error]
        simp [CsvReader.process, h5]
      rw [csvRun_char (r' := ⟨.inField, [c], fs⟩)
          (by rcases hm with rfl | rfl <;>
            simp [CsvReader.process, CsvReader.fieldChar, CsvReader.addChar, csvFieldLimit, h1, h2, h3, h4, h5])]
      exact csvRun_plain_long cs [c] fs rest hrest (by simp [csvFieldLimit])
        (by simp [csvFieldLimit] at hf ⊢; omega) fun x hx => hc x (by simp [hx])

theorem csvRun_fields_long : ∀ (pre : List Str) (f : Str) (post : List Str) (m : CsvMode),
    m = .startRecord ∨ m = .startField → (∀ g ∈ pre, Readable g) → 131072 < f.length → ∀ (fs : List Str) (rest : Str),
    csvRun (csvTokens (csvRow (pre ++ f :: post) ++ '\r' :: '\n' :: rest)) ⟨m, [], fs⟩ = ([], some .valueError)
  | [], f, [], m, hm, _, hf, fs, rest => csvRun_field_long hm f hf fs _ (by simp)
  | [], f, g :: gs, m, hm, _, hf, fs, rest => by
    have e : csvRow ([] ++ f :: g :: gs) ++ '\r' :: '\n' :: rest =
        csvField f ++ ' ' :: (csvRow (g :: gs) ++ '\r' :: '\n' :: rest) := by
      simp [csvRow, pyJoin]
    rw [e]
    exact csvRun_field_long hm f hf fs _ (by simp)
  | g :: gs, f, post, m, hm, hpre, hf, fs, rest => by
    obtain ⟨h0, hs, he⟩ : ∃ h0 hs, gs ++ f :: post = h0 :: hs := by
      cases gs with
      | nil => exact ⟨_, _, rfl⟩
      | cons a as => exact ⟨_, _, rfl⟩
    have e : csvRow (g :: gs ++ f :: post) ++ '\r' :: '\n' :: rest =
        csvField g ++ ' ' :: (csvRow (gs ++ f :: post) ++ '\r' :: '\n' :: rest) := by
      rw [List.cons_append, he]
      simp [csvRow, pyJoin]
    obtain ⟨m', h1, h2⟩ := csvRun_field hm g (hpre g (by simp)) fs
      (' ' :: (csvRow (gs ++ f :: post) ++ '\r' :: '\n' :: rest)) (by simp)
    rw [e, h2, csvTokens_plain (by simp) (by decide) (by decide),
      csvRun_char (r' := ⟨.startField, [], g :: fs⟩)
        (by rcases h1 with rfl | rfl | ⟨rfl, rfl⟩
            · simp [CsvReader.process, CsvReader.save]
            · simp [CsvReader.process, CsvReader.save]
            · rcases hm with rfl | rfl <;> simp [CsvReader.process, CsvReader.fieldChar, CsvReader.save])]
    exact csvRun_fields_long gs f post .startField (.inr rfl) (fun x hx => hpre x (by simp [hx])) hf _ _

/-- **C132** (the limit is sharp): a file with a longer field is read up to the row of that field; then the csv module
fails. -/
theorem C132_limit (rows : List (List Str)) (h : ∀ row ∈ rows, ∀ f ∈ row, Readable f) (pre : List Str) (f : Str)
    (post : List Str) (hpre : ∀ g ∈ pre, Readable g) (hf : 131072 < f.length) (more : List (List Str)) :
    csvReadText (csvWrite (rows ++ (pre ++ f :: post) :: more)) = (rows, some .valueError) := by
  induction rows with
  | nil =>
    have hne : pre ++ f :: post ≠ [[]] := by
      intro e
      have : f ∈ ([[]] : List Str) := e ▸ by simp
      simp at this
      subst this
      simp at hf
    have e : csvWrite ([] ++ (pre ++ f :: post) :: more) =
        csvRow (pre ++ f :: post) ++ '\r' :: '\n' :: csvWrite more := by
      simp only [List.nil_append, csvWrite, List.map_cons, List.flatten_cons, csvRecord, if_neg hne, List.append_assoc]
      rfl
    rw [e]
    exact csvRun_fields_long pre f post .startRecord (.inl rfl) hpre hf [] _
  | cons row rows ih =>
    have : csvWrite (row :: rows ++ (pre ++ f :: post) :: more) =
      csvRecord row ++ csvWrite (rows ++ (pre ++ f :: post) :: more) := rfl
    rw [this, csvReadText_record row (h row (by simp)), ih fun r hr => h r (by simp [hr])]

/-! ### The file of the analysis of a suite -/

theorem readSuiteRows_eq (rows : List (List Str)) (h : ∀ row ∈ rows, 2 ≤ row.length)
    (result : List (Str × List (Int × Int))) :
    readSuiteRows (rows.map csvRow) result = readSuiteRecords rows result := by
  induction rows generalizing result with
  | nil => rfl
  | cons row rows ih =>
    have hr := h row (by simp)
    match row, hr with
    | f :: g :: fs, _ =>
      rw [List.map_cons, readSuiteRows, csvReadRow_csvRow, readSuiteRecords]
      simp only [fun result => ih (fun row hrow => h row (by simp [hrow])) result]
      rfl

/-- **C132** (reading a suite): a file whose lines are records of at least two readable fields is read as the list of
its lines (the model of C51 and C106). -/
theorem C132_suite (rows : List (List Str)) (h2 : ∀ row ∈ rows, 2 ≤ row.length)
    (h : ∀ row ∈ rows, ∀ f ∈ row, Readable f) :
    retrieveSuiteText (some (fileText (rows.map csvRow))) = retrieveSuiteResult (some (rows.map csvRow)) := by
  have e : fileText (rows.map csvRow) = csvWrite rows := by
    unfold fileText csvWrite
    rw [List.map_map]
    congr 1
    apply List.map_congr_left
    intro row hrow
    have : row ≠ [[]] := by rintro rfl; exact absurd (h2 _ hrow) (by decide)
    simp [csvRecord, this]
  rw [e, retrieveSuiteText, C132_round_trip rows h]
  cases rows with
  | nil => rfl
  | cons hdr rows =>
    simp only [List.map_cons, retrieveSuiteResult]
    rw [readSuiteRows_eq rows fun row hrow => h2 row (by simp [hrow])]
    cases readSuiteRecords rows [] <;> rfl

theorem natStr_length {n d : Nat} (hd : 0 < d) (h : n < 10 ^ d) : (natStr n).length ≤ d := by
  induction d generalizing n with
  | zero => omega
  | succ d ih =>
    rw [natStr]
    split
    · simp
    · rename_i hn
      have hd' : 0 < d := by
        rcases Nat.eq_zero_or_pos d with rfl | h0
        · simp at h; omega
        · exact h0
      have : n / 10 < 10 ^ d := by
        rw [Nat.div_lt_iff_lt_mul (by decide)]
        rwa [Nat.pow_succ] at h
      have := ih hd' this
      simp
      omega

theorem natStr_no_nul (n : Nat) : '\x00' ∉ natStr n := natStr_not_mem (by decide)

theorem pointColumn_short {p : Point} (hx : p.x < 10000) (hy : p.y < 10000) :
    (pointColumn p).length ≤ 12 ∧ '\x00' ∉ pointColumn p := by
  have h1 := natStr_length (n := p.x) (d := 4) (by decide) hx
  have h2 := natStr_length (n := p.y) (d := 4) (by decide) hy
  refine ⟨by simp [pointColumn]; omega, ?_⟩
  simp [pointColumn, natStr_no_nul]

section
variable {α K : Type} [Field K]

theorem analyzeLoop_short {r : Region} {m : Grid (Option K)} {yLen : Nat} {medoids : List Point}
    (hms : ∀ p ∈ medoids, r.x1 + p.x < 10000 ∧ r.y1 + p.y < 10000) (clusters : List (ClusterObj α)) :
    ∀ (is : List Nat) (text : Str) (costs : List (Option K)) {text' : Str} {costs' : List (Option K)},
      analyzeLoop r m yLen medoids clusters is text costs = .ok (text', costs') → '\x00' ∉ text →
      text'.length ≤ text.length + 12 * is.length ∧ '\x00' ∉ text'
  | [], text, costs, text', costs', h, hn => by
    rw [analyzeLoop] at h
    cases h
    exact ⟨by simp, hn⟩
  | i :: is, text, costs, text', costs', h, hn => by
    rw [analyzeLoop] at h
    cases hc : clusters[i]? with
    | none => rw [hc] at h; cases h
    | some c =>
      cases hm : medoids[i]? with
      | none => rw [hc, hm] at h; cases h
      | some p =>
        rw [hc, hm] at h
        simp only at h
        split at h
        · cases h
        · split at h
          · cases h
          · obtain ⟨hx, hy⟩ := hms p (List.mem_of_getElem? hm)
            have hp := pointColumn_short (p := absolutePosition r p)
              (by simpa [absolutePosition, Nat.add_comm] using hx) (by simpa [absolutePosition, Nat.add_comm] using hy)
            obtain ⟨g1, g2⟩ := analyzeLoop_short hms clusters is _ _ h (by simp [hn, hp.2])
            refine ⟨?_, g2⟩
            have := hp.1
            simp at g1 ⊢
            omega

theorem analyzePartition_record {showCost : Option K → Str} {r : Region} {g : Grid α} {m : Grid (Option K)}
    {c : ClusterMeta} {pt : Partition} {ms : List Point} {row : List Str} (hrepr : Readable c.repr ∧ c.k ≤ 10000)
    (hshow : ∀ v, Readable (showCost v)) (hms : ∀ p ∈ ms, r.x1 + p.x < 10000 ∧ r.y1 + p.y < 10000)
    (ha : analyzePartition showCost r g m c pt ms = .ok row) : 2 ≤ row.length ∧ ∀ f ∈ row, Readable f := by
  unfold analyzePartition at ha
  split at ha
  · cases ha
  · split at ha
    · cases ha
    · rename_i text costs hl
      cases ha
      obtain ⟨g1, g2⟩ := analyzeLoop_short hms _ _ _ _ hl (by simp)
      have hk := hrepr.2
      refine ⟨by simp, ?_⟩
      intro f hf
      simp only [List.mem_cons, List.not_mem_nil, or_false] at hf
      rcases hf with rfl | rfl | rfl
      · exact hrepr.1
      · exact hshow _
      · refine ⟨?_, g2⟩
        simp at g1
        omega

theorem analyzeSuiteLoop_records {partitionOf : ClusterMeta → Except PyErr (Partition × List Point)}
    {showCost : Option K → Str} {r : Region} (g : Grid α) (m : Grid (Option K)) {suite : List ClusterMeta}
    (hrepr : ∀ c ∈ suite, Readable c.repr ∧ c.k ≤ 10000) (hshow : ∀ v, Readable (showCost v))
    (hms : ∀ c ∈ suite, ∀ pt ms, partitionOf c = .ok (pt, ms) →
      ∀ p ∈ ms, r.x1 + p.x < 10000 ∧ r.y1 + p.y < 10000) (file : List Str) :
    ∃ rows : List (List Str), (∀ row ∈ rows, 2 ≤ row.length) ∧ (∀ row ∈ rows, ∀ f ∈ row, Readable f) ∧
      (analyzeSuiteLoop partitionOf showCost r g m suite file).2 = file ++ rows.map csvRow := by
  induction suite generalizing file with
  | nil => exact ⟨[], by simp, by simp, by simp [analyzeSuiteLoop]⟩
  | cons c cs ih =>
    rw [analyzeSuiteLoop]
    cases hp : partitionOf c with
    | error e => exact ⟨[], by simp, by simp, by simp⟩
    | ok w =>
      obtain ⟨pt, ms⟩ := w
      simp only
      cases ha : analyzePartition showCost r g m c pt ms with
      | error e => exact ⟨[], by simp, by simp, by simp⟩
      | ok row =>
        simp only
        obtain ⟨rows, h1, h2, h3⟩ := ih (fun c hc => hrepr c (by simp [hc])) (fun c hc => hms c (by simp [hc]))
          (file ++ [csvRow row])
        have hrow := analyzePartition_record (hrepr c (by simp)) hshow (hms c (by simp) pt ms hp) ha
        refine ⟨row :: rows, ?_, ?_, ?_⟩
        · simpa using ⟨hrow.1, h1⟩
        · intro w hw
          rcases List.mem_cons.1 hw with rfl | hw
          · exact hrow.2
          · exact h2 w hw
        · rw [h3]; simp

/-- **C132** (analysis of a suite): the text that the analysis leaves in its file, when it succeeds and when it is
interrupted, is read back as the list of its lines, with at most ten thousand medoids per clustering and coordinates
below ten thousand. -/
theorem C132_analysis {partitionOf : ClusterMeta → Except PyErr (Partition × List Point)}
    {showCost : Option K → Str} {r : Region} (g : Grid α) (m : Grid (Option K)) {suite : List ClusterMeta}
    (hrepr : ∀ c ∈ suite, Readable c.repr ∧ c.k ≤ 10000) (hshow : ∀ v, Readable (showCost v))
    (hms : ∀ c ∈ suite, ∀ pt ms, partitionOf c = .ok (pt, ms) →
      ∀ p ∈ ms, r.x1 + p.x < 10000 ∧ r.y1 + p.y < 10000) :
    retrieveSuiteText (some (fileText (analyzeSuite partitionOf showCost r g m suite).2)) =
      retrieveSuiteResult (some (analyzeSuite partitionOf showCost r g m suite).2) := by
  obtain ⟨rows, h1, h2, h3⟩ := analyzeSuiteLoop_records (partitionOf := partitionOf) (showCost := showCost) (r := r)
    g m hrepr hshow hms [analysisHeader]
  have e : (analyzeSuite partitionOf showCost r g m suite).2 =
      (["clustering".toList, "total_cost".toList, "medoids".toList] :: rows).map csvRow := h3
  rw [e]
  apply C132_suite
  · simpa using h1
  · intro row hrow
    rcases List.mem_cons.1 hrow with rfl | hrow
    · unfold Readable; decide
    · exact h2 row hrow

end

/-! ### The files of a query -/

section
variable {K : Type} [Field K] [LinearOrder K]

theorem writeRecords_ok {A B : Type} (f : A → Except PyErr B) (g : B → List Str) (as : List A) {bs : List B}
    (h : as.mapM f = .ok bs) : writeRecords (fun a => (f a).map g) as = (.ok (), csvWrite (bs.map g)) := by
  induction as generalizing bs with
  | nil => cases h; rfl
  | cons a as ih =>
    rw [List.mapM_cons] at h
    cases ha : f a with
    | error e => rw [ha] at h; cases h
    | ok b =>
      rw [ha] at h
      cases hs : as.mapM f with
      | error e => rw [hs] at h; cases h
      | ok bs' =>
        rw [hs] at h
        cases h
        rw [writeRecords]
        simp only [ha, ih hs]
        rfl

theorem writeRecords_error {A B : Type} (f : A → Except PyErr B) (g : B → List Str) (pre : List A) {bs : List B}
    (h : pre.mapM f = .ok bs) {a : A} {e : PyErr} (ha : f a = .error e) (post : List A) :
    writeRecords (fun a => (f a).map g) (pre ++ a :: post) = (.error e, csvWrite (bs.map g)) := by
  induction pre generalizing bs with
  | nil =>
    cases h
    rw [List.nil_append, writeRecords]
    simp only [ha]
    rfl
  | cons b pre ih =>
    rw [List.mapM_cons] at h
    cases hb : f b with
    | error e => rw [hb] at h; cases h
    | ok c =>
      rw [hb] at h
      cases hs : pre.mapM f with
      | error e => rw [hs] at h; cases h
      | ok bs' =>
        rw [hs] at h
        cases h
        rw [List.cons_append, writeRecords]
        simp only [hb, ih hs]
        rfl

/-- The texts of a row. -/
def rowText (n : NumberText K) (row : List (Cell K)) : List Str := row.map (Cell.str n)

theorem header_readable (r : Result K) {s : String} (h : s ∈ r.header ++ r.summaryHeader) : Readable s.toList := by
  have hall : ∀ s ∈ (["Point", "error", "forecast_series", "test_series", "cluster_index", "label", "tp", "mse",
      "clusters", "dtw_r_m", "type", "k", "seed", "mode", "suite"] : List String), Readable s.toList := by
    intro s hs
    simp only [List.mem_cons, List.not_mem_nil, or_false] at hs
    rcases hs with rfl | rfl | rfl | rfl | rfl | rfl | rfl | rfl | rfl | rfl | rfl | rfl | rfl | rfl | rfl <;>
      exact ⟨by decide, by decide⟩
  have hi : ∀ (v : String) (l : List String) (s : String), s ∈ Result.insertSecond v l → s = v ∨ s ∈ l := by
    intro v l s hs
    cases l with
    | nil => simpa [Result.insertSecond] using hs
    | cons a l =>
      simp only [Result.insertSecond, List.mem_cons] at hs ⊢
      tauto
  refine hall s ?_
  induction r with
  | inSample b test =>
    simp only [Result.header, Result.summaryHeader, List.cons_append, List.nil_append, List.mem_cons,
      List.not_mem_nil, or_false] at h ⊢
    tauto
  | outOfSample b =>
    simp only [Result.header, Result.summaryHeader, List.cons_append, List.nil_append, List.mem_cons,
      List.not_mem_nil, or_false] at h ⊢
    tauto
  | withPartition d pt ms cl ih =>
    rcases List.mem_append.1 h with h | h
    · rcases hi _ _ _ h with rfl | h
      · simp
      · exact ih (by simp [h])
    · rw [Result.summaryHeader] at h
      rcases List.mem_append.1 h with h | h
      · cases cl <;>
          simp only [Result.clusteringDict, List.map_cons, List.map_nil, List.cons_append, List.nil_append,
            List.mem_cons, List.not_mem_nil, or_false] at h ⊢ <;> tauto
      · exact ih (by simp [h])
  | fromClassifier d suite labels ih =>
    rcases List.mem_append.1 h with h | h
    · rcases hi _ _ _ h with rfl | h
      · simp
      · exact ih (by simp [h])
    · rw [Result.summaryHeader] at h
      rcases List.mem_append.1 h with h | h
      · simp only [List.mem_cons, List.not_mem_nil, or_false] at h ⊢
        tauto
      · exact ih (by simp [h])

/-- **C132** (query): saving a result whose rows and summary can be calculated writes the two files and no other; the
csv module reads the header and the texts of the rows, one per point, from the first, and the header and the texts of
the summary from the second, also when the text of a series is broken into lines. -/
theorem C132_query {measure : List (Option K) → List (Option K) → Option K}
    {combine : List (Option K) → Option K} {root : Option K → Option K} {n : NumberText K}
    {resultPath summaryPath : Str} (hpath : resultPath ≠ summaryPath) {r : Result K} {rows : List (List (Cell K))}
    (hrows : r.rows = .ok rows) {summary : List (Cell K)} (hsum : r.summaryTuple measure combine root = .ok summary)
    (hread : ∀ row ∈ summary :: rows, ∀ c ∈ row, Readable (c.str n))
    (files : Str → Option Str) :
    ∃ files' text1 text2,
      r.saveAsCsv measure combine root n resultPath summaryPath files = (.ok (), files') ∧
      files' resultPath = some text1 ∧ files' summaryPath = some text2 ∧
      (∀ path, path ≠ resultPath → path ≠ summaryPath → files' path = files path) ∧
      csvReadText text1 = (r.header.map String.toList :: rows.map (rowText n), none) ∧
      csvReadText text2 = ([r.summaryHeader.map String.toList, rowText n summary], none) := by
  have h1 := writeRecords_ok r.tuple (rowText n) r.points hrows
  have hres : r.writeResults n = (.ok (), csvWrite (r.header.map String.toList :: rows.map (rowText n))) := by
    unfold Result.writeResults
    show ((writeRecords (fun p => (r.tuple p).map (rowText n)) r.points).1, _ ++
      (writeRecords (fun p => (r.tuple p).map (rowText n)) r.points).2) = _
    rw [h1]
    rfl
  have hsm : r.writeSummary measure combine root n =
      (.ok (), csvWrite [r.summaryHeader.map String.toList, rowText n summary]) := by
    unfold Result.writeSummary
    rw [hsum]
    simp [csvWrite, rowText]
  have hh := fun s hs => header_readable r (s := s) hs
  refine ⟨_, csvWrite (r.header.map String.toList :: rows.map (rowText n)),
    csvWrite [r.summaryHeader.map String.toList, rowText n summary],
    by unfold Result.saveAsCsv; simp only [hres, hsm]; rfl, ?_, ?_, ?_, ?_, ?_⟩
  · rw [Function.update_of_ne hpath, Function.update_self]
  · rw [Function.update_self]
  · intro path h2 h3
    rw [Function.update_of_ne h3, Function.update_of_ne h2]
  · apply C132_round_trip
    intro row hrow f hf
    rcases List.mem_cons.1 hrow with rfl | hrow
    · obtain ⟨s, hs, rfl⟩ := List.mem_map.1 hf
      exact hh s (by simp [hs])
    · obtain ⟨w, hw, rfl⟩ := List.mem_map.1 hrow
      obtain ⟨c, hc, rfl⟩ := List.mem_map.1 hf
      exact hread w (by simp [hw]) c hc
  · apply C132_round_trip
    intro row hrow f hf
    simp only [List.mem_cons, List.not_mem_nil, or_false] at hrow
    rcases hrow with rfl | rfl
    · obtain ⟨s, hs, rfl⟩ := List.mem_map.1 hf
      exact hh s (by simp [hs])
    · obtain ⟨c, hc, rfl⟩ := List.mem_map.1 hf
      exact hread summary (by simp) c hc

/-- **C132** (cells): the text of each cell of a row is the one of its kind, and there is no other. -/
theorem C132_cells (n : NumberText K) (c : Cell K) (t : Str) : CellText n c t ↔ t = c.str n := by
  have h1 : CellText n c (c.str n) := by
    cases c with
    | coords p =>
      have := CellText.coords (n := n) p
      simp only [List.append_assoc] at this
      exact this
    | number v => exact .number v
    | errorValue v => exact .errorValue v
    | series s => exact .series s
    | index i =>
      cases i with
      | ofNat i => exact .index i
      | negSucc i => exact .negative i
    | text s => exact .text s
  constructor
  · intro h
    cases h with
    | coords p => simp only [List.append_assoc]; rfl
    | _ => rfl
  · rintro rfl
    exact h1

/-- **C132** (failure): if the row of a point cannot be calculated, the error is raised; the file has the header and
the rows of the points before, and no other file is changed. -/
theorem C132_failed {measure : List (Option K) → List (Option K) → Option K}
    {combine : List (Option K) → Option K} {root : Option K → Option K} {n : NumberText K}
    {resultPath summaryPath : Str} {r : Result K} {pre post : List Point} {p : Point}
    (hpoints : r.points = pre ++ p :: post) {rows : List (List (Cell K))} (hrows : pre.mapM r.tuple = .ok rows)
    {e : PyErr} (he : r.tuple p = .error e) (hread : ∀ row ∈ rows, ∀ c ∈ row, Readable (c.str n))
    (files : Str → Option Str) :
    ∃ files' text, r.saveAsCsv measure combine root n resultPath summaryPath files = (.error e, files') ∧
      files' resultPath = some text ∧ (∀ path, path ≠ resultPath → files' path = files path) ∧
      csvReadText text = (r.header.map String.toList :: rows.map (rowText n), none) := by
  have h1 := writeRecords_error r.tuple (rowText n) pre hrows he post
  have hres : r.writeResults n = (.error e, csvWrite (r.header.map String.toList :: rows.map (rowText n))) := by
    unfold Result.writeResults
    show ((writeRecords (fun p => (r.tuple p).map (rowText n)) r.points).1, _ ++
      (writeRecords (fun p => (r.tuple p).map (rowText n)) r.points).2) = _
    rw [hpoints, h1]
    rfl
  refine ⟨_, csvWrite (r.header.map String.toList :: rows.map (rowText n)),
    by unfold Result.saveAsCsv; simp only [hres]; rfl, ?_, ?_, ?_⟩
  · rw [Function.update_self]
  · intro path h2
    rw [Function.update_of_ne h2]
  · apply C132_round_trip
    intro row hrow f hf
    rcases List.mem_cons.1 hrow with rfl | hrow
    · obtain ⟨s, hs, rfl⟩ := List.mem_map.1 hf
      exact header_readable r (by simp [hs])
    · obtain ⟨w, hw, rfl⟩ := List.mem_map.1 hrow
      obtain ⟨c, hc, rfl⟩ := List.mem_map.1 hf
      exact hread w hw c hc

/-! ### C133 -/

theorem tuple_coords (r : Result K) (p : Point) {row : List (Cell K)} (h : r.tuple p = .ok row) :
    ∃ rest, row = .coords (r.absolute (r.toDomain p)) :: rest := by
  induction r generalizing row with
  | inSample b test =>
    simp only [Result.tuple] at h
    split at h
    · cases h
    · rename_i t ht
      split at h
      · cases h
      · cases h
        unfold Result.baseTuple at ht
        split at ht
        · cases ht
        · split at ht
          · cases ht
          · cases ht; exact ⟨_, rfl⟩
  | outOfSample b =>
    simp only [Result.tuple, Result.baseTuple] at h
    split at h
    · cases h
    · split at h
      · cases h
      · cases h; exact ⟨_, rfl⟩
  | withPartition d pt ms cl ih =>
    simp only [Result.tuple] at h
    split at h
    · cases h
    · rename_i t ht
      obtain ⟨rest, rfl⟩ := ih ht
      split at h
      · cases h
      · cases h; exact ⟨_, rfl⟩
  | fromClassifier d suite labels ih =>
    simp only [Result.tuple] at h
    split at h
    · cases h
    · rename_i t ht
      obtain ⟨rest, rfl⟩ := ih ht
      split at h
      · cases h
      · cases h; exact ⟨_, rfl⟩

theorem dictGet_points {B : Type} (p : Point) (labels : List (Point × B)) :
    Result.dictGet (⟨p.x, p.y⟩ : IPoint) (labels.map fun w => ((⟨w.1.x, w.1.y⟩ : IPoint), w.2)) =
      Result.dictGet p labels := by
  induction labels with
  | nil => rfl
  | cons w ws ih =>
    obtain ⟨⟨x, y⟩, b⟩ := w
    obtain ⟨px, py⟩ := p
    simp only [List.map_cons, Result.dictGet, IPoint.mk.injEq, Nat.cast_inj, Point.mk.injEq, ih]

theorem append_six {a b ab : Str} (h : a ++ b = ab) (x d y tail : Str) :
    a ++ (b ++ (x ++ (d ++ (y ++ [')'])))) ++ tail = ab ++ x ++ d ++ y ++ (')' :: tail) := by
  subst h
  simp

theorem intro_text (c : Point) (tail : Str) :
    "Point: ".toList ++ pointText c ++ tail =
      "Point: Point(x=".toList ++ natStr c.x ++ ", y=".toList ++ natStr c.y ++ (')' :: tail) :=
  append_six (by decide) _ _ _ _

theorem labelled_text (text : Str) :
    Result.labelled "Forecast (future):".toList text = "Forecast (future):   ".toList ++ text ∧
    Result.labelled "Forecast:".toList text = "Forecast:            ".toList ++ text ∧
    Result.labelled "Test:".toList text = "Test:                ".toList ++ text := by
  have h : ∀ (name padded : Str), name ++ List.replicate (20 - name.length) ' ' ++ [' '] = padded →
      Result.labelled name text = padded ++ text := by
    rintro name _ rfl
    unfold Result.labelled
    simp
  exact ⟨h _ _ (by decide), h _ _ (by decide), h _ _ (by decide)⟩

/-- **C133**: the lines on the screen for a point show what the row of the point in the CSV file shows; they can be
calculated if and only if the row can be. -/
theorem C133_lines (n : NumberText K) (errorType : Str) (r : Result K) (p : Point) :
    (∀ row, r.tuple p = .ok row → ∃ ls, r.lines n errorType p = .ok ls ∧ ScreenOf n errorType row ls) ∧
    ((∃ e, r.tuple p = .error e) → ∃ e, r.lines n errorType p = .error e) := by
  have hbase : ∀ c, "Point: ".toList ++ pointText c =
      "Point: Point(x=".toList ++ natStr c.x ++ ", y=".toList ++ natStr c.y ++ ")".toList := by
    intro c
    have := intro_text c []
    rwa [List.append_nil] at this
  induction r with
  | inSample b test =>
    have hf : (Result.inSample b test).base = b := rfl
    simp only [Result.tuple, Result.baseTuple, Result.lines, hf]
    cases h1 : b.errors.valueAt p with
    | error e =>
      refine ⟨fun row h => (by cases h), fun _ => ?_⟩
      cases b.forecast.seriesAt p with
      | error e => exact ⟨_, rfl⟩
      | ok f =>
        cases test.seriesAt p with
        | error e => exact ⟨_, rfl⟩
        | ok s => exact ⟨_, rfl⟩
    | ok v =>
      cases h2 : b.forecast.seriesAt p with
      | error e => exact ⟨fun row h => (by cases h), fun _ => ⟨_, rfl⟩⟩
      | ok f =>
        cases h3 : test.seriesAt p with
        | error e => exact ⟨fun row h => (by cases h), fun _ => ⟨_, rfl⟩⟩
        | ok s =>
          refine ⟨fun row h => ?_, by rintro ⟨e, h⟩; cases h⟩
          cases h
          refine ⟨_, rfl, ?_⟩
          rw [hbase, (labelled_text _).2.1, (labelled_text _).2.2]
          exact .inSample _ _ _ _
  | outOfSample b =>
    have hf : (Result.outOfSample b).base = b := rfl
    simp only [Result.tuple, Result.baseTuple, Result.lines, hf]
    cases h1 : b.errors.valueAt p with
    | error e =>
      refine ⟨fun row h => (by cases h), fun _ => ?_⟩
      cases b.forecast.seriesAt p with
      | error e => exact ⟨_, rfl⟩
      | ok f => exact ⟨_, rfl⟩
    | ok v =>
      cases h2 : b.forecast.seriesAt p with
      | error e => exact ⟨fun row h => (by cases h), fun _ => ⟨_, rfl⟩⟩
      | ok f =>
        refine ⟨fun row h => ?_, by rintro ⟨e, h⟩; cases h⟩
        cases h
        refine ⟨_, rfl, ?_⟩
        rw [hbase, (labelled_text _).1]
        exact .future _ _ _
  | withPartition d pt ms cl ih =>
    obtain ⟨ih1, ih2⟩ := ih
    simp only [Result.tuple, Result.lines]
    cases ht : d.tuple p with
    | error e =>
      obtain ⟨e', h'⟩ := ih2 ⟨e, ht⟩
      exact ⟨fun row h => (by cases h), fun _ => ⟨e', by rw [h']⟩⟩
    | ok row =>
      obtain ⟨ls, h1, h2⟩ := ih1 row ht
      obtain ⟨rest, rfl⟩ := tuple_coords d p ht
      rw [h1]
      simp only
      cases hc : Result.clusterIndexOf pt ((Result.withPartition d pt ms cl).toDomain p) with
      | error e => exact ⟨fun row h => (by cases h), fun _ => ⟨_, rfl⟩⟩
      | ok i =>
        refine ⟨fun row h => ?_, by rintro ⟨e, h⟩; cases h⟩
        cases h
        obtain ⟨first, more, rfl⟩ : ∃ first more, ls = first :: more := by
          generalize hrow : Cell.coords (d.absolute (d.toDomain p)) :: rest = row at h2
          cases h2 <;> exact ⟨_, _, rfl⟩
        refine ⟨_, rfl, ?_⟩
        have e : "Point: ".toList ++ pointText (d.absolute (d.toDomain p)) ++ " (cluster ".toList ++ natStr i ++ [')'] =
            "Point: Point(x=".toList ++ natStr (d.absolute (d.toDomain p)).x ++ ", y=".toList ++
              natStr (d.absolute (d.toDomain p)).y ++ ") (cluster ".toList ++ natStr i ++ ")".toList := by
          rw [intro_text]
          rfl
        show ScreenOf n errorType _ (("Point: ".toList ++ pointText (d.absolute (d.toDomain p)) ++
          " (cluster ".toList ++ natStr i ++ [')']) :: more)
        rw [e]
        exact .cluster _ i rest first more h2
  | fromClassifier d suite labels ih =>
    obtain ⟨ih1, ih2⟩ := ih
    simp only [Result.tuple, Result.lines]
    cases ht : d.tuple p with
    | error e =>
      obtain ⟨e', h'⟩ := ih2 ⟨e, ht⟩
      exact ⟨fun row h => (by cases h), fun _ => ⟨e', by rw [h']⟩⟩
    | ok row =>
      obtain ⟨ls, h1, h2⟩ := ih1 row ht
      obtain ⟨rest, rfl⟩ := tuple_coords d p ht
      rw [h1]
      have hrel : d.toRelative ((Result.fromClassifier d suite labels).toDomain p) = ⟨p.x, p.y⟩ :=
        (C49_round_trip d).1 p
      rw [hrel, dictGet_points]
      simp only
      cases hc : Result.dictGet p labels with
      | error e => exact ⟨fun row h => (by cases h), fun _ => ⟨_, rfl⟩⟩
      | ok l =>
        refine ⟨fun row h => ?_, by rintro ⟨e, h⟩; cases h⟩
        cases h
        obtain ⟨first, more, rfl⟩ : ∃ first more, ls = first :: more := by
          generalize hrow : Cell.coords (d.absolute (d.toDomain p)) :: rest = row at h2
          cases h2 <;> exact ⟨_, _, rfl⟩
        refine ⟨_, rfl, ?_⟩
        have e : "Point: ".toList ++ pointText (d.absolute (d.toDomain p)) ++ " (label ".toList ++ l ++ [')'] =
            "Point: Point(x=".toList ++ natStr (d.absolute (d.toDomain p)).x ++ ", y=".toList ++
              natStr (d.absolute (d.toDomain p)).y ++ ") (label ".toList ++ l ++ ")".toList := by
          rw [intro_text]
          rfl
        show ScreenOf n errorType _ (("Point: ".toList ++ pointText (d.absolute (d.toDomain p)) ++
          " (label ".toList ++ l ++ [')']) :: more)
        rw [e]
        exact .label _ l rest first more h2

/-- **C133** (whole result): the programs print one block of lines per row of the CSV file, in the same order, or fail
as the rows do. -/
theorem C133_printed (n : NumberText K) (errorType : Str) (r : Result K) :
    (∀ rows, r.rows = .ok rows → ∃ blocks, r.printed n errorType = .ok blocks ∧
      List.Forall₂ (fun row block => ∃ ls, block = "*********************************".toList :: ls ∧
        ScreenOf n errorType row ls) rows blocks) ∧
    ((∃ e, r.rows = .error e) → ∃ e, r.printed n errorType = .error e) := by
  unfold Result.rows Result.printed
  have hstars : List.replicate 33 '*' = "*********************************".toList := by decide
  rw [hstars]
  induction r.points with
  | nil =>
    refine ⟨fun rows h => ?_, by rintro ⟨e, h⟩; cases h⟩
    cases h
    exact ⟨[], rfl, .nil⟩
  | cons p ps ih =>
    obtain ⟨ih1, ih2⟩ := ih
    obtain ⟨h1, h2⟩ := C133_lines n errorType r p
    simp only [List.mapM_cons]
    cases ht : r.tuple p with
    | error e =>
      obtain ⟨e', h'⟩ := h2 ⟨e, ht⟩
      refine ⟨fun rows h => (by cases h), fun _ => ⟨e', by rw [h']; rfl⟩⟩
    | ok row =>
      obtain ⟨ls, h3, h4⟩ := h1 row ht
      rw [h3]
      cases hs : ps.mapM r.tuple with
      | error e =>
        obtain ⟨e', h'⟩ := ih2 ⟨e, hs⟩
        refine ⟨fun rows h => (by cases h), fun _ => ⟨e', by rw [h']; rfl⟩⟩
      | ok rows' =>
        obtain ⟨blocks, h5, h6⟩ := ih1 rows' hs
        rw [h5]
        refine ⟨fun rows h => ?_, by rintro ⟨e, h⟩; cases h⟩
        cases h
        exact ⟨_, rfl, .cons ⟨ls, rfl, h4⟩ h6⟩

/-! ### Examples -/

/-- The numbers of the examples: a text of a series that is broken into two lines. -/
def csvExampleText : NumberText ℚ :=
  ⟨fun _ => "8.25".toList, fun v => if v = none then "nan".toList else "0.500".toList,
    fun s => if s.length = 1 then "[ 3.000]".toList else "[ 3.000\n  4.000]".toList⟩

/-- An in-sample result with a partition, for the prediction region x 1..2, y 0..2 of a 2 by 2 domain at
offset (40, 50). -/
def csvExampleResult : Result ℚ :=
  .withPartition (.inSample ⟨⟨40, 42, 50, 52⟩, 1, .plain ⟨1, ⟨1, 2, [[some 3, some 4], [some 4]]⟩⟩,
      .plain ⟨1, 2, [some 1, none]⟩, ⟨1, 2, 0, 2⟩,
      .plain ⟨2, ⟨2, 2, [[some 1, some 2], [some 3, some 4], [some 5, some 6], [some 7, some 8]]⟩⟩⟩
      (.plain ⟨1, ⟨1, 2, [[some 6], [some 8]]⟩⟩))
    ⟨⟨2, 2, [0, 1, 1, 0]⟩, 2, 0⟩ (some [⟨0, 0⟩, ⟨0, 1⟩]) (.kmedoids { k := 2 })

/-- Its files and its lines: the text of the first file is that which python writes, and is read back. -/
example :
    (csvExampleResult.saveAsCsv (fun a b => liftOp (fun x y => y - x) a.head?.join b.head?.join) floatSum id csvExampleText
      "r".toList "s".toList (fun _ => none)).2 "r".toList =
      some "Point cluster_index error forecast_series test_series\r\n\
        |Point(x=41, y=50)| 1 0.500 |[ 3.000\n  4.000]| |[ 3.000]|\r\n\
        |Point(x=41, y=51)| 0 nan |[ 3.000]| |[ 3.000]|\r\n".toList ∧
    csvReadText "Point cluster_index error forecast_series test_series\r\n\
        |Point(x=41, y=50)| 1 0.500 |[ 3.000\n  4.000]| |[ 3.000]|\r\n\
        |Point(x=41, y=51)| 0 nan |[ 3.000]| |[ 3.000]|\r\n".toList =
      ([["Point", "cluster_index", "error", "forecast_series", "test_series"],
        ["Point(x=41, y=50)", "1", "0.500", "[ 3.000\n  4.000]", "[ 3.000]"],
        ["Point(x=41, y=51)", "0", "nan", "[ 3.000]", "[ 3.000]"]].map (·.map String.toList), none) ∧
    csvExampleResult.lines csvExampleText "MASE".toList ⟨0, 1⟩ =
      .ok (["Point: Point(x=41, y=51) (cluster 0)", "Forecast:            [ 3.000]", "Test:                [ 3.000]",
        "Error (MASE): nan"].map String.toList) := by
  refine ⟨?_, ?_, ?_⟩ <;> decide +kernel

/-- Fields that need quotes, empty fields and rows of one empty field or of none. -/
example : csvWrite [["a b", "|", "c\r\nd", ""].map String.toList, [[]], [], [[], []]] =
      "|a b| |||| |c\r\nd| \r\n||\r\n\r\n \r\n".toList ∧
    csvReadText "|a b| |||| |c\r\nd| \r\n||\r\n\r\n \r\n".toList =
      ([["a b", "|", "c\r\nd", ""].map String.toList, [[]], [], [[], []]], none) := by
  refine ⟨?_, ?_⟩ <;> decide +kernel

end

end Spta
