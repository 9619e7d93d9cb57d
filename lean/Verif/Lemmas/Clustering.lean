import Mathlib.Data.List.Basic
import Verif.Model.Clustering
import Verif.Lemmas.Strings
import Verif.Lemmas.Except

/-!
# Lemmas about representations and paths
-/

namespace Spta

theorem digit_ne {c : Char} (h : digitVal c = none) : ∀ d < 10, c ≠ digitChar d := by
  intro d hd e
  rw [e, digitChar_val hd] at h
  cases h

theorem intStr_no_underscore (i : Int) : '_' ∉ intStr i :=
  intStr_not_mem (by decide) (digit_ne (by decide))

theorem intStr_no_slash (i : Int) : '/' ∉ intStr i :=
  intStr_not_mem (by decide) (digit_ne (by decide))

/-- The parts of a k-medoids representation. -/
theorem KmMeta.parts {m : KmMeta} (hm : '_' ∉ m.mode) :
    pySplit '_' m.repr = [sKmedoids, 'k' :: intStr m.k, sSeed ++ intStr m.seed, m.mode] ++
      (match m.initial with
       | none => []
       | some im => [['i', 'm'] ++ pyJoin ['-'] (im.map intStr)]) := by
  have h1 : '_' ∉ sKmedoids := by decide
  have h2 : '_' ∉ 'k' :: intStr m.k := by
    have := intStr_no_underscore m.k
    simp [this]
  have h3 : '_' ∉ sSeed ++ intStr m.seed := by
    have := intStr_no_underscore m.seed
    rw [List.mem_append, not_or]
    exact ⟨by decide, this⟩
  cases him : m.initial with
  | none =>
    have e : m.repr = sKmedoids ++ '_' :: (('k' :: intStr m.k) ++ '_' :: ((sSeed ++ intStr m.seed) ++
        '_' :: m.mode)) := by simp [KmMeta.repr, him]
    rw [e, pySplit_append, pySplit_append, pySplit_append, pySplit_of_not_mem h1,
      pySplit_of_not_mem h2, pySplit_of_not_mem h3, pySplit_of_not_mem hm]
    rfl
  | some im =>
    have h4 : '_' ∉ ['i', 'm'] ++ pyJoin ['-'] (im.map intStr) := by
      rw [List.mem_append, not_or]
      refine ⟨by decide, ?_⟩
      clear him
      induction im with
      | nil => simp [pyJoin]
      | cons i is ih =>
        cases is with
        | nil => exact intStr_no_underscore i
        | cons j js =>
          simp only [List.map_cons, pyJoin, List.append_assoc, List.mem_append, not_or] at ih ⊢
          exact ⟨intStr_no_underscore i, by decide, ih⟩
    have e : m.repr = sKmedoids ++ '_' :: (('k' :: intStr m.k) ++ '_' :: ((sSeed ++ intStr m.seed) ++
        '_' :: (m.mode ++ '_' :: (['i', 'm'] ++ pyJoin ['-'] (im.map intStr))))) := by
      simp [KmMeta.repr, him]
    rw [e, pySplit_append, pySplit_append, pySplit_append, pySplit_append, pySplit_of_not_mem h1,
      pySplit_of_not_mem h2, pySplit_of_not_mem h3, pySplit_of_not_mem hm, pySplit_of_not_mem h4]
    rfl

theorem regular_parts (k : Int) :
    pySplit '_' (ClusterMeta.regular k).repr = [sRegular, 'k' :: intStr k] := by
  have h1 : '_' ∉ sRegular := by decide
  have h2 : '_' ∉ 'k' :: intStr k := by
    have := intStr_no_underscore k
    simp [this]
  have e : (ClusterMeta.regular k).repr = sRegular ++ '_' :: ('k' :: intStr k) := by
    simp [ClusterMeta.repr]
  rw [e, pySplit_append, pySplit_of_not_mem h1, pySplit_of_not_mem h2]
  rfl

/-- Initial medoids are indices of points: naturals. -/
def KmMeta.NatInitial (m : KmMeta) : Prop := ∀ im, m.initial = some im → ∀ i ∈ im, 0 ≤ i

theorem joinInts_inj {a b : List Int} (ha : ∀ i ∈ a, 0 ≤ i) (hb : ∀ i ∈ b, 0 ≤ i)
    (h : pyJoin ['-'] (a.map intStr) = pyJoin ['-'] (b.map intStr)) : a = b := by
  have hno : ∀ l : List Int, (∀ i ∈ l, 0 ≤ i) → ∀ w ∈ l.map intStr, '-' ∉ w := by
    intro l hl w hw
    obtain ⟨i, hi, rfl⟩ := List.mem_map.1 hw
    obtain ⟨n, rfl⟩ := Int.eq_ofNat_of_zero_le (hl i hi)
    exact natStr_not_mem (digit_ne (by decide))
  have hsplit : ∀ l : List Int, (∀ i ∈ l, 0 ≤ i) → l ≠ [] →
      pySplit '-' (pyJoin ['-'] (l.map intStr)) = l.map intStr := fun l hl hn =>
    pySplit_pyJoin (by simpa using hn) (hno l hl)
  have hnil : ∀ l : List Int, (∀ i ∈ l, 0 ≤ i) → l ≠ [] →
      pyJoin ['-'] (l.map intStr) ≠ pyJoin ['-'] (([] : List Int).map intStr) := by
    intro l hl hn e
    have h1 := hsplit l hl hn
    rw [e] at h1
    cases l with
    | nil => exact hn rfl
    | cons i is =>
      simp only [List.map_nil, pyJoin, pySplit, List.map_cons, List.cons.injEq] at h1
      exact intStr_ne_nil i h1.1.symm
  by_cases hna : a = []
  · by_cases hnb : b = []
    · rw [hna, hnb]
    · subst hna; exact absurd h.symm (hnil b hb hnb)
  · by_cases hnb : b = []
    · subst hnb; exact absurd h (hnil a ha hna)
    · have := hsplit a ha hna
      rw [h, hsplit b hb hnb] at this
      exact (List.map_injective_iff.2 (fun _ _ => intStr_inj) this).symm

/-- The representation determines k, seed, mode and initial medoids. -/
theorem KmMeta.repr_inj {m m' : KmMeta} (hm : '_' ∉ m.mode) (hm' : '_' ∉ m'.mode)
    (hi : m.NatInitial) (hi' : m'.NatInitial) (h : m.repr = m'.repr) :
    m.k = m'.k ∧ m.seed = m'.seed ∧ m.mode = m'.mode ∧ m.initial = m'.initial := by
  have h1 := KmMeta.parts hm
  rw [h, KmMeta.parts hm'] at h1
  simp only [List.cons_append, List.cons.injEq, true_and, List.nil_append,
    List.append_cancel_left_eq] at h1
  obtain ⟨hk, hs, hmo, him⟩ := h1
  refine ⟨(intStr_inj hk).symm, (intStr_inj hs).symm, hmo.symm, ?_⟩
  cases e : m.initial with
  | none =>
    cases e' : m'.initial with
    | none => rfl
    | some b => rw [e, e'] at him; cases him
  | some a =>
    cases e' : m'.initial with
    | none => rw [e, e'] at him; cases him
    | some b =>
      rw [e, e'] at him
      simp only [List.cons.injEq, true_and, and_true] at him
      rw [joinInts_inj (hi a e) (hi' b e') him.symm]

theorem RegionMeta.parts (m : RegionMeta) :
    pySplit '_' m.repr = pySplit '_' m.name ++ [intStr m.yearStart, intStr m.yearEnd,
      intStr m.spd ++ ['s', 'p', 'd']] ++ (if m.scaled then [sScaled] else []) := by
  have h3 : '_' ∉ intStr m.spd ++ ['s', 'p', 'd'] := by
    rw [List.mem_append, not_or]
    exact ⟨intStr_no_underscore _, by decide⟩
  have h4 : '_' ∉ sScaled := by decide
  cases hs : m.scaled with
  | false =>
    have e : m.repr = m.name ++ '_' :: (intStr m.yearStart ++ '_' :: (intStr m.yearEnd ++ '_' ::
        (intStr m.spd ++ ['s', 'p', 'd']))) := by simp [RegionMeta.repr, hs]
    rw [e, pySplit_append, pySplit_append, pySplit_append, pySplit_of_not_mem h3,
      pySplit_of_not_mem (intStr_no_underscore _), pySplit_of_not_mem (intStr_no_underscore _)]
    simp
  | true =>
    have e : m.repr = m.name ++ '_' :: (intStr m.yearStart ++ '_' :: (intStr m.yearEnd ++ '_' ::
        ((intStr m.spd ++ ['s', 'p', 'd']) ++ '_' :: sScaled))) := by simp [RegionMeta.repr, hs]
    rw [e, pySplit_append, pySplit_append, pySplit_append, pySplit_append, pySplit_of_not_mem h3,
      pySplit_of_not_mem h4,
      pySplit_of_not_mem (intStr_no_underscore _), pySplit_of_not_mem (intStr_no_underscore _)]
    simp

/-- The representation of a region metadata determines everything except the rectangle. -/
theorem RegionMeta.repr_inj {m m' : RegionMeta} (h : m.repr = m'.repr) :
    m.name = m'.name ∧ m.yearStart = m'.yearStart ∧ m.yearEnd = m'.yearEnd ∧ m.spd = m'.spd ∧
      m.scaled = m'.scaled := by
  have h1 := RegionMeta.parts m
  rw [h, RegionMeta.parts m'] at h1
  have hlast : ∀ (l : List Str) (a b c : Str), (l ++ [a, b, c]).getLast? = some c := by
    intro l a b c; simp
  have hspd : ∀ i : Int, intStr i ++ ['s', 'p', 'd'] ≠ sScaled := by
    intro i e
    have e' : intStr i ++ ['s', 'p', 'd'] = ['s', 'c', 'a'] ++ ['l', 'e', 'd'] := e
    have := (List.append_inj' e' rfl).2
    revert this; decide
  have key : ∀ {l l' : List Str} {a b c a' b' c' : Str}, l ++ [a, b, c] = l' ++ [a', b', c'] →
      l = l' ∧ a = a' ∧ b = b' ∧ c = c' := by
    intro l l' a b c a' b' c' e
    obtain ⟨e1, e2⟩ := List.append_inj' e rfl
    simp only [List.cons.injEq, and_true] at e2
    exact ⟨e1, e2⟩
  have hfin : m.scaled = m'.scaled := by
    cases hs : m.scaled with
    | false =>
      cases hs' : m'.scaled with
      | false => rfl
      | true =>
        rw [hs, hs'] at h1
        have := congrArg List.getLast? h1
        simp only [if_true, Bool.false_eq_true, if_false, List.append_nil, hlast,
          List.getLast?_append, List.getLast?_singleton, Option.some_or, Option.some.injEq] at this
        exact absurd this.symm (hspd _)
    | true =>
      cases hs' : m'.scaled with
      | true => rfl
      | false =>
        rw [hs, hs'] at h1
        have := congrArg List.getLast? h1
        simp only [if_true, Bool.false_eq_true, if_false, List.append_nil, hlast,
          List.getLast?_append, List.getLast?_singleton, Option.some_or, Option.some.injEq] at this
        exact absurd this (hspd _)
  rw [hfin] at h1
  have h2 := List.append_cancel_right h1
  obtain ⟨e1, e2, e3, e4⟩ := key h2
  have e5 := List.append_cancel_right e4
  exact ⟨(pySplit_inj e1).symm, (intStr_inj e2).symm, (intStr_inj e3).symm, (intStr_inj e5).symm,
    hfin⟩

/-! ### Paths -/

theorem osJoin_eq {a b : Str} (hb : b ≠ []) (hb' : '/' ∉ b) (ha : a ≠ []) (ha' : a.getLast? ≠ some '/') :
    osJoin a b = a ++ '/' :: b := by
  unfold osJoin
  split
  · simp at hb'
  · rw [if_neg]; rintro (h | h)
    · exact ha h
    · exact ha' h

theorem getLast?_ne {a b : Str} (hb : b ≠ []) (hb' : '/' ∉ b) : (a ++ b).getLast? ≠ some '/' := by
  intro h
  rw [List.getLast?_append] at h
  cases hl : b.getLast? with
  | none => rw [List.getLast?_eq_none_iff] at hl; exact hb hl
  | some c =>
    rw [hl] at h
    simp only [Option.some_or, Option.some.injEq] at h
    exact hb' (h ▸ List.mem_of_getLast? hl)

end Spta
