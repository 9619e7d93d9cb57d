import Verif.Lemmas.Dataset
import Verif.Model.SolverFiles
import Verif.Props.Clustering

/-!
# Lemmas about the names of the files of solvers
-/

namespace Spta

/-! ### Numbers followed by something else -/

theorem digits_delim {a b r r' : Str} {c c' : Char} (ha : ∀ x ∈ a, (digitVal x).isSome)
    (hb : ∀ x ∈ b, (digitVal x).isSome) (hc : digitVal c = none) (hc' : digitVal c' = none)
    (h : a ++ c :: r = b ++ c' :: r') : a = b ∧ c :: r = c' :: r' := by
  have key : ∀ (a r : Str) (c : Char), (∀ x ∈ a, (digitVal x).isSome) → digitVal c = none →
      (a ++ c :: r).takeWhile (fun x => (digitVal x).isSome) = a := by
    intro a r c ha hc
    rw [List.takeWhile_append_of_pos ha, List.takeWhile_cons_of_neg (by simp [hc]), List.append_nil]
  have e : a = b := by rw [← key a r c ha hc, h, key b r' c' hb hc']
  subst e
  exact ⟨rfl, List.append_cancel_left h⟩

theorem natStr_digits {n : Nat} : ∀ x ∈ natStr n, (digitVal x).isSome := by
  intro x hx
  obtain ⟨d, hd, rfl⟩ := mem_natStr hx
  rw [digitChar_val hd]; rfl

theorem natStr_delim {a b : Nat} {r r' : Str} {c c' : Char} (hc : digitVal c = none)
    (hc' : digitVal c' = none) (h : natStr a ++ c :: r = natStr b ++ c' :: r') :
    a = b ∧ c :: r = c' :: r' := by
  obtain ⟨h1, h2⟩ := digits_delim natStr_digits natStr_digits hc hc' h
  exact ⟨natStr_inj h1, h2⟩

theorem natStr_head (n : Nat) : ∃ d cs, d < 10 ∧ natStr n = digitChar d :: cs := by
  cases h : natStr n with
  | nil => exact absurd h (natStr_ne_nil n)
  | cons c cs =>
    obtain ⟨d, hd, e⟩ := mem_natStr (n := n) (c := c) (by rw [h]; exact List.mem_cons_self ..)
    exact ⟨d, cs, hd, by rw [e]⟩

theorem intStr_delim {a b : Int} {r r' : Str} {c c' : Char} (hc : digitVal c = none)
    (hc' : digitVal c' = none) (h : intStr a ++ c :: r = intStr b ++ c' :: r') :
    a = b ∧ c :: r = c' :: r' := by
  have hd : ∀ d < 10, digitChar d ≠ '-' := fun d hd => (digitChar_ne hd).2.1
  cases a with
  | ofNat n =>
    cases b with
    | ofNat n' =>
      obtain ⟨e1, e2⟩ := natStr_delim hc hc' h
      exact ⟨by rw [e1], e2⟩
    | negSucc n' =>
      obtain ⟨d, cs, hd', e⟩ := natStr_head n
      rw [show intStr (.ofNat n) = natStr n from rfl, e] at h
      simp only [intStr, List.cons_append, List.cons.injEq] at h
      exact absurd h.1 (hd d hd')
  | negSucc n =>
    cases b with
    | ofNat n' =>
      obtain ⟨d, cs, hd', e⟩ := natStr_head n'
      rw [show intStr (.ofNat n') = natStr n' from rfl, e] at h
      simp only [intStr, List.cons_append, List.cons.injEq] at h
      exact absurd h.1.symm (hd d hd')
    | negSucc n' =>
      simp only [intStr, List.cons_append, List.cons.injEq, true_and] at h
      obtain ⟨e1, e2⟩ := natStr_delim hc hc' h
      refine ⟨?_, e2⟩
      rw [Nat.succ_inj.1 e1]

theorem optIntStr_delim {a b : Option Int} {r r' : Str}
    (h : optIntStr a ++ '-' :: r = optIntStr b ++ '-' :: r') : a = b ∧ r = r' := by
  have hN : ∀ (i : Int) (r : Str), (intStr i ++ '-' :: r).head? ≠ some 'N' := by
    intro i r e
    have hm : 'N' ∈ intStr i := by
      cases hi : intStr i with
      | nil => exact absurd hi (intStr_ne_nil i)
      | cons c cs =>
        rw [hi] at e
        simp only [List.cons_append, List.head?_cons, Option.some.injEq] at e
        rw [e]; exact List.mem_cons_self ..
    exact intStr_not_mem (by decide) (digit_ne (by decide)) hm
  cases a with
  | none =>
    cases b with
    | none => exact ⟨rfl, by simpa [optIntStr] using h⟩
    | some j => exact absurd (by rw [← show _ = intStr j ++ '-' :: r' from h]; rfl) (hN j r')
  | some i =>
    cases b with
    | none => exact absurd (by rw [show intStr i ++ '-' :: r = _ from h]; rfl) (hN i r)
    | some j =>
      obtain ⟨e1, e2⟩ := intStr_delim (by decide) (by decide) h
      exact ⟨by rw [e1], by simpa using e2⟩

/-! ### Model parameters -/

theorem repr_autoArima (sp sq mp mq : Int) (d : Option Int) (sw : Bool) :
    (ModelParams.autoArima sp sq mp mq d sw).repr =
      "auto-arima-start_p".toList ++ (intStr sp ++ ("-start_q".toList ++ (intStr sq ++ ("-max_p".toList ++
        (intStr mp ++ ("-max_q".toList ++ (intStr mq ++ ("-d".toList ++ (optIntStr d ++
          ("-stepwise".toList ++ boolStr sw)))))))))) := rfl

theorem repr_pdq (p d q : Int) : (ModelParams.pdq p d q).repr =
    "ArimaPDQ(p=".toList ++ (intStr p ++ (", d=".toList ++ (intStr d ++ (", q=".toList ++
      (intStr q ++ [')']))))) := rfl

theorem repr_knn (k : Int) (d : DistKind) :
    (ModelParams.knn k d).repr = "knn-k".toList ++ (intStr k ++ "-dtw".toList) := rfl

theorem repr_mean (n : Int) : (ModelParams.mean n).repr = "mean-past".toList ++ intStr n := rfl

/-- The same parameters, up to the distance of k nearest neighbours. -/
def SameParams : ModelParams → ModelParams → Prop
  | .knn k _, .knn k' _ => k = k'
  | p, p' => p = p'

theorem ModelParams.repr_inj {p p' : ModelParams} (h : p.repr = p'.repr) : SameParams p p' := by
  cases p with
  | autoArima sp sq mp mq d sw =>
    cases p' with
    | autoArima sp' sq' mp' mq' d' sw' =>
      simp [repr_autoArima, repr_pdq, repr_knn, repr_mean] at h
      obtain ⟨e1, h⟩ := intStr_delim (by decide) (by decide) h
      simp at h
      obtain ⟨e2, h⟩ := intStr_delim (by decide) (by decide) h
      simp at h
      obtain ⟨e3, h⟩ := intStr_delim (by decide) (by decide) h
      simp at h
      obtain ⟨e4, h⟩ := intStr_delim (by decide) (by decide) h
      simp at h
      obtain ⟨e5, h⟩ := optIntStr_delim h
      simp at h
      have e6 : sw = sw' := by
        revert h; cases sw <;> cases sw' <;> decide
      show ModelParams.autoArima .. = ModelParams.autoArima ..
      rw [e1, e2, e3, e4, e5, e6]
    | pdq => simp [repr_autoArima, repr_pdq, repr_knn, repr_mean] at h
    | knn => simp [repr_autoArima, repr_pdq, repr_knn, repr_mean] at h
    | mean => simp [repr_autoArima, repr_pdq, repr_knn, repr_mean] at h
  | pdq a d q =>
    cases p' with
    | autoArima => simp [repr_autoArima, repr_pdq, repr_knn, repr_mean] at h
    | pdq a' d' q' =>
      simp [repr_autoArima, repr_pdq, repr_knn, repr_mean] at h
      obtain ⟨e1, h⟩ := intStr_delim (by decide) (by decide) h
      simp at h
      obtain ⟨e2, h⟩ := intStr_delim (by decide) (by decide) h
      simp at h
      have e3 := intStr_inj h
      show ModelParams.pdq .. = ModelParams.pdq ..
      rw [e1, e2, e3]
    | knn => simp [repr_autoArima, repr_pdq, repr_knn, repr_mean] at h
    | mean => simp [repr_autoArima, repr_pdq, repr_knn, repr_mean] at h
  | knn k d =>
    cases p' with
    | autoArima => simp [repr_autoArima, repr_pdq, repr_knn, repr_mean] at h
    | pdq => simp [repr_autoArima, repr_pdq, repr_knn, repr_mean] at h
    | knn k' d' =>
      simp [repr_autoArima, repr_pdq, repr_knn, repr_mean] at h
      exact intStr_inj h
    | mean => simp [repr_autoArima, repr_pdq, repr_knn, repr_mean] at h
  | mean n =>
    cases p' with
    | autoArima => simp [repr_autoArima, repr_pdq, repr_knn, repr_mean] at h
    | pdq => simp [repr_autoArima, repr_pdq, repr_knn, repr_mean] at h
    | knn => simp [repr_autoArima, repr_pdq, repr_knn, repr_mean] at h
    | mean n' =>
      simp [repr_autoArima, repr_pdq, repr_knn, repr_mean] at h
      show ModelParams.mean n = ModelParams.mean n'
      rw [intStr_inj h]

theorem SameParams.repr {p p' : ModelParams} (h : SameParams p p') : p.repr = p'.repr := by
  cases p <;> cases p' <;> first
    | (simp only [SameParams] at h; rw [repr_knn, repr_knn, h]; done)
    | (have h' : _ = _ := h; rw [h'])

theorem sameParams_iff {p p' : ModelParams} : p.repr = p'.repr ↔ SameParams p p' :=
  ⟨ModelParams.repr_inj, SameParams.repr⟩

theorem boolStr_plain (b : Bool) : '_' ∉ boolStr b ∧ '/' ∉ boolStr b := by cases b <;> decide

theorem optIntStr_plain (d : Option Int) : '_' ∉ optIntStr d ∧ '/' ∉ optIntStr d := by
  cases d with
  | none => exact ⟨by decide, by decide⟩
  | some i => exact ⟨intStr_no_underscore i, intStr_no_slash i⟩

theorem ModelParams.repr_good (p : ModelParams) : '/' ∉ p.repr ∧ p.repr ≠ [] := by
  have hi := intStr_no_slash
  have hb := fun b => (boolStr_plain b).2
  have ho := fun b => (optIntStr_plain b).2
  cases p <;> simp [repr_autoArima, repr_pdq, repr_knn, repr_mean, hi, hb, ho]

/-! ### Strings cut at a double underscore -/

/-- No part between underscores is empty, except possibly the first. -/
def NoDouble (s : Str) : Prop := [] ∉ (pySplit '_' s).tail

theorem NoDouble.of_not_mem {s : Str} (h : '_' ∉ s) : NoDouble s := by
  rw [NoDouble, pySplit_of_not_mem h]; simp

theorem NoDouble.cut {s s' r r' : Str} (h : NoDouble s) (h' : NoDouble s')
    (e : s ++ (sep2 ++ r) = s' ++ (sep2 ++ r')) : s = s' ∧ r = r' := by
  have key : ∀ {s s' r r' t : Str}, NoDouble s' → s' = s ++ t → sep2 ++ r = t ++ (sep2 ++ r') →
      t = [] := by
    intro s s' r r' t h' e1 e2
    cases t with
    | nil => rfl
    | cons c t =>
      exfalso
      simp only [sep2, List.cons_append, List.nil_append, List.cons.injEq] at e2
      obtain ⟨rfl, e2⟩ := e2
      have hs : pySplit '_' s' = pySplit '_' s ++ pySplit '_' t := by rw [e1, pySplit_append]
      have hmem : [] ∈ pySplit '_' t := by
        cases t with
        | nil => simp [pySplit]
        | cons c t =>
          simp only [List.cons_append, List.cons.injEq] at e2
          rw [← e2.1]; simp [pySplit]
      apply h'
      rw [hs]
      cases hp : pySplit '_' s with
      | nil => exact absurd hp (pySplit_ne_nil _ _)
      | cons w ws => simp [hmem]
  rcases List.append_eq_append_iff.1 e with ⟨t, h1, h2⟩ | ⟨t, h1, h2⟩
  · have ht := key h' h1 h2
    subst ht
    simp only [List.append_nil, List.nil_append, List.append_cancel_left_eq] at h1 h2
    exact ⟨h1.symm, h2⟩
  · have ht := key h h1 h2
    subst ht
    simp only [List.append_nil, List.nil_append, List.append_cancel_left_eq] at h1 h2
    exact ⟨h1, h2.symm⟩

theorem ModelParams.noDouble (p : ModelParams) : NoDouble p.repr := by
  have hi := intStr_no_underscore
  have hb := fun b => (boolStr_plain b).1
  have ho := fun b => (optIntStr_plain b).1
  cases p with
  | autoArima sp sq mp mq d sw =>
    have e : (ModelParams.autoArima sp sq mp mq d sw).repr =
        "auto-arima-start".toList ++ '_' :: (('p' :: (intStr sp ++ "-start".toList)) ++ '_' ::
          (('q' :: (intStr sq ++ "-max".toList)) ++ '_' :: (('p' :: (intStr mp ++ "-max".toList)) ++ '_' ::
            ('q' :: (intStr mq ++ ("-d".toList ++ (optIntStr d ++ ("-stepwise".toList ++ boolStr sw)))))))) := by
      simp [repr_autoArima, repr_pdq, repr_knn, repr_mean]
    rw [NoDouble, e, pySplit_append, pySplit_append, pySplit_append, pySplit_append]
    rw [pySplit_of_not_mem (by decide), pySplit_of_not_mem (by simp [hi]),
      pySplit_of_not_mem (by simp [hi]), pySplit_of_not_mem (by simp [hi]),
      pySplit_of_not_mem (by simp [hi, hb, ho])]
    simp
  | pdq => exact NoDouble.of_not_mem (by simp [repr_autoArima, repr_pdq, repr_knn, repr_mean, hi])
  | knn => exact NoDouble.of_not_mem (by simp [repr_autoArima, repr_pdq, repr_knn, repr_mean, hi])
  | mean => exact NoDouble.of_not_mem (by simp [repr_autoArima, repr_pdq, repr_knn, repr_mean, hi])

theorem natStr_plain (n : Nat) : '_' ∉ natStr n ∧ '/' ∉ natStr n ∧ '-' ∉ natStr n :=
  ⟨natStr_not_mem (digit_ne (by decide)), natStr_not_mem (digit_ne (by decide)),
    natStr_not_mem (digit_ne (by decide))⟩

/-! ### Directories -/

theorem sameSettings_iff {md md' : RegionMeta} {c c' : ClusterMeta} (h : GoodNames md c)
    (h' : GoodNames md' c') : (md.repr = md'.repr ∧ c.repr = c'.repr) ↔ SameSettings md md' c c' := by
  constructor
  · rintro ⟨h1, h2⟩
    refine (C38_path (d := .dtw) (d' := .dtw) h h').1 ?_
    simp only [picklePath, h1, h2]
  · rintro ⟨f1, f2, f3, f4, f5, f6⟩
    refine ⟨by simp only [RegionMeta.repr, f1, f2, f3, f4, f5], ?_⟩
    cases c with
    | regular k =>
      cases c' with
      | regular k' => rw [show k = k' from f6]
      | kmedoids m' => exact f6.elim
    | kmedoids m =>
      cases c' with
      | regular k' => exact f6.elim
      | kmedoids m' =>
        obtain ⟨g1, g2, g3, g4⟩ := f6
        simp only [ClusterMeta.repr, KmMeta.repr, g1, g2, g3, g4]

/-- A relative or absolute directory name. -/
def DirName (s : Str) : Prop := s ≠ [] ∧ s.getLast? ≠ some '/'

/-- A file name. -/
def FileName (s : Str) : Prop := s ≠ [] ∧ '/' ∉ s

theorem osJoin_file {a b : Str} (ha : DirName a) (hb : FileName b) : osJoin a b = a ++ '/' :: b :=
  osJoin_eq hb.1 hb.2 ha.1 ha.2

theorem DirName.join {a b : Str} (hb : DirName b) : DirName (a ++ '/' :: b) := by
  refine ⟨by simp, ?_⟩
  have : a ++ '/' :: b = (a ++ ['/']) ++ b := by simp
  rw [this, List.getLast?_append]
  cases hl : b.getLast? with
  | none => rw [List.getLast?_eq_none_iff] at hl; exact absurd hl hb.1
  | some c =>
    have := hb.2
    rw [hl] at this
    simpa using this

theorem FileName.dir {s : Str} (h : FileName s) : DirName s := by
  have := getLast?_ne (a := []) h.1 h.2
  exact ⟨h.1, by simpa using this⟩

/-- Directory of a region, distance and clustering below another one. -/
theorem subdir_eq {home : Str} (hh : DirName home) {md : RegionMeta} (dist : DistKind) {c : ClusterMeta}
    (h : GoodNames md c) : osJoin (osJoin home md.repr) (osJoin dist.repr c.repr) =
      ((home ++ '/' :: md.repr) ++ '/' :: dist.repr) ++ '/' :: c.repr := by
  have hm : FileName md.repr := ⟨(RegionMeta.repr_good h.name).2, (RegionMeta.repr_good h.name).1⟩
  have hc : FileName c.repr := ⟨h.repr.2, h.repr.1⟩
  have hd : FileName dist.repr := by cases dist <;> exact ⟨by simp [DistKind.repr], by simp [DistKind.repr]⟩
  have hj : DirName (home ++ '/' :: md.repr) := hm.dir.join
  rw [osJoin_file hh hm, osJoin_file hd.dir hc]
  unfold osJoin
  split
  · rename_i cs e
    simp [DistKind.repr] at e
  · rw [if_neg (by rintro (e | e); exacts [hj.1 e, hj.2 e])]
    simp

theorem subdir_inj {home : Str} (hh : DirName home) {md md' : RegionMeta} {dist dist' : DistKind}
    {c c' : ClusterMeta} (h : GoodNames md c) (h' : GoodNames md' c') :
    osJoin (osJoin home md.repr) (osJoin dist.repr c.repr) =
      osJoin (osJoin home md'.repr) (osJoin dist'.repr c'.repr) ↔ SameSettings md md' c c' := by
  rw [← sameSettings_iff h h', subdir_eq hh dist h, subdir_eq hh dist' h']
  constructor
  · intro e
    obtain ⟨e1, e2⟩ := append_slash_inj h.repr.1 h'.repr.1 e
    obtain ⟨e3, _⟩ := append_slash_inj (by simp [DistKind.repr]) (by simp [DistKind.repr]) e1
    obtain ⟨_, e4⟩ := append_slash_inj (RegionMeta.repr_good h.name).1 (RegionMeta.repr_good h'.name).1 e3
    exact ⟨e4, e2⟩
  · rintro ⟨e1, e2⟩
    rw [e1, e2]
    simp [DistKind.repr]

theorem subdir_dir {home : Str} (hh : DirName home) {md : RegionMeta} (dist : DistKind) {c : ClusterMeta}
    (h : GoodNames md c) : DirName (osJoin (osJoin home md.repr) (osJoin dist.repr c.repr)) := by
  rw [subdir_eq hh dist h]
  exact DirName.join (FileName.dir ⟨h.repr.2, h.repr.1⟩)

end Spta
