import Verif.Lemmas.Region
import Verif.Spec.Iterators

/-!
# Property C149: several iterations at once

The theorems hold for all programs that create regions, decorate them and iterate over them in any order.
-/

namespace Spta

variable {α : Type}

/-! ### Lists of points -/

theorem add_one_mod_of_lt {n l : Nat} (h : n % (l + 1) < l) : (n + 1) % (l + 1) = n % (l + 1) + 1 := by
  rw [Nat.add_mod, Nat.mod_eq_of_lt (show n % (l + 1) + 1 % (l + 1) < l + 1 by
    rcases Nat.eq_zero_or_pos l with rfl | hl
    · omega
    · rw [Nat.mod_eq_of_lt (show 1 < l + 1 by omega)]; omega)]
  rcases Nat.eq_zero_or_pos l with rfl | hl
  · omega
  · rw [Nat.mod_eq_of_lt (show 1 < l + 1 by omega)]

theorem add_one_mod_of_eq {n l : Nat} (h : n % (l + 1) = l) : (n + 1) % (l + 1) = 0 := by
  have := Nat.div_add_mod n (l + 1)
  rw [h] at this
  have e : n + 1 = (l + 1) * (n / (l + 1) + 1) := by rw [Nat.mul_add]; omega
  rw [e]
  exact Nat.mul_mod_right _ _

/-- The end of the list is reached. -/
theorem turn_end {ps : List Point} {q : Point → Bool} {c n : Nat}
    (hc : ((ps.take c).filter q).length = n % ((ps.filter q).length + 1)) (h : ∀ p ∈ ps.drop c, q p = false) :
    (ps.filter q)[n % ((ps.filter q).length + 1)]? = none ∧ (n + 1) % ((ps.filter q).length + 1) = 0 := by
  have ed : (ps.drop c).filter q = [] :=
    List.filter_eq_nil_iff.2 fun p hp => by rw [h p hp]; exact Bool.false_ne_true
  have e : (ps.take c).filter q = ps.filter q := by
    conv_rhs => rw [← List.take_append_drop c ps, List.filter_append, ed, List.append_nil]
  rw [e] at hc
  exact ⟨by rw [← hc]; simp, add_one_mod_of_eq hc.symm⟩

/-- The next point with the property. -/
theorem turn_step {ps l1 l2 : List Point} {p : Point} {q : Point → Bool} {c n : Nat}
    (hc : ((ps.take c).filter q).length = n % ((ps.filter q).length + 1)) (hd : ps.drop c = l1 ++ p :: l2)
    (h1 : ∀ a ∈ l1, q a = false) (hp : q p = true) :
    (ps.filter q)[n % ((ps.filter q).length + 1)]? = some p ∧
      ((ps.take (c + l1.length + 1)).filter q).length = (n + 1) % ((ps.filter q).length + 1) ∧
      c + l1.length + 1 ≤ ps.length := by
  have hlen := congrArg List.length hd
  rw [List.length_drop, List.length_append, List.length_cons] at hlen
  have hl1 : l1.filter q = [] := List.filter_eq_nil_iff.2 fun a ha => by rw [h1 a ha]; exact Bool.false_ne_true
  have e : ps.filter q = (ps.take c).filter q ++ p :: l2.filter q := by
    conv_lhs => rw [← List.take_append_drop c ps, hd, List.filter_append, List.filter_append, hl1]
    simp [List.filter_cons, hp]
  have et : (ps.take (c + l1.length + 1)).filter q = (ps.take c).filter q ++ [p] := by
    have : ps.take (c + l1.length + 1) = ps.take c ++ (l1 ++ [p]) := by
      rw [show c + l1.length + 1 = c + (l1.length + 1) by omega, List.take_add, hd]
      congr 1
      rw [show l1 ++ p :: l2 = (l1 ++ [p]) ++ l2 by simp]
      rw [List.take_left' (by simp)]
    rw [this, List.filter_append, List.filter_append, hl1]
    simp [List.filter_cons, hp]
  have hlt : n % ((ps.filter q).length + 1) < (ps.filter q).length := by
    rw [← hc]
    conv_rhs => rw [e]
    simp
  refine ⟨?_, ?_, by omega⟩
  · rw [← hc, e, List.getElem?_append_right (Nat.le_refl _)]
    simp
  · rw [et, List.length_append, hc, add_one_mod_of_lt hlt]
    rfl

/-! ### Objects and regions -/

/-- An object behaves as a region of its kind after `n` calls. -/
def ObjOk (o : IterObj α) (ks : List (IterKind α)) (n : Nat) : Prop :=
  ∃ g, bottomOf (o.kind :: ks) ks.length = some g ∧ g.WF ∧ o.xLen = g.xLen ∧ o.yLen = g.yLen ∧
    (∀ l ∈ layersOf (o.kind :: ks) ks.length, l.1.labels.WF ∧ l.1.labels.xLen = g.xLen ∧ l.1.labels.yLen = g.yLen) ∧
    (ownerOf (o.kind :: ks) ks.length = ks.length → o.cursor ≤ g.xLen * g.yLen ∧
      (((rowMajor g.xLen g.yLen).take o.cursor).filter fun p =>
        decide (InsideAll ((layersOf (o.kind :: ks) ks.length).take 1) p)).length =
      n % (((rowMajor g.xLen g.yLen).filter fun p =>
        decide (InsideAll ((layersOf (o.kind :: ks) ks.length).take 1) p)).length + 1))

/-- The same for all objects of a program. -/
def IterRel : List (IterObj α) → List (IterKind α) → (Nat → Nat) → Prop
  | [], [], _ => True
  | o :: h, k :: ks, f => o.kind = k ∧ ObjOk o ks (f ks.length) ∧ IterRel h ks f
  | [], _ :: _, _ => False
  | _ :: _, [], _ => False

theorem IterRel.length {h : List (IterObj α)} {ks : List (IterKind α)} {f : Nat → Nat} (r : IterRel h ks f) :
    h.length = ks.length := by
  induction h generalizing ks with
  | nil => cases ks with
    | nil => rfl
    | cons => exact r.elim
  | cons o h ih => cases ks with
    | nil => exact r.elim
    | cons k ks => rw [List.length_cons, List.length_cons, ih r.2.2]

theorem IterRel.update {h : List (IterObj α)} {ks : List (IterKind α)} {f : Nat → Nat} (r : IterRel h ks f) {i n : Nat}
    (hi : ks.length ≤ i) : IterRel h ks (Function.update f i n) := by
  induction h generalizing ks with
  | nil => cases ks with
    | nil => trivial
    | cons => exact r.elim
  | cons o h ih => cases ks with
    | nil => exact r.elim
    | cons k ks =>
      rw [List.length_cons] at hi
      refine ⟨r.1, ?_, ih r.2.2 (by omega)⟩
      rw [Function.update_of_ne (by omega)]
      exact r.2.1

theorem bottomOf_lt {ks : List (IterKind α)} {i : Nat} {g : Grid α} (h : bottomOf ks i = some g) : i < ks.length := by
  induction ks with
  | nil => cases h
  | cons k ks ih =>
    rw [List.length_cons]
    unfold bottomOf at h
    split_ifs at h with hi
    · omega
    · exact Nat.lt_succ_of_lt (ih h)

theorem bottomOf_none {ks : List (IterKind α)} {i : Nat} (h : ks.length ≤ i) : bottomOf ks i = none := by
  cases hb : bottomOf ks i with
  | none => rfl
  | some g => have := bottomOf_lt hb; omega

/-- What is known about each region. -/
theorem IterRel.at {h : List (IterObj α)} {ks : List (IterKind α)} {f : Nat → Nat} (r : IterRel h ks f) {i : Nat}
    (hi : i < ks.length) : ∃ g, bottomOf ks i = some g ∧ g.WF ∧
      (∀ l ∈ layersOf ks i, l.1.labels.WF ∧ l.1.labels.xLen = g.xLen ∧ l.1.labels.yLen = g.yLen) ∧
      heapShape h i = some (g.xLen, g.yLen) ∧ ownerOf ks i ≤ i := by
  induction h generalizing ks i with
  | nil => cases ks with
    | nil => cases hi
    | cons => exact r.elim
  | cons o h ih => cases ks with
    | nil => cases hi
    | cons k ks =>
      obtain ⟨rfl, ⟨g, r1, r2, r3, r4, r5, -⟩, r7⟩ := r
      by_cases hk : i = ks.length
      · subst hk
        refine ⟨g, r1, r2, r5, ?_, ?_⟩
        · unfold heapShape
          rw [if_pos r7.length.symm, r3, r4]
        · unfold ownerOf
          rw [if_pos rfl]
          cases hd : o.kind with
          | plain => exact Nat.le_refl _
          | cluster => exact Nat.le_refl _
          | delegate j =>
            rw [hd] at r1
            unfold bottomOf at r1
            rw [if_pos rfl] at r1
            obtain ⟨-, -, -, -, -, e⟩ := ih r7 (bottomOf_lt r1)
            exact e.trans (bottomOf_lt r1).le
      · rw [List.length_cons] at hi
        unfold bottomOf layersOf ownerOf heapShape
        rw [if_neg hk, if_neg hk, if_neg hk, if_neg (by rw [r7.length]; exact hk)]
        exact ih r7 (by omega)

theorem isMember_eq {pt : Partition} (h : pt.labels.WF) {p : Point} (hx : p.x < pt.labels.xLen) (hy : p.y < pt.labels.yLen)
    (k : Nat) : pt.isMember p k = .ok (decide (pt.labels.get p = .ok k)) := by
  obtain ⟨v, hv⟩ := pt.labels.exists_get h hx hy
  unfold Partition.isMember
  rw [hv]
  simp only [Except.ok.injEq]
  rfl

/-- What is read at a point of a region. -/
theorem IterRel.reads {h : List (IterObj α)} {ks : List (IterKind α)} {f : Nat → Nat} (r : IterRel h ks f) {i : Nat}
    {g : Grid α} (hg : bottomOf ks i = some g) {p : Point} (hx : p.x < g.xLen) (hy : p.y < g.yLen) :
    heapValueAt h i p = if InsideAll (layersOf ks i) p then g.get p else .error .valueError := by
  induction h generalizing ks i with
  | nil => cases ks with
    | nil => cases hg
    | cons => exact r.elim
  | cons o h ih => cases ks with
    | nil => cases hg
    | cons k ks =>
      have r' := r
      obtain ⟨rfl, ⟨g', r1, r2, r3, r4, r5, -⟩, r7⟩ := r
      unfold heapValueAt layersOf
      rw [r7.length]
      by_cases hk : i = ks.length
      · subst hk
        rw [if_pos rfl, if_pos rfl]
        rw [r1] at hg
        cases hg
        unfold bottomOf at r1
        unfold layersOf at r5
        rw [if_pos rfl] at r1 r5
        cases hd : o.kind with
        | plain g0 =>
          rw [hd] at r1
          cases r1
          exact (if_pos (by intro l hl; cases hl)).symm
        | delegate j =>
          rw [hd] at r1
          exact ih r7 r1
        | cluster j pt c =>
          rw [hd] at r1 r5
          simp only at r1 r5
          obtain ⟨w1, w2, w3⟩ := r5 (pt, c) (by simp)
          simp only at w1 w2 w3
          simp only [isMember_eq w1 (w2 ▸ hx) (w3 ▸ hy)]
          by_cases hm : pt.labels.get p = .ok c
          · simp only [hm, decide_true]
            rw [ih r7 r1]
            have e : InsideAll ((pt, c) :: layersOf ks j) p ↔ InsideAll (layersOf ks j) p := by
              simp only [InsideAll, List.mem_cons, forall_eq_or_imp, hm, true_and]
            by_cases hin : InsideAll (layersOf ks j) p
            · rw [if_pos hin, if_pos (e.2 hin)]
            · rw [if_neg hin, if_neg (fun w => hin (e.1 w))]
          · simp only [hm, decide_false]
            rw [if_neg]
            intro hi
            exact hm (hi (pt, c) (by simp))
      · rw [if_neg hk, if_neg hk]
        unfold bottomOf at hg
        rw [if_neg hk] at hg
        exact ih r7 hg

/-- The search for the next member of a cluster. -/
theorem findMember_spec {pt : Partition} (h : pt.labels.WF) (k : Nat) {fuel c : Nat}
    (hf : pt.labels.xLen * pt.labels.yLen - c < fuel) :
    ((∀ p ∈ pointsFrom pt.labels.xLen pt.labels.yLen c, ¬ pt.labels.get p = .ok k) ∧
      findMember pt k pt.labels.xLen pt.labels.yLen fuel c = (.ok none, 0)) ∨
    ∃ l1 p l2, pointsFrom pt.labels.xLen pt.labels.yLen c = l1 ++ p :: l2 ∧ (∀ a ∈ l1, ¬ pt.labels.get a = .ok k) ∧
      pt.labels.get p = .ok k ∧
      findMember pt k pt.labels.xLen pt.labels.yLen fuel c = (.ok (some p), c + l1.length + 1) := by
  induction fuel generalizing c with
  | zero => omega
  | succ fuel ih =>
    unfold findMember
    by_cases hc : c < pt.labels.xLen * pt.labels.yLen
    · rw [baseNext_step hc, pointsFrom_succ hc]
      simp only
      have hy : 0 < pt.labels.yLen := by
        rcases Nat.eq_zero_or_pos pt.labels.yLen with e | e
        · rw [e] at hc; omega
        · exact e
      have hp : c / pt.labels.yLen < pt.labels.xLen := Nat.div_lt_of_lt_mul (by rw [Nat.mul_comm]; exact hc)
      have hq : c % pt.labels.yLen < pt.labels.yLen := Nat.mod_lt _ hy
      rw [isMember_eq h (p := ⟨c / pt.labels.yLen, c % pt.labels.yLen⟩) hp hq]
      by_cases hm : pt.labels.get ⟨c / pt.labels.yLen, c % pt.labels.yLen⟩ = .ok k
      · right
        refine ⟨[], _, _, rfl, by simp, hm, ?_⟩
        simp only [hm, decide_true]
        rfl
      · simp only [hm, decide_false]
        rcases ih (c := c + 1) (by omega) with ⟨h1, h2⟩ | ⟨l1, p, l2, h1, h2, h3, h4⟩
        · left
          refine ⟨?_, h2⟩
          intro p hp
          rcases List.mem_cons.1 hp with rfl | hp
          · exact hm
          · exact h1 p hp
        · right
          refine ⟨⟨c / pt.labels.yLen, c % pt.labels.yLen⟩ :: l1, p, l2, by rw [h1]; rfl, ?_, h3, ?_⟩
          · intro a ha
            rcases List.mem_cons.1 ha with rfl | ha
            · exact hm
            · exact h2 a ha
          · rw [h4, List.length_cons]
            congr 1
            omega
    · left
      rw [baseNext_stop (by omega), pointsFrom_of_le (by omega)]
      exact ⟨by simp, rfl⟩

theorem turnOf_none {l : List (Except PyErr (Point × α))} {n : Nat} (h : l[n % (l.length + 1)]? = none) :
    turnOf l n = .ok none := by unfold turnOf; rw [h]

theorem turnOf_ok {l : List (Except PyErr (Point × α))} {n : Nat} {it : Point × α}
    (h : l[n % (l.length + 1)]? = some (.ok it)) : turnOf l n = .ok (some it) := by unfold turnOf; rw [h]

theorem turnOf_error {l : List (Except PyErr (Point × α))} {n : Nat} {e : PyErr}
    (h : l[n % (l.length + 1)]? = some (.error e)) : turnOf l n = .error e := by unfold turnOf; rw [h]

/-- One call of `__next__`. -/
theorem IterRel.next {h : List (IterObj α)} {ks : List (IterKind α)} {f : Nat → Nat} (r : IterRel h ks f) {i : Nat}
    (hi : i < ks.length) :
    (heapNext h i).1 = turnOf (yieldsOf ks i) (f (ownerOf ks i)) ∧
    IterRel (heapNext h i).2 ks (Function.update f (ownerOf ks i) (f (ownerOf ks i) + 1)) := by
  induction h generalizing ks i with
  | nil => cases ks with
    | nil => cases hi
    | cons => exact r.elim
  | cons o h ih => cases ks with
    | nil => cases hi
    | cons k ks =>
      have r' := r
      obtain ⟨rfl, ⟨g, r1, r2, r3, r4, r5, r6⟩, r7⟩ := r
      by_cases hk : i = ks.length
      · subst hk
        cases hd : o.kind with
        | delegate j =>
          have hb : bottomOf ks j = some g := by
            rw [hd] at r1
            unfold bottomOf at r1
            rwa [if_pos rfl] at r1
          have ho : ownerOf (o.kind :: ks) ks.length = ownerOf ks j := by
            rw [hd]
            conv_lhs => unfold ownerOf
            rw [if_pos rfl]
          have hy : yieldsOf (o.kind :: ks) ks.length = yieldsOf ks j := by
            rw [hd]
            unfold yieldsOf
            conv_lhs => unfold bottomOf layersOf
            rw [if_pos rfl, if_pos rfl]
          have hn : heapNext (o :: h) ks.length = ((heapNext h j).1, o :: (heapNext h j).2) := by
            conv_lhs => unfold heapNext
            rw [if_pos r7.length.symm, hd]
          obtain ⟨-, -, -, -, -, ole⟩ := r7.at (bottomOf_lt hb)
          have hlt := bottomOf_lt hb
          rw [← hd, hn, ho, hy]
          obtain ⟨e1, e2⟩ := ih r7 hlt
          refine ⟨e1, rfl, ?_, e2⟩
          rw [Function.update_of_ne (by omega)]
          exact r'.2.1
        | plain g0 =>
          have hb : g = g0 := by
            rw [hd] at r1
            unfold bottomOf at r1
            rw [if_pos rfl] at r1
            cases r1; rfl
          subst hb
          have ho : ownerOf (o.kind :: ks) ks.length = ks.length := by
            rw [hd]; unfold ownerOf; rw [if_pos rfl]
          have hl : layersOf (o.kind :: ks) ks.length = [] := by
            rw [hd]; unfold layersOf; rw [if_pos rfl]
          obtain ⟨c1, c2⟩ := r6 ho
          have hq : ∀ p : Point, decide (InsideAll ((layersOf (o.kind :: ks) ks.length).take 1) p) = true := by
            intro p; rw [hl]; exact decide_eq_true (by intro l hl; cases hl)
          have hy : yieldsOf (o.kind :: ks) ks.length = ((rowMajor g.xLen g.yLen).filter fun p =>
              decide (InsideAll ((layersOf (o.kind :: ks) ks.length).take 1) p)).map fun p => (g.get p).map fun v => (p, v) := by
            unfold yieldsOf
            rw [r1]
            simp only
            refine List.map_congr_left fun p _ => if_pos ?_
            rw [hl]; intro l hl; cases hl
          have hcur : ∀ c m, c ≤ g.xLen * g.yLen → (((rowMajor g.xLen g.yLen).take c).filter fun p =>
              decide (InsideAll ((layersOf (o.kind :: ks) ks.length).take 1) p)).length =
              m % (((rowMajor g.xLen g.yLen).filter fun p =>
                decide (InsideAll ((layersOf (o.kind :: ks) ks.length).take 1) p)).length + 1) →
              IterRel (⟨o.kind, g.xLen, g.yLen, c⟩ :: h) (o.kind :: ks) (Function.update f ks.length m) := by
            intro c m h1 h2
            refine ⟨rfl, ⟨g, r1, r2, rfl, rfl, r5, fun _ => ?_⟩, r7.update (Nat.le_refl _)⟩
            rw [Function.update_self]
            exact ⟨h1, h2⟩
          obtain ⟨q, hqd⟩ : ∃ q : Point → Bool, q = fun p =>
            decide (InsideAll ((layersOf (o.kind :: ks) ks.length).take 1) p) := ⟨_, rfl⟩
          rw [← hqd] at c2 hy
          simp only [← hqd] at hcur
          rw [← hd, ho, hy]
          unfold heapNext
          rw [if_pos r7.length.symm, hd]
          simp only
          rw [r3, r4]
          by_cases hc : o.cursor < g.xLen * g.yLen
          · have hdr := pointsFrom_succ hc
            rw [pointsFrom_eq_drop] at hdr
            obtain ⟨t1, t2, t3⟩ := turn_step (l1 := []) c2 hdr (by simp) (by rw [hqd]; exact hq _)
            rw [rowMajor_length] at t3
            rw [baseNext_step hc]
            simp only
            have hyl : 0 < g.yLen := by
              rcases Nat.eq_zero_or_pos g.yLen with e | e
              · rw [e] at hc; omega
              · exact e
            obtain ⟨v, hv⟩ := g.exists_get r2 (p := ⟨o.cursor / g.yLen, o.cursor % g.yLen⟩)
              (Nat.div_lt_of_lt_mul (by rw [Nat.mul_comm]; exact hc)) (Nat.mod_lt _ hyl)
            rw [hv]
            simp only
            refine ⟨(turnOf_ok ?_).symm, ?_⟩
            · rw [List.length_map, List.getElem?_map, t1, Option.map_some, hv]
              rfl
            · rw [← hd]
              exact hcur _ _ t3 t2
          · obtain ⟨t1, t2⟩ := turn_end c2 (by
              intro p hp
              rw [List.drop_of_length_le (by rw [rowMajor_length]; omega)] at hp
              cases hp)
            rw [baseNext_stop (by omega)]
            simp only
            refine ⟨(turnOf_none ?_).symm, ?_⟩
            · rw [List.length_map, List.getElem?_map, t1, Option.map_none]
            · rw [← hd]
              refine hcur _ _ (Nat.zero_le _) ?_
              rw [t2]
              rfl
        | cluster j pt c =>
          have ho : ownerOf (o.kind :: ks) ks.length = ks.length := by
            rw [hd]; unfold ownerOf; rw [if_pos rfl]
          have hl : (layersOf (o.kind :: ks) ks.length).take 1 = [(pt, c)] := by
            rw [hd]; unfold layersOf; rw [if_pos rfl]; rfl
          obtain ⟨w1, w2, w3⟩ := r5 (pt, c) (List.mem_of_mem_take (i := 1) (by rw [hl]; simp))
          simp only at w1 w2 w3
          obtain ⟨c1, c2⟩ := r6 ho
          have hq : ∀ p : Point, decide (InsideAll ((layersOf (o.kind :: ks) ks.length).take 1) p) =
              decide (pt.labels.get p = .ok c) := by
            intro p
            rw [hl]
            simp only [InsideAll, List.mem_singleton, forall_eq]
          have hcur : ∀ c m, c ≤ g.xLen * g.yLen → (((rowMajor g.xLen g.yLen).take c).filter fun p =>
              decide (InsideAll ((layersOf (o.kind :: ks) ks.length).take 1) p)).length =
              m % (((rowMajor g.xLen g.yLen).filter fun p =>
                decide (InsideAll ((layersOf (o.kind :: ks) ks.length).take 1) p)).length + 1) →
              IterRel (⟨o.kind, g.xLen, g.yLen, c⟩ :: h) (o.kind :: ks) (Function.update f ks.length m) := by
            intro c m h1 h2
            refine ⟨rfl, ⟨g, r1, r2, rfl, rfl, r5, fun _ => ?_⟩, r7.update (Nat.le_refl _)⟩
            rw [Function.update_self]
            exact ⟨h1, h2⟩
          have hy : yieldsOf (o.kind :: ks) ks.length = ((rowMajor g.xLen g.yLen).filter fun p =>
              decide (InsideAll ((layersOf (o.kind :: ks) ks.length).take 1) p)).map fun p =>
              (heapValueAt (o :: h) ks.length p).map fun v => (p, v) := by
            unfold yieldsOf
            rw [r1]
            simp only
            refine List.map_congr_left fun p hp => ?_
            obtain ⟨hx, hy⟩ := mem_rowMajor.1 (List.mem_filter.1 hp).1
            rw [r'.reads r1 hx hy]
            split_ifs <;> rfl
          obtain ⟨q, hqd⟩ : ∃ q : Point → Bool, q = fun p =>
            decide (InsideAll ((layersOf (o.kind :: ks) ks.length).take 1) p) := ⟨_, rfl⟩
          rw [← hqd] at c2 hy
          simp only [← hqd] at hcur
          rw [← hd, ho, hy]
          unfold heapNext
          rw [if_pos r7.length.symm, hd]
          simp only
          rw [r3, r4, ← w2, ← w3]
          rcases findMember_spec w1 c (c := o.cursor) (fuel := pt.labels.xLen * pt.labels.yLen + 1) (by omega) with
            ⟨h1, h2⟩ | ⟨l1, p, l2, h1, h2, h3, h4⟩
          · rw [h2]
            simp only
            rw [w2, w3, pointsFrom_eq_drop] at h1
            obtain ⟨t1, t2⟩ := turn_end c2 (fun p hp => by rw [hqd]; simp only [hq]; exact decide_eq_false (h1 p hp))
            rw [w2, w3]
            refine ⟨(turnOf_none ?_).symm, ?_⟩
            · rw [List.length_map, List.getElem?_map, t1, Option.map_none]
            · rw [← hd]
              refine hcur _ _ (Nat.zero_le _) ?_
              rw [t2]
              rfl
          · rw [h4]
            simp only
            rw [w2, w3, pointsFrom_eq_drop] at h1
            obtain ⟨t1, t2, t3⟩ := turn_step c2 h1 (fun a ha => by rw [hqd]; simp only [hq]; exact decide_eq_false (h2 a ha))
              (by rw [hqd]; simp only [hq]; exact decide_eq_true h3)
            rw [rowMajor_length] at t3
            rw [w2, w3]
            cases hv : heapValueAt (o :: h) ks.length p with
            | error e =>
              simp only
              refine ⟨(turnOf_error ?_).symm, ?_⟩
              · rw [List.length_map, List.getElem?_map, t1, Option.map_some, hv]
                rfl
              · rw [← hd]
                exact hcur _ _ t3 t2
            | ok v =>
              simp only
              refine ⟨(turnOf_ok ?_).symm, ?_⟩
              · rw [List.length_map, List.getElem?_map, t1, Option.map_some, hv]
                rfl
              · rw [← hd]
                exact hcur _ _ t3 t2
      · rw [List.length_cons] at hi
        have hn : heapNext (o :: h) i = ((heapNext h i).1, o :: (heapNext h i).2) := by
          conv_lhs => unfold heapNext
          rw [if_neg (by rw [r7.length]; exact hk)]
        have ho : ownerOf (o.kind :: ks) i = ownerOf ks i := by
          conv_lhs => unfold ownerOf
          rw [if_neg hk]
        have hy : yieldsOf (o.kind :: ks) i = yieldsOf ks i := by
          unfold yieldsOf
          conv_lhs => unfold bottomOf layersOf
          rw [if_neg hk, if_neg hk]
        obtain ⟨-, -, -, -, -, ole⟩ := r7.at (i := i) (by omega)
        rw [hn, ho, hy]
        obtain ⟨e1, e2⟩ := ih r7 (i := i) (by omega)
        refine ⟨e1, rfl, ?_, e2⟩
        rw [Function.update_of_ne (by omega)]
        exact r'.2.1

/-- The objects of a program agree with the calls so far. -/
def IterInv (h : List (IterObj α)) (s : IterSpec α) : Prop :=
  IterRel h s.kinds s.calls ∧ ∀ i, s.kinds.length ≤ i → s.calls i = 0

theorem heapNext_of_le {h : List (IterObj α)} {i : Nat} (hi : h.length ≤ i) : heapNext h i = (.error .nameError, h) := by
  induction h with
  | nil => rfl
  | cons o h ih =>
    rw [List.length_cons] at hi
    unfold heapNext
    rw [if_neg (by omega), ih (by omega)]

theorem heapShape_of_le {h : List (IterObj α)} {i : Nat} (hi : h.length ≤ i) : heapShape h i = none := by
  induction h with
  | nil => rfl
  | cons o h ih =>
    rw [List.length_cons] at hi
    unfold heapShape
    rw [if_neg (by omega), ih (by omega)]

theorem IterInv.call {h : List (IterObj α)} {s : IterSpec α} (r : IterInv h s) {i : Nat} (hi : i < s.kinds.length) :
    (heapNext h i).1 = turnOf (yieldsOf s.kinds i) (s.calls (ownerOf s.kinds i)) ∧ IterInv (heapNext h i).2 (s.call i) := by
  obtain ⟨-, -, -, -, -, ole⟩ := r.1.at hi
  obtain ⟨e1, e2⟩ := r.1.next hi
  refine ⟨e1, e2, ?_⟩
  intro k hk
  unfold IterSpec.call at hk ⊢
  simp only at hk ⊢
  rw [Function.update_of_ne (by omega)]
  exact r.2 k hk

/-- **C149**, one event. -/
theorem C149_step {h : List (IterObj α)} {s : IterSpec α} (r : IterInv h s) {e : IterEvent α} (he : e.Good) :
    (iterStep h e).1 = (s.step e).1 ∧ IterInv (iterStep h e).2 (s.step e).2 := by
  have hlen := r.1.length
  have hz : ∀ k : IterKind α, ∀ i, (k :: s.kinds).length ≤ i → s.calls i = 0 := by
    intro k i hi
    rw [List.length_cons] at hi
    exact r.2 i (by omega)
  cases e with
  | next i =>
    by_cases hi : i < s.kinds.length
    · have := r.call hi
      unfold iterStep IterSpec.step
      simp only
      rw [if_pos hi]
      exact this
    · unfold iterStep IterSpec.step
      simp only
      rw [if_neg hi, heapNext_of_le (by omega)]
      exact ⟨rfl, r⟩
  | make k =>
    cases k with
    | plain g =>
      refine ⟨rfl, ⟨rfl, ⟨g, ?_, he, rfl, rfl, ?_, ?_⟩, r.1⟩, hz _⟩
      · unfold bottomOf; rw [if_pos rfl]
      · intro l hl
        unfold layersOf at hl
        rw [if_pos rfl] at hl
        cases hl
      · intro _
        refine ⟨Nat.zero_le _, ?_⟩
        have hz0 : (s.step (.make (.plain g))).2.calls s.kinds.length = 0 := r.2 _ (Nat.le_refl _)
        rw [hz0, Nat.zero_mod]
        rfl
    | delegate j =>
      by_cases hj : j < s.kinds.length
      · obtain ⟨g, b1, b2, b3, b4, b5⟩ := r.1.at hj
        unfold iterStep IterSpec.step
        simp only
        rw [if_pos hj, b4]
        refine ⟨rfl, ⟨rfl, ⟨g, ?_, b2, rfl, rfl, ?_, ?_⟩, r.1⟩, hz _⟩
        · unfold bottomOf; rw [if_pos rfl]; exact b1
        · unfold layersOf; rw [if_pos rfl]; exact b3
        · intro ho
          exfalso
          unfold ownerOf at ho
          rw [if_pos rfl] at ho
          simp only at ho
          omega
      · unfold iterStep IterSpec.step
        simp only
        rw [if_neg hj, heapShape_of_le (by omega)]
        exact ⟨rfl, r⟩
    | cluster j pt c =>
      by_cases hj : j < s.kinds.length
      · obtain ⟨g, b1, b2, b3, b4, b5⟩ := r.1.at hj
        unfold iterStep IterSpec.step
        simp only
        rw [b1, b4]
        simp only
        by_cases hs : pt.labels.xLen = g.xLen ∧ pt.labels.yLen = g.yLen
        · rw [if_pos hs, if_pos hs]
          refine ⟨rfl, ⟨rfl, ⟨g, ?_, b2, rfl, rfl, ?_, ?_⟩, r.1⟩, hz _⟩
          · unfold bottomOf; rw [if_pos rfl]; exact b1
          · unfold layersOf
            rw [if_pos rfl]
            intro l hl
            rcases List.mem_cons.1 hl with rfl | hl
            · exact ⟨he, hs.1, hs.2⟩
            · exact b3 l hl
          · intro _
            refine ⟨Nat.zero_le _, ?_⟩
            rw [r.2 _ (Nat.le_refl _), Nat.zero_mod]
            rfl
        · rw [if_neg hs, if_neg hs]
          exact ⟨rfl, r⟩
      · unfold iterStep IterSpec.step
        simp only
        rw [bottomOf_none (by omega), heapShape_of_le (by omega)]
        exact ⟨rfl, r⟩

theorem IterInv.run {h : List (IterObj α)} {s : IterSpec α} (r : IterInv h s) {es : List (IterEvent α)}
    (he : ∀ e ∈ es, e.Good) :
    (runIter es h).1 = (IterSpec.run es s).1 ∧ IterInv (runIter es h).2 (IterSpec.run es s).2 := by
  induction es generalizing h s with
  | nil => exact ⟨rfl, r⟩
  | cons e es ih =>
    obtain ⟨e1, e2⟩ := C149_step r (he e (by simp))
    obtain ⟨e3, e4⟩ := ih e2 fun e h => he e (List.mem_cons_of_mem _ h)
    unfold runIter IterSpec.run
    exact ⟨by simp only; rw [e1, e3], e4⟩

theorem iterInv_start : IterInv ([] : List (IterObj α)) IterSpec.start := ⟨trivial, fun _ _ => rfl⟩

/-- **C149**, any program that creates regions, decorates them and calls `__next__` of any of them in any order: each call
gives what is next in the iteration of its owner, counted by calls only. -/
theorem C149_refines {es : List (IterEvent α)} (he : ∀ e ∈ es, e.Good) :
    (runIter es []).1 = (IterSpec.run es IterSpec.start).1 :=
  (iterInv_start.run he).1

/-- What the loops below start from is what a program can reach. -/
theorem C149_reached {es : List (IterEvent α)} (he : ∀ e ∈ es, e.Good) :
    IterInv (runIter es []).2 (IterSpec.run es IterSpec.start).2 :=
  (iterInv_start.run he).2

/-- A region and the owner of its iterator give the same items. -/
theorem yieldsOf_owner {h : List (IterObj α)} {ks : List (IterKind α)} {f : Nat → Nat} (r : IterRel h ks f) {i : Nat}
    (hi : i < ks.length) : yieldsOf ks (ownerOf ks i) = yieldsOf ks i := by
  induction h generalizing ks i with
  | nil => cases ks with
    | nil => cases hi
    | cons => exact r.elim
  | cons o h ih => cases ks with
    | nil => cases hi
    | cons k ks =>
      obtain ⟨rfl, ⟨g, r1, -⟩, r7⟩ := r
      have lower : ∀ j, j < ks.length → yieldsOf (o.kind :: ks) j = yieldsOf ks j := by
        intro j hj
        unfold yieldsOf
        conv_lhs => unfold bottomOf layersOf
        rw [if_neg (by omega), if_neg (by omega)]
      by_cases hk : i = ks.length
      · subst hk
        cases hd : o.kind with
        | delegate j =>
          rw [hd] at r1 lower
          unfold bottomOf at r1
          rw [if_pos rfl] at r1
          have hj := bottomOf_lt r1
          obtain ⟨-, -, -, -, -, ole⟩ := r7.at hj
          have ho : ownerOf (IterKind.delegate j :: ks) ks.length = ownerOf ks j := by
            conv_lhs => unfold ownerOf
            rw [if_pos rfl]
          rw [ho, lower _ (by omega), ih r7 hj]
          unfold yieldsOf
          conv_rhs => unfold bottomOf layersOf
          rw [if_pos rfl, if_pos rfl]
        | plain g0 =>
          have ho : ownerOf (IterKind.plain g0 :: ks) ks.length = ks.length := by
            unfold ownerOf; rw [if_pos rfl]
          rw [ho]
        | cluster j pt c =>
          have ho : ownerOf (IterKind.cluster j pt c :: ks) ks.length = ks.length := by
            unfold ownerOf; rw [if_pos rfl]
          rw [ho]
      · rw [List.length_cons] at hi
        obtain ⟨-, -, -, -, -, ole⟩ := r7.at (i := i) (by omega)
        have ho : ownerOf (o.kind :: ks) i = ownerOf ks i := by
          conv_lhs => unfold ownerOf
          rw [if_neg hk]
        rw [ho, lower _ (by omega), lower _ (by omega), ih r7 (by omega)]

/-- **C149**, iterations in any order, one call here and one call there: the calls of the regions that share one iterator get
the items of that iterator in turn, whatever is called in between. -/
theorem C149_interleaved {h : List (IterObj α)} {s : IterSpec α} (r : IterInv h s) (o : Nat) {is : List Nat}
    (hi : ∀ i ∈ is, i < s.kinds.length) :
    ((is.zip (runIter (is.map .next) h).1).filter fun q => decide (ownerOf s.kinds q.1 = o)).map Prod.snd =
      (List.range (is.filter fun i => decide (ownerOf s.kinds i = o)).length).map fun t =>
        turnOf (yieldsOf s.kinds o) (s.calls o + t) := by
  induction is generalizing h s with
  | nil => rfl
  | cons i is ih =>
    have hi0 := hi i (by simp)
    obtain ⟨e1, e2⟩ := r.call hi0
    have e3 := ih e2 fun i h => hi i (List.mem_cons_of_mem _ h)
    have hk : (s.call i).kinds = s.kinds := rfl
    rw [hk] at e3
    have hrun : (runIter ((i :: is).map .next) h).1 = (heapNext h i).1 :: (runIter (is.map .next) (heapNext h i).2).1 := rfl
    rw [hrun, List.zip_cons_cons, List.filter_cons, List.filter_cons]
    by_cases ho : ownerOf s.kinds i = o
    · simp only [ho, decide_true, if_true, List.map_cons, List.length_cons]
      rw [List.range_succ_eq_map, List.map_cons, List.map_map, e3, e1, ← yieldsOf_owner r.1 hi0, ho]
      congr 1
      refine List.map_congr_left fun t _ => ?_
      have : (s.call i).calls o = s.calls o + 1 := by
        unfold IterSpec.call
        simp only [ho, Function.update_self]
      rw [this, Function.comp_apply]
      congr 1
      omega
    · simp only [ho, decide_false, Bool.false_eq_true, if_false]
      have : (s.call i).calls o = s.calls o := by
        unfold IterSpec.call
        simp only
        rw [Function.update_of_ne (fun e => ho e.symm)]
      rw [e3, this]

theorem turnOf_map_ok {its : List (Point × α)} {n : Nat} :
    turnOf (its.map .ok) n = .ok (its[n % (its.length + 1)]?) := by
  unfold turnOf
  rw [List.length_map, List.getElem?_map]
  cases its[n % (its.length + 1)]? <;> rfl

/-- **C149**, one loop: it goes on where the iterator is and ends with the iterator at its start; the iterators of the other
regions do not move. A loop over a fresh region gets everything; a loop after one that was left by `break` gets the rest. -/
theorem C149_loop {h : List (IterObj α)} {s : IterSpec α} (r : IterInv h s) {i : Nat} (hi : i < s.kinds.length)
    {its : List (Point × α)} (hy : yieldsOf s.kinds i = its.map .ok) {fuel : Nat}
    (hf : its.length - s.calls (ownerOf s.kinds i) % (its.length + 1) < fuel) :
    (heapLoop i fuel h).1 = .ok (its.drop (s.calls (ownerOf s.kinds i) % (its.length + 1))) ∧
    ∃ calls, IterInv (heapLoop i fuel h).2 ⟨s.kinds, calls⟩ ∧ calls (ownerOf s.kinds i) % (its.length + 1) = 0 ∧
      ∀ k, k ≠ ownerOf s.kinds i → calls k = s.calls k := by
  induction fuel generalizing h s with
  | zero => omega
  | succ fuel ih =>
    obtain ⟨e1, e2⟩ := r.call hi
    rw [hy, turnOf_map_ok] at e1
    have hc : (s.call i).calls (ownerOf s.kinds i) = s.calls (ownerOf s.kinds i) + 1 := by
      unfold IterSpec.call
      simp only [Function.update_self]
    have hoth : ∀ k, k ≠ ownerOf s.kinds i → (s.call i).calls k = s.calls k := by
      intro k hk
      unfold IterSpec.call
      simp only
      rw [Function.update_of_ne hk]
    have hm := Nat.mod_lt (s.calls (ownerOf s.kinds i)) (Nat.succ_pos its.length)
    rw [Nat.succ_eq_add_one] at hm
    unfold heapLoop
    rcases hn : heapNext h i with ⟨v, h'⟩
    rw [hn] at e1 e2
    simp only at e1 e2
    subst e1
    by_cases hl : s.calls (ownerOf s.kinds i) % (its.length + 1) < its.length
    · rw [List.getElem?_eq_getElem hl]
      simp only
      have hmod := add_one_mod_of_lt hl
      obtain ⟨f1, calls, f2, f3, f4⟩ := ih e2 hi hy (by
        show its.length - (s.call i).calls (ownerOf s.kinds i) % (its.length + 1) < fuel
        rw [hc, hmod]; omega)
      have f1' : (heapLoop i fuel h').1 =
          .ok (its.drop ((s.call i).calls (ownerOf s.kinds i) % (its.length + 1))) := f1
      rw [hc, hmod] at f1'
      rcases hlp : heapLoop i fuel h' with ⟨w, h''⟩
      rw [hlp] at f1' f2
      simp only at f1' f2
      subst f1'
      simp only
      refine ⟨?_, calls, f2, f3, ?_⟩
      · rw [List.drop_eq_getElem_cons hl]
      · intro k hk
        rw [f4 k hk, hoth k hk]
    · have he : s.calls (ownerOf s.kinds i) % (its.length + 1) = its.length := by omega
      rw [List.getElem?_eq_none (by omega)]
      simp only
      refine ⟨?_, (s.call i).calls, e2, ?_, hoth⟩
      · rw [List.drop_of_length_le (by omega)]
      · rw [hc]
        exact add_one_mod_of_eq he

/-- **C149**, a loop inside a loop, over regions with different iterators: the inner loop gets everything for each item of the
outer one. -/
theorem C149_nested_partial {h : List (IterObj α)} {s : IterSpec α} (r : IterInv h s) {i j : Nat} (hi : i < s.kinds.length)
    (hj : j < s.kinds.length) (hij : ownerOf s.kinds i ≠ ownerOf s.kinds j) {as bs : List (Point × α)}
    (ha : yieldsOf s.kinds i = as.map .ok) (hb : yieldsOf s.kinds j = bs.map .ok)
    (h0 : s.calls (ownerOf s.kinds j) % (bs.length + 1) = 0) {inner fuel : Nat} (hin : bs.length < inner)
    (hf : as.length - s.calls (ownerOf s.kinds i) % (as.length + 1) < fuel) :
    (nestedLoop i j inner fuel h).1 =
      .ok ((as.drop (s.calls (ownerOf s.kinds i) % (as.length + 1))).map fun a => (a, bs)) := by
  induction fuel generalizing h s with
  | zero => omega
  | succ fuel ih =>
    obtain ⟨e1, e2⟩ := r.call hi
    rw [ha, turnOf_map_ok] at e1
    have hc : (s.call i).calls (ownerOf s.kinds i) = s.calls (ownerOf s.kinds i) + 1 := by
      unfold IterSpec.call
      simp only [Function.update_self]
    have hcj : (s.call i).calls (ownerOf s.kinds j) = s.calls (ownerOf s.kinds j) := by
      unfold IterSpec.call
      simp only
      rw [Function.update_of_ne (fun e => hij e.symm)]
    have hm := Nat.mod_lt (s.calls (ownerOf s.kinds i)) (Nat.succ_pos as.length)
    rw [Nat.succ_eq_add_one] at hm
    unfold nestedLoop
    rcases hn : heapNext h i with ⟨v, h'⟩
    rw [hn] at e1 e2
    simp only at e1 e2
    subst e1
    by_cases hl : s.calls (ownerOf s.kinds i) % (as.length + 1) < as.length
    · rw [List.getElem?_eq_getElem hl]
      simp only
      have hmod := add_one_mod_of_lt hl
      have h0' : (s.call i).calls (ownerOf (s.call i).kinds j) % (bs.length + 1) = 0 := by
        show (s.call i).calls (ownerOf s.kinds j) % (bs.length + 1) = 0
        rw [hcj, h0]
      obtain ⟨f1, calls, f2, f3, f4⟩ := C149_loop e2 (i := j) hj hb (fuel := inner) (by rw [h0']; omega)
      rw [h0', List.drop_zero] at f1
      have f4' := f4 (ownerOf s.kinds i) hij
      rcases hlp : heapLoop j inner h' with ⟨w, h''⟩
      rw [hlp] at f1 f2
      simp only at f1 f2
      subst f1
      simp only
      have := ih f2 hi hj hij ha hb f3 (by
        show as.length - calls (ownerOf s.kinds i) % (as.length + 1) < fuel
        rw [f4', hc, hmod]; omega)
      have this' : (nestedLoop i j inner fuel h'').1 =
        .ok ((as.drop (calls (ownerOf s.kinds i) % (as.length + 1))).map fun a => (a, bs)) := this
      rw [f4', hc, hmod] at this'
      rcases hnl : nestedLoop i j inner fuel h'' with ⟨w, h3⟩
      rw [hnl] at this'
      simp only at this'
      subst this'
      simp only
      rw [List.drop_eq_getElem_cons hl, List.map_cons]
    · rw [List.getElem?_eq_none (by omega), List.drop_of_length_le (by omega)]
      rfl

/-- **C149**, a loop inside a loop, over regions with different iterators, wherever these are: the first inner loop gets what
is left of the inner region, and the others get everything. -/
theorem C149_nested_resumed {h : List (IterObj α)} {s : IterSpec α} (r : IterInv h s) {i j : Nat} (hi : i < s.kinds.length)
    (hj : j < s.kinds.length) (hij : ownerOf s.kinds i ≠ ownerOf s.kinds j) {as bs : List (Point × α)}
    (ha : yieldsOf s.kinds i = as.map .ok) (hb : yieldsOf s.kinds j = bs.map .ok) {inner fuel : Nat}
    (hin : bs.length < inner) (hf : as.length - s.calls (ownerOf s.kinds i) % (as.length + 1) < fuel) :
    (nestedLoop i j inner fuel h).1 = .ok (match as.drop (s.calls (ownerOf s.kinds i) % (as.length + 1)) with
      | [] => []
      | a :: rest => (a, bs.drop (s.calls (ownerOf s.kinds j) % (bs.length + 1))) :: rest.map fun a => (a, bs)) := by
  cases fuel with
  | zero => omega
  | succ fuel =>
    obtain ⟨e1, e2⟩ := r.call hi
    rw [ha, turnOf_map_ok] at e1
    have hc : (s.call i).calls (ownerOf s.kinds i) = s.calls (ownerOf s.kinds i) + 1 := by
      unfold IterSpec.call
      simp only [Function.update_self]
    have hcj : (s.call i).calls (ownerOf s.kinds j) = s.calls (ownerOf s.kinds j) := by
      unfold IterSpec.call
      simp only
      rw [Function.update_of_ne (fun e => hij e.symm)]
    have hm := Nat.mod_lt (s.calls (ownerOf s.kinds i)) (Nat.succ_pos as.length)
    rw [Nat.succ_eq_add_one] at hm
    unfold nestedLoop
    rcases hn : heapNext h i with ⟨v, h'⟩
    rw [hn] at e1 e2
    simp only at e1 e2
    subst e1
    by_cases hl : s.calls (ownerOf s.kinds i) % (as.length + 1) < as.length
    · rw [List.getElem?_eq_getElem hl, List.drop_eq_getElem_cons hl]
      simp only
      have hmod := add_one_mod_of_lt hl
      obtain ⟨f1, calls, f2, f3, f4⟩ := C149_loop e2 (i := j) hj hb (fuel := inner) (by omega)
      have f1' : (heapLoop j inner h').1 = .ok (bs.drop ((s.call i).calls (ownerOf s.kinds j) % (bs.length + 1))) := f1
      rw [hcj] at f1'
      have f4' := f4 (ownerOf s.kinds i) hij
      rcases hlp : heapLoop j inner h' with ⟨w, h''⟩
      rw [hlp] at f1' f2
      simp only at f1' f2
      subst f1'
      simp only
      have := C149_nested_partial f2 (i := i) (j := j) hi hj hij ha hb f3 (inner := inner) (fuel := fuel) hin (by
        show as.length - calls (ownerOf s.kinds i) % (as.length + 1) < fuel
        rw [f4', hc, hmod]; omega)
      have this' : (nestedLoop i j inner fuel h'').1 =
        .ok ((as.drop (calls (ownerOf s.kinds i) % (as.length + 1))).map fun a => (a, bs)) := this
      rw [f4', hc, hmod] at this'
      rcases hnl : nestedLoop i j inner fuel h'' with ⟨w, h3⟩
      rw [hnl] at this'
      simp only at this'
      subst this'
      rfl
    · rw [List.getElem?_eq_none (by omega), List.drop_of_length_le (by omega)]

/-- **C149** does not hold for a loop inside a loop over regions with the same iterator, for example a region and its scaled
version: the inner loop takes the items of the outer one and leaves the iterator at its start, so the outer loop never ends. -/
theorem C149_nested_refuted {h : List (IterObj α)} {s : IterSpec α} (r : IterInv h s) {i j : Nat} (hi : i < s.kinds.length)
    (hj : j < s.kinds.length) (hij : ownerOf s.kinds i = ownerOf s.kinds j) {as : List (Point × α)}
    (ha : yieldsOf s.kinds i = as.map .ok) (hl : s.calls (ownerOf s.kinds i) % (as.length + 1) < as.length)
    {inner : Nat} (hin : as.length < inner) (fuel : Nat) :
    (nestedLoop i j inner fuel h).1 = .error .diverges := by
  have hb : yieldsOf s.kinds j = as.map .ok := by rw [← yieldsOf_owner r.1 hj, ← hij, yieldsOf_owner r.1 hi, ha]
  induction fuel generalizing h s with
  | zero => rfl
  | succ fuel ih =>
    obtain ⟨e1, e2⟩ := r.call hi
    rw [ha, turnOf_map_ok] at e1
    have hc : (s.call i).calls (ownerOf s.kinds i) = s.calls (ownerOf s.kinds i) + 1 := by
      unfold IterSpec.call
      simp only [Function.update_self]
    unfold nestedLoop
    rcases hn : heapNext h i with ⟨v, h'⟩
    rw [hn] at e1 e2
    simp only at e1 e2
    subst e1
    rw [List.getElem?_eq_getElem hl]
    simp only
    obtain ⟨f1, calls, f2, f3, f4⟩ := C149_loop e2 (i := j) hj hb (fuel := inner) (by omega)
    rcases hlp : heapLoop j inner h' with ⟨w, h''⟩
    rw [hlp] at f1 f2
    simp only at f1 f2
    subst f1
    simp only
    have := ih f2 hi hj hij ha (by
      show calls (ownerOf s.kinds i) % (as.length + 1) < as.length
      have f3' : calls (ownerOf s.kinds i) % (as.length + 1) = 0 := by rw [hij]; exact f3
      omega) hb
    rcases hnl : nestedLoop i j inner fuel h'' with ⟨w, h3⟩
    rw [hnl] at this
    simp only at this
    subst this
    rfl

/-- **C149**, a loop inside a loop over regions with the same iterator: it ends exactly if the iterator was at its end, where
the outer loop gets nothing. -/
theorem C149_nested_exactly_partial {h : List (IterObj α)} {s : IterSpec α} (r : IterInv h s) {i j : Nat}
    (hi : i < s.kinds.length) (hj : j < s.kinds.length) (hij : ownerOf s.kinds i = ownerOf s.kinds j)
    {as : List (Point × α)} (ha : yieldsOf s.kinds i = as.map .ok) {inner : Nat} (hin : as.length < inner) :
    ((∃ fuel out, (nestedLoop i j inner fuel h).1 = .ok out) ↔
      s.calls (ownerOf s.kinds i) % (as.length + 1) = as.length) ∧
    ∀ fuel out, (nestedLoop i j inner fuel h).1 = .ok out → out = [] := by
  have hm := Nat.mod_lt (s.calls (ownerOf s.kinds i)) (Nat.succ_pos as.length)
  rw [Nat.succ_eq_add_one] at hm
  have hend : s.calls (ownerOf s.kinds i) % (as.length + 1) = as.length → ∀ fuel,
      (nestedLoop i j inner (fuel + 1) h).1 = .ok [] := by
    intro he fuel
    obtain ⟨e1, -⟩ := r.call hi
    rw [ha, turnOf_map_ok, he, List.getElem?_eq_none (Nat.le_refl _)] at e1
    unfold nestedLoop
    rcases hn : heapNext h i with ⟨v, h'⟩
    rw [hn] at e1
    simp only at e1
    subst e1
    rfl
  have hback : ∀ fuel out, (nestedLoop i j inner fuel h).1 = .ok out →
      s.calls (ownerOf s.kinds i) % (as.length + 1) = as.length := by
    intro fuel out ho
    by_contra hne
    rw [C149_nested_refuted r hi hj hij ha (by omega) hin fuel] at ho
    cases ho
  refine ⟨⟨fun ⟨fuel, out, ho⟩ => hback fuel out ho, fun he => ⟨1, [], hend he 0⟩⟩, ?_⟩
  intro fuel out ho
  cases fuel with
  | zero => cases ho
  | succ fuel =>
    rw [hend (hback _ _ ho)] at ho
    cases ho
    rfl

/-! ### Examples -/

/-- A region of 2 × 2 points, its scaled version, and a cluster of the scaled version with the points on the diagonal. -/
def iterProgram : List (IterEvent Nat) :=
  [.make (.plain ⟨2, 2, [10, 11, 12, 13]⟩), .make (.delegate 0), .make (.cluster 1 ⟨⟨2, 2, [1, 0, 0, 1]⟩, 2, 0⟩ 1)]

theorem iterProgram_good : ∀ e ∈ iterProgram, e.Good := by
  intro e he
  simp only [iterProgram, List.mem_cons, List.not_mem_nil, or_false] at he
  rcases he with rfl | rfl | rfl
  · show Grid.WF _; unfold Grid.WF; decide
  · trivial
  · show Grid.WF _; unfold Grid.WF; decide

/-- The scaled version goes on where the region is; the cluster has its own iterator. -/
example : (runIter (iterProgram ++ [.next 0, .next 2, .next 1, .next 2, .next 2, .next 0]) []).1.drop 3 =
    [.ok (some (⟨0, 0⟩, 10)), .ok (some (⟨0, 0⟩, 10)), .ok (some (⟨0, 1⟩, 11)), .ok (some (⟨1, 1⟩, 13)), .ok none,
      .ok (some (⟨1, 0⟩, 12))] := by decide +kernel

/-- A loop over the cluster inside a loop over the region. -/
example : (nestedLoop 0 2 10 10 (runIter iterProgram []).2).1 =
    .ok ([(⟨0, 0⟩, 10), (⟨0, 1⟩, 11), (⟨1, 0⟩, 12), (⟨1, 1⟩, 13)].map fun a => (a, [(⟨0, 0⟩, 10), (⟨1, 1⟩, 13)])) :=
  C149_nested_partial (C149_reached iterProgram_good) (by decide +kernel) (by decide +kernel) (by decide +kernel)
    (as := [(⟨0, 0⟩, 10), (⟨0, 1⟩, 11), (⟨1, 0⟩, 12), (⟨1, 1⟩, 13)]) (by decide +kernel) (by decide +kernel)
    (by decide +kernel) (by decide) (by decide +kernel)

/-- A loop over the scaled version inside a loop over the region never ends. -/
example (fuel : Nat) : (nestedLoop 0 1 10 fuel (runIter iterProgram []).2).1 = .error .diverges :=
  C149_nested_refuted (C149_reached iterProgram_good) (by decide +kernel) (by decide +kernel) (by decide +kernel)
    (as := [(⟨0, 0⟩, 10), (⟨0, 1⟩, 11), (⟨1, 0⟩, 12), (⟨1, 1⟩, 13)]) (by decide +kernel) (by decide +kernel)
    (by decide) fuel

/-- The loop over the cluster was left after one item: the first inner loop gets only the other one. -/
example : (nestedLoop 0 2 10 10 (runIter (iterProgram ++ [.next 2, .next 0, .next 0]) []).2).1 =
    .ok [((⟨1, 0⟩, 12), [(⟨1, 1⟩, 13)]), ((⟨1, 1⟩, 13), [(⟨0, 0⟩, 10), (⟨1, 1⟩, 13)])] :=
  C149_nested_resumed (C149_reached (es := iterProgram ++ [.next 2, .next 0, .next 0]) (by
      intro e he
      rcases List.mem_append.1 he with he | he
      · exact iterProgram_good e he
      · simp only [List.mem_cons, List.not_mem_nil, or_false] at he
        rcases he with rfl | rfl | rfl <;> trivial))
    (by decide +kernel) (by decide +kernel) (by decide +kernel)
    (as := [(⟨0, 0⟩, 10), (⟨0, 1⟩, 11), (⟨1, 0⟩, 12), (⟨1, 1⟩, 13)]) (bs := [(⟨0, 0⟩, 10), (⟨1, 1⟩, 13)])
    (by decide +kernel) (by decide +kernel) (by decide) (by decide +kernel)

end Spta
