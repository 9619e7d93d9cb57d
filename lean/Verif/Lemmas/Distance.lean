import Mathlib.Algebra.Ring.Defs
import Mathlib.Tactic.Ring
import Verif.Spec.Distance
import Verif.Lemmas.Parallel
import Verif.Lemmas.Except
import Verif.Props.Iteration

/-!
# Lemmas about distance objects
-/

namespace Spta

variable {K : Type}

theorem Grid.rowAt_get {m : Grid K} (h : m.WF) {i : Nat} (hi : i < m.xLen) :
    ∃ row, m.rowAt i = .ok row ∧ row.length = m.yLen ∧
      ∀ b < m.yLen, ∃ v, row[b]? = some v ∧ m.get ⟨i, b⟩ = .ok v := by
  refine ⟨(m.data.drop (i * m.yLen)).take m.yLen, by simp only [Grid.rowAt, hi, if_true], ?_, ?_⟩
  · rw [List.length_take, List.length_drop, h]
    have : (i + 1) * m.yLen ≤ m.xLen * m.yLen := Nat.mul_le_mul_right _ hi
    have e : (i + 1) * m.yLen = i * m.yLen + m.yLen := by ring
    omega
  · intro b hb
    obtain ⟨v, hv, hg⟩ := m.get_of_lt h (p := ⟨i, b⟩) hi hb
    refine ⟨v, ?_, hg⟩
    rw [List.getElem?_take, if_pos hb, List.getElem?_drop]
    exact hv

theorem sqDist_eq (p q : Point) :
    (((q.x : Int) - (p.x : Int)) * ((q.x : Int) - (p.x : Int)) +
      ((q.y : Int) - (p.y : Int)) * ((q.y : Int) - (p.y : Int))).toNat = sqDist p q := by
  unfold sqDist
  have h1 := Int.natAbs_mul_self' ((p.x : Int) - q.x)
  have h2 := Int.natAbs_mul_self' ((p.y : Int) - q.y)
  have : ((q.x : Int) - (p.x : Int)) * ((q.x : Int) - (p.x : Int)) +
      ((q.y : Int) - (p.y : Int)) * ((q.y : Int) - (p.y : Int)) =
      ((((p.x : Int) - q.x).natAbs ^ 2 + ((p.y : Int) - q.y).natAbs ^ 2 : Nat) : Int) := by
    push_cast
    rw [pow_two, pow_two]
    push_cast at h1 h2
    rw [h1, h2]; ring
  rw [this]; rfl

theorem npAdd_eq_length [Add K] {a b : List K} (h : a.length = b.length) :
    npAdd a b = .ok (List.zipWith (· + ·) a b) := by
  match a, b, h with
  | [], [], _ => rfl
  | [x], [y], _ => rfl
  | x :: x' :: a, y :: y' :: b, h => simp only [npAdd, h, if_true]

section

variable [CommRing K] (root : Nat → K) (weight : K)

theorem norms_length (points : List Point) (p : Point) :
    (norms root points p).length = points.length := by simp [norms]

theorem weightRow_ok {m : Grid K} (h : m.WF) {xLen yLen : Nat} (hx : m.xLen = xLen * yLen)
    (hy : m.yLen = xLen * yLen) {index : Nat} (hi : index < xLen * yLen) :
    ∃ m', weightRow root weight yLen (listOf2dPoints xLen yLen ⟨0, 0⟩) index m = .ok m' ∧ m'.WF ∧
      m'.xLen = m.xLen ∧ m'.yLen = m.yLen ∧ ∀ a < m.xLen, ∀ b < m.yLen,
        (a = index → ∃ v, m.get ⟨a, b⟩ = .ok v ∧ m'.get ⟨a, b⟩ =
          .ok (v + weight * root (sqDist ⟨a / yLen, a % yLen⟩ ⟨b / yLen, b % yLen⟩))) ∧
        (a ≠ index → m'.get ⟨a, b⟩ = m.get ⟨a, b⟩) := by
  obtain ⟨row, r1, r2, r3⟩ := Grid.rowAt_get h (i := index) (by omega)
  have hl : ((norms root (listOf2dPoints xLen yLen ⟨0, 0⟩) ⟨index / yLen, index % yLen⟩).map
      fun e => e * weight).length = row.length := by
    rw [List.length_map, norms_length, listOf2dPoints_eq, rowMajor_length, r2, hy]
  obtain ⟨m', e1, e2, e3, e4, e5⟩ := m.setRow_ok h (i := index) (by omega)
    (row := List.zipWith (· + ·) row ((norms root (listOf2dPoints xLen yLen ⟨0, 0⟩)
      ⟨index / yLen, index % yLen⟩).map fun e => e * weight))
    (by rw [List.length_zipWith, hl, min_self, r2])
  refine ⟨m', ?_, e2, e3, e4, ?_⟩
  · simp only [weightRow, r1, npAdd_eq_length hl.symm, e1]
  · intro a ha b hb
    refine ⟨?_, (e5 a ha b hb).2⟩
    rintro rfl
    obtain ⟨v, hv, hget⟩ := (e5 a ha b hb).1 rfl
    obtain ⟨w, hw, hgw⟩ := r3 b hb
    refine ⟨w, hgw, ?_⟩
    rw [hget]
    rw [List.getElem?_zipWith, hw, listOf2dPoints_eq, rowMajor_eq_map] at hv
    have hb' : b < xLen * yLen := by omega
    simp only [norms, List.map_map, List.getElem?_map, List.getElem?_range hb', Option.map_some,
      Function.comp_apply, Option.some.injEq] at hv
    rw [← hv, sqDist_eq ⟨a / yLen, a % yLen⟩ ⟨b / yLen, b % yLen⟩, mul_comm]

theorem weightRows_ok {xLen yLen : Nat} :
    ∀ (ks : List Nat) (m : Grid K), m.WF → m.xLen = xLen * yLen → m.yLen = xLen * yLen →
      ks.Nodup → (∀ k ∈ ks, k < xLen * yLen) →
    ∃ m', weightRows root weight yLen (listOf2dPoints xLen yLen ⟨0, 0⟩) ks m = (.ok (), m') ∧
      m'.WF ∧ m'.xLen = m.xLen ∧ m'.yLen = m.yLen ∧ ∀ a < m.xLen, ∀ b < m.yLen,
        (a ∈ ks → ∃ v, m.get ⟨a, b⟩ = .ok v ∧ m'.get ⟨a, b⟩ =
          .ok (v + weight * root (sqDist ⟨a / yLen, a % yLen⟩ ⟨b / yLen, b % yLen⟩))) ∧
        (a ∉ ks → m'.get ⟨a, b⟩ = m.get ⟨a, b⟩) := by
  intro ks
  induction ks with
  | nil => intro m h _ _ _ _; exact ⟨m, rfl, h, rfl, rfl, fun a _ b _ => ⟨by simp, by simp⟩⟩
  | cons k ks ih =>
    intro m h hx hy hnd hks
    obtain ⟨m1, e1, e2, e3, e4, e5⟩ := weightRow_ok root weight h hx hy (index := k)
      (hks k (by simp))
    obtain ⟨m2, f1, f2, f3, f4, f5⟩ := ih m1 e2 (by omega) (by omega) (List.nodup_cons.1 hnd).2
      fun x hx => hks x (by simp [hx])
    refine ⟨m2, by simp only [weightRows, e1, f1], f2, by omega, by omega, ?_⟩
    intro a ha b hb
    obtain ⟨g1, g2⟩ := e5 a ha b hb
    obtain ⟨k1, k2⟩ := f5 a (by omega) b (by omega)
    by_cases hak : a = k
    · subst hak
      have hn : a ∉ ks := (List.nodup_cons.1 hnd).1
      refine ⟨fun _ => ?_, fun hh => absurd (by simp) hh⟩
      obtain ⟨v, hv, hget⟩ := g1 rfl
      exact ⟨v, hv, (k2 hn).trans hget⟩
    · constructor
      · intro hm
        have hm' : a ∈ ks := by simpa [hak] using hm
        obtain ⟨v, hv, hget⟩ := k1 hm'
        exact ⟨v, (g2 hak) ▸ hv, hget⟩
      · intro hm
        have hm' : a ∉ ks := fun hh => hm (by simp [hh])
        exact (k2 hm').trans (g2 hak)

/-- Weighting a matrix that fits. -/
theorem weightRows_fits {m : Grid K} (h : m.WF) {r : Region} (hf : FitsRegion m r) :
    ∃ m', weightRows root weight (r.y2 - r.y1)
        (listOf2dPoints (r.x2 - r.x1) (r.y2 - r.y1) ⟨0, 0⟩)
        (List.range ((r.x2 - r.x1) * (r.y2 - r.y1))) m = (.ok (), m') ∧
      WeightedOnce root weight r m m' := by
  obtain ⟨m', e1, e2, e3, e4, e5⟩ := weightRows_ok root weight (xLen := r.x2 - r.x1)
    (yLen := r.y2 - r.y1) (List.range ((r.x2 - r.x1) * (r.y2 - r.y1))) m h hf.1 hf.2
    List.nodup_range (by simp)
  refine ⟨m', e1, e2, e3, e4, ?_⟩
  intro p q hpx hpy hqx hqy
  have hp := idx_lt hpx hpy
  have hq := idx_lt hqx hqy
  have := (e5 _ (by rw [hf.1]; exact hp) _ (by rw [hf.2]; exact hq)).1 (List.mem_range.2 hp)
  rwa [idx_div hpy, idx_mod hpy, idx_div hqy, idx_mod hqy] at this

/-- Weighting a square matrix that does not fit: nothing changes. -/
theorem weightRows_misfit (h0 : root 0 = 0) {m : Grid K} (h : m.WF) (hsq : m.xLen = m.yLen)
    {r : Region} (hf : ¬ FitsRegion m r) :
    (weightRows root weight (r.y2 - r.y1) (listOf2dPoints (r.x2 - r.x1) (r.y2 - r.y1) ⟨0, 0⟩)
        (List.range ((r.x2 - r.x1) * (r.y2 - r.y1))) m).2 = m := by
  have hne : m.yLen ≠ (r.x2 - r.x1) * (r.y2 - r.y1) := fun e => hf ⟨hsq.trans e, e⟩
  have hlen : (listOf2dPoints (r.x2 - r.x1) (r.y2 - r.y1) ⟨0, 0⟩).length =
      (r.x2 - r.x1) * (r.y2 - r.y1) := by rw [listOf2dPoints_eq, rowMajor_length]
  have hpt : (r.x2 - r.x1) * (r.y2 - r.y1) = 1 →
      listOf2dPoints (r.x2 - r.x1) (r.y2 - r.y1) ⟨0, 0⟩ = [⟨0, 0⟩] := by
    intro e1
    have a := Nat.eq_one_of_mul_eq_one_right e1
    have b := Nat.eq_one_of_mul_eq_one_left e1
    rw [a, b]; rfl
  generalize listOf2dPoints (r.x2 - r.x1) (r.y2 - r.y1) ⟨0, 0⟩ = pts at hlen hpt ⊢
  generalize hyl : r.y2 - r.y1 = yl at hlen hpt hne ⊢
  generalize (r.x2 - r.x1) * yl = n at hne hlen hpt ⊢
  cases n with
  | zero => simp [weightRows]
  | succ n =>
    rw [List.range_succ_eq_map]
    by_cases hm : 0 < m.xLen
    · obtain ⟨row, r1, r2, r3⟩ := Grid.rowAt_get h hm
      by_cases hn : n = 0
      · subst hn
        have := hpt rfl
        subst this
        have hadd : npAdd row ((norms root [⟨0, 0⟩] ⟨0 / yl, 0 % yl⟩).map fun e => e * weight) =
            .ok row := by
          have e : (norms root [⟨0, 0⟩] ⟨0 / yl, 0 % yl⟩).map (fun e => e * weight) = [0] := by
            simp [norms, h0]
          rw [e]
          match row with
          | [] => simp [npAdd]
          | [x] => simp [npAdd]
          | x :: y :: l => simp [npAdd]
        obtain ⟨m', e1, e2, e3, e4, e5⟩ := m.setRow_ok h hm r2
        have : m' = m := by
          apply Grid.ext_get e2 h e3 e4
          intro p hpx hpy
          rw [e3] at hpx; rw [e4] at hpy
          obtain ⟨g1, g2⟩ := e5 p.x hpx p.y hpy
          by_cases hp0 : p.x = 0
          · obtain ⟨v, hv, hg⟩ := g1 hp0
            obtain ⟨w, hw, hgw⟩ := r3 p.y hpy
            rw [hv] at hw; cases hw
            rw [← hp0] at hgw
            exact hg.trans hgw.symm
          · exact g2 hp0
        subst this
        simp only [weightRows, weightRow, r1, hadd, e1, zero_add, List.range_zero, List.map_nil]
      · have hbad : ∀ x, npAdd row ((norms root pts ⟨0 / yl, 0 % yl⟩).map fun e => e * weight) =
            .ok x → m.setRow 0 x = .error .valueError := by
          intro x hx
          have hl2 : ((norms root pts ⟨0 / yl, 0 % yl⟩).map fun e => e * weight).length = n + 1 := by
            rw [List.length_map, norms_length, hlen]
          generalize (norms root pts ⟨0 / yl, 0 % yl⟩).map (fun e => e * weight) = es at hx hl2
          have hxl : x.length ≠ m.yLen := by
            unfold npAdd at hx
            split at hx
            · cases hx
              rw [List.length_map, hl2]; omega
            · simp only [List.length_cons, List.length_nil] at hl2; omega
            · split at hx
              · omega
              · cases hx
          simp only [Grid.setRow, hm, if_true, hxl, if_false]
        cases hx : npAdd row ((norms root pts ⟨0 / yl, 0 % yl⟩).map fun e => e * weight) with
        | error e => simp only [weightRows, weightRow, r1, hx]
        | ok x => simp only [weightRows, weightRow, r1, hx, hbad x hx]
    · have : m.rowAt 0 = .error .indexError := by simp only [Grid.rowAt, hm, if_false]
      simp only [weightRows, weightRow, this]

end

end Spta
