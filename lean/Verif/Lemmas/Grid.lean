import Mathlib.Tactic.Ring
import Mathlib.Tactic.Linarith
import Verif.Model.Basic

/-!
# Helper lemmas about points, slices and 2d arrays
-/

namespace Spta

theorem idx_lt {xLen yLen x y : Nat} (hx : x < xLen) (hy : y < yLen) :
    x * yLen + y < xLen * yLen := by
  calc x * yLen + y < x * yLen + yLen := by omega
    _ = (x + 1) * yLen := by ring
    _ ≤ xLen * yLen := Nat.mul_le_mul_right _ hx

theorem idx_div {yLen x y : Nat} (hy : y < yLen) : (x * yLen + y) / yLen = x := by
  rw [Nat.mul_comm, Nat.mul_add_div (by omega), Nat.div_eq_of_lt hy, Nat.add_zero]

theorem idx_mod {yLen x y : Nat} (hy : y < yLen) : (x * yLen + y) % yLen = y := by
  rw [Nat.mul_comm, Nat.mul_add_mod, Nat.mod_eq_of_lt hy]

theorem idx_of_div_mod (n yLen : Nat) : n / yLen * yLen + n % yLen = n := by
  rw [Nat.mul_comm]; exact Nat.div_add_mod n yLen

theorem div_lt_of_lt_mul' {n xLen yLen : Nat} (h : n < xLen * yLen) : n / yLen < xLen := by
  rcases Nat.eq_zero_or_pos yLen with h0 | h0
  · subst h0; simp at h
  · exact (Nat.div_lt_iff_lt_mul h0).2 h

theorem mod_lt_of_lt_mul {n xLen yLen : Nat} (h : n < xLen * yLen) : n % yLen < yLen := by
  rcases Nat.eq_zero_or_pos yLen with h0 | h0
  · subst h0; simp at h
  · exact Nat.mod_lt _ h0

theorem idx_inj {yLen x y x' y' : Nat} (hy : y < yLen) (hy' : y' < yLen)
    (h : x * yLen + y = x' * yLen + y') : x = x' ∧ y = y' := by
  have h1 := idx_div (x := x) hy
  have h2 := idx_div (x := x') hy'
  have h3 := idx_mod (x := x) hy
  have h4 := idx_mod (x := x') hy'
  rw [h] at h1 h3
  exact ⟨h1 ▸ h2, h3 ▸ h4⟩

namespace Grid

variable {α β : Type}

theorem get_of_lt (g : Grid α) (h : g.WF) {p : Point} (hx : p.x < g.xLen) (hy : p.y < g.yLen) :
    ∃ v, g.data[p.x * g.yLen + p.y]? = some v ∧ g.get p = .ok v := by
  have hl : p.x * g.yLen + p.y < g.data.length := by rw [h]; exact idx_lt hx hy
  refine ⟨g.data[p.x * g.yLen + p.y], List.getElem?_eq_getElem hl, ?_⟩
  simp [get, hx, hy, List.getElem?_eq_getElem hl]

theorem get_eq_ok_iff (g : Grid α) (p : Point) (v : α) :
    g.get p = .ok v ↔
      p.x < g.xLen ∧ p.y < g.yLen ∧ g.data[p.x * g.yLen + p.y]? = some v := by
  unfold get
  split
  · rename_i h
    cases hd : g.data[p.x * g.yLen + p.y]? <;> simp [h]
  · rename_i h
    constructor
    · intro h'; cases h'
    · rintro ⟨h1, h2, _⟩; exact absurd ⟨h1, h2⟩ h

theorem const_wf (xLen yLen : Nat) (v : α) : (const xLen yLen v).WF := by simp [WF, const]

theorem get_const {xLen yLen : Nat} {v : α} {p : Point} (hx : p.x < xLen) (hy : p.y < yLen) :
    (const xLen yLen v).get p = .ok v := by
  rw [get_eq_ok_iff]
  refine ⟨hx, hy, ?_⟩
  simp [const, idx_lt hx hy]

theorem ofFn_wf (xLen yLen : Nat) (f : Nat → Nat → α) : (ofFn xLen yLen f).WF := by
  simp [WF, ofFn]

theorem get_ofFn {xLen yLen : Nat} {f : Nat → Nat → α} {p : Point}
    (hx : p.x < xLen) (hy : p.y < yLen) : (ofFn xLen yLen f).get p = .ok (f p.x p.y) := by
  rw [get_eq_ok_iff]
  refine ⟨hx, hy, ?_⟩
  simp [ofFn, idx_lt hx hy, idx_div hy, idx_mod hy]

@[simp] theorem setSlice_xLen (g : Grid α) (a b c d : Int) (v : α) :
    (g.setSlice a b c d v).xLen = g.xLen := rfl
@[simp] theorem setSlice_yLen (g : Grid α) (a b c d : Int) (v : α) :
    (g.setSlice a b c d v).yLen = g.yLen := rfl

theorem setSlice_wf {g : Grid α} (h : g.WF) (a b c d : Int) (v : α) :
    (g.setSlice a b c d v).WF := by simpa [WF, setSlice] using h

theorem get_setSlice (g : Grid α) (h : g.WF) (a b c d : Int) (v : α) {p : Point}
    (hx : p.x < g.xLen) (hy : p.y < g.yLen) :
    (g.setSlice a b c d v).get p =
      if pyBound g.xLen a ≤ p.x ∧ p.x < pyBound g.xLen b ∧
         pyBound g.yLen c ≤ p.y ∧ p.y < pyBound g.yLen d then .ok v else g.get p := by
  obtain ⟨w, hw, hg⟩ := get_of_lt g h hx hy
  rw [hg]
  by_cases hc : pyBound g.xLen a ≤ p.x ∧ p.x < pyBound g.xLen b ∧
         pyBound g.yLen c ≤ p.y ∧ p.y < pyBound g.yLen d
  · rw [if_pos hc, get_eq_ok_iff]
    refine ⟨hx, hy, ?_⟩
    simp only [setSlice, List.getElem?_mapIdx, hw, Option.map_some, idx_div hy, idx_mod hy]
    rw [if_pos hc]
  · rw [if_neg hc, get_eq_ok_iff]
    refine ⟨hx, hy, ?_⟩
    simp only [setSlice, List.getElem?_mapIdx, hw, Option.map_some, idx_div hy, idx_mod hy]
    rw [if_neg hc]

/-- Two well-formed arrays of the same shape with equal cells are equal. -/
theorem ext_get {g h : Grid α} (hg : g.WF) (hh : h.WF) (hx : g.xLen = h.xLen)
    (hy : g.yLen = h.yLen)
    (heq : ∀ p : Point, p.x < g.xLen → p.y < g.yLen → g.get p = h.get p) : g = h := by
  cases g with
  | mk gx gy gd =>
  cases h with
  | mk hx' hy' hd =>
  simp only at hx hy
  subst hx; subst hy
  congr 1
  simp only [WF] at hg hh
  apply List.ext_getElem?
  intro n
  by_cases hn : n < gx * gy
  · have h1 := div_lt_of_lt_mul' hn
    have h2 := mod_lt_of_lt_mul hn
    have := heq ⟨n / gy, n % gy⟩ h1 h2
    obtain ⟨v, hv, hgv⟩ := get_of_lt ⟨gx, gy, gd⟩ hg (p := ⟨n / gy, n % gy⟩) h1 h2
    rw [hgv] at this
    have hr := (get_eq_ok_iff _ _ _).1 this.symm
    simp only [idx_of_div_mod] at hv hr
    rw [hv, hr.2.2]
  · rw [List.getElem?_eq_none (by omega), List.getElem?_eq_none (by omega)]

theorem set_ok (g : Grid α) {p : Point} (v : α) (hx : p.x < g.xLen) (hy : p.y < g.yLen) :
    g.set p v = .ok { g with data := g.data.set (p.x * g.yLen + p.y) v } := by
  simp [set, hx, hy]

theorem get_set (g g' : Grid α) (h : g.WF) {p q : Point} (v : α) (hs : g.set p v = .ok g')
    (hqx : q.x < g.xLen) (hqy : q.y < g.yLen) :
    g'.xLen = g.xLen ∧ g'.yLen = g.yLen ∧ g'.WF ∧
      g'.get q = if q = p then .ok v else g.get q := by
  unfold set at hs
  split at hs
  · rename_i hp
    cases hs
    refine ⟨rfl, rfl, by simpa [WF] using h, ?_⟩
    have hlp : p.x * g.yLen + p.y < g.data.length := by rw [h]; exact idx_lt hp.1 hp.2
    split
    · rename_i hqp
      subst hqp
      rw [get_eq_ok_iff]
      exact ⟨hqx, hqy, by simp [hlp]⟩
    · rename_i hqp
      obtain ⟨w, hw, hgw⟩ := get_of_lt g h hqx hqy
      rw [hgw, get_eq_ok_iff]
      refine ⟨hqx, hqy, ?_⟩
      have hne : p.x * g.yLen + p.y ≠ q.x * g.yLen + q.y := by
        intro he
        have := idx_inj hp.2 hqy he
        apply hqp
        cases p; cases q; simp_all
      simp only [List.getElem?_set_ne hne]
      exact hw
  · cases hs

end Grid

end Spta
