import Mathlib.Tactic.FieldSimp
import Mathlib.Algebra.Order.Field.Basic
import Verif.Model.Scaling
import Verif.Lemmas.Region

/-!
# Helper lemmas about slices, decorator stacks and scaling
-/

set_option linter.unusedSectionVars false

namespace Spta

/-! ### Slices -/

theorem flatMap_const_getElem? {α β : Type} (f : α → List β) (w : Nat) :
    ∀ (l : List α), (∀ a ∈ l, (f a).length = w) → ∀ (i j : Nat), j < w →
      (l.flatMap f)[i * w + j]? = (l[i]?).bind fun a => (f a)[j]? := by
  intro l
  induction l with
  | nil => intro _ i j _; simp
  | cons a l ih =>
    intro h i j hj
    have hw : (f a).length = w := h a (by simp)
    rw [List.flatMap_cons]
    cases i with
    | zero => rw [List.getElem?_append_left (by omega)]; simp
    | succ i =>
      rw [List.getElem?_append_right (by rw [hw]; nlinarith)]
      have : (i + 1) * w + j - (f a).length = i * w + j := by
        rw [hw, Nat.succ_mul]; omega
      rw [this, ih (fun b hb => h b (by simp [hb])) i j hj]
      simp

theorem flatMap_const_length {α β : Type} (f : α → List β) (w : Nat) :
    ∀ (l : List α), (∀ a ∈ l, (f a).length = w) → (l.flatMap f).length = l.length * w := by
  intro l
  induction l with
  | nil => intro _; simp
  | cons a l ih =>
    intro h
    rw [List.flatMap_cons, List.length_append, ih (fun b hb => h b (by simp [hb])),
      h a (by simp), List.length_cons, Nat.succ_mul]
    omega

namespace Grid

variable {α : Type}

@[simp] theorem slice_xLen (g : Grid α) (r : Region) :
    (g.slice r).xLen = min r.x2 g.xLen - r.x1 := rfl
@[simp] theorem slice_yLen (g : Grid α) (r : Region) :
    (g.slice r).yLen = min r.y2 g.yLen - r.y1 := rfl

theorem slice_row_length (g : Grid α) (h : g.WF) (r : Region) {x : Nat} (hx : x < g.xLen) :
    (((g.data.drop (x * g.yLen)).take (min r.y2 g.yLen)).drop r.y1).length =
      min r.y2 g.yLen - r.y1 := by
  have : g.yLen ≤ g.data.length - x * g.yLen := by
    rw [h]
    have : (x + 1) * g.yLen ≤ g.xLen * g.yLen := Nat.mul_le_mul_right _ hx
    rw [Nat.succ_mul] at this; omega
  simp only [List.length_drop, List.length_take]
  omega

theorem slice_wf {g : Grid α} (h : g.WF) (r : Region) : (g.slice r).WF := by
  unfold WF
  simp only [slice]
  rw [flatMap_const_length _ (min r.y2 g.yLen - r.y1)]
  · simp
  · intro x hx
    have := List.mem_range'_1.1 hx
    exact slice_row_length g h r (by omega)

theorem get_slice (g : Grid α) (h : g.WF) (r : Region) {p : Point}
    (hx : p.x < min r.x2 g.xLen - r.x1) (hy : p.y < min r.y2 g.yLen - r.y1) :
    (g.slice r).get p = g.get ⟨r.x1 + p.x, r.y1 + p.y⟩ := by
  have hx' : r.x1 + p.x < g.xLen := by omega
  have hy' : r.y1 + p.y < g.yLen := by omega
  obtain ⟨v, hv, hg⟩ := g.get_of_lt h (p := ⟨r.x1 + p.x, r.y1 + p.y⟩) hx' hy'
  rw [hg, get_eq_ok_iff]
  refine ⟨hx, hy, ?_⟩
  simp only [slice]
  rw [flatMap_const_getElem? _ (min r.y2 g.yLen - r.y1) _ _ _ _ hy]
  · rw [List.getElem?_range' (by exact hx)]
    simp only [Option.bind_some, List.getElem?_drop, Nat.one_mul]
    rw [List.getElem?_take_of_lt (by omega), List.getElem?_drop, ← hv]
  · intro x hx
    have := List.mem_range'_1.1 hx
    exact slice_row_length g h r (by omega)

end Grid

theorem sliceSeries_getElem? {α : Type} (s : List α) (ti : TimeInterval) (n : Nat) :
    (sliceSeries s ti)[n]? = if ti.t1 + n < ti.t2 then s[ti.t1 + n]? else none := by
  unfold sliceSeries
  rw [List.getElem?_drop]
  split
  · rename_i h; rw [List.getElem?_take_of_lt h]
  · rename_i h
    rw [List.getElem?_eq_none]
    simp only [List.length_take]; omega

theorem sliceSeries_length {α : Type} (s : List α) (ti : TimeInterval) :
    (sliceSeries s ti).length = min ti.t2 s.length - ti.t1 := by simp [sliceSeries]

theorem Cube.wf_of_get {α : Type} {c : Cube α} (h : c.grid.WF)
    (hl : ∀ p v, c.grid.get p = .ok v → v.length = c.tLen) : c.WF := by
  refine ⟨h, ?_⟩
  intro w hw
  obtain ⟨m, hm, hmw⟩ := List.mem_iff_getElem.1 hw
  have hm' : m < c.grid.xLen * c.grid.yLen := by
    have h5 : c.grid.data.length = _ := h
    exact h5 ▸ hm
  refine hl ⟨m / c.grid.yLen, m % c.grid.yLen⟩ w ?_
  rw [Grid.get_eq_ok_iff]
  refine ⟨div_lt_of_lt_mul' hm', mod_lt_of_lt_mul hm', ?_⟩
  simp only [idx_of_div_mod]
  rw [List.getElem?_eq_getElem hm, hmw]

theorem Cube.get_length {α : Type} {c : Cube α} (h : c.WF) {p : Point} {v : List α}
    (hv : c.grid.get p = .ok v) : v.length = c.tLen :=
  h.2 v (List.mem_of_getElem? ((Grid.get_eq_ok_iff _ _ _).1 hv).2.2)

theorem Cube.regionSlice_wf {α : Type} {c : Cube α} (h : c.WF) (r : Region) :
    (c.regionSlice r).WF := by
  refine Cube.wf_of_get (Grid.slice_wf h.1 r) ?_
  intro p v hv
  have hr := (Grid.get_eq_ok_iff _ _ _).1 hv
  have : (c.grid.slice r).get p = .ok v := hv
  rw [Grid.get_slice _ h.1 r hr.1 hr.2.1] at this
  exact Cube.get_length h this

theorem Cube.intervalSlice_wf {α : Type} {c : Cube α} (h : c.WF) (ti : TimeInterval) :
    (c.intervalSlice ti).WF := by
  refine ⟨?_, ?_⟩
  · have := h.1
    simpa [Cube.intervalSlice, Grid.WF] using this
  · intro s hs
    simp only [Cube.intervalSlice, List.mem_map] at hs
    obtain ⟨s', hs', rfl⟩ := hs
    rw [sliceSeries_length, h.2 s' hs']; rfl

theorem Grid.get_map {α β : Type} (g : Grid α) (f : α → β) (p : Point) :
    (⟨g.xLen, g.yLen, g.data.map f⟩ : Grid β).get p = (g.get p).map f := by
  unfold Grid.get
  simp only [List.getElem?_map]
  split
  · cases g.data[p.x * g.yLen + p.y]? <;> rfl
  · rfl

/-! ### Application of functions -/

section apply

variable {α β : Type}

theorem applyWith_inv (f : Point → α → Except PyErr β) :
    ∀ (items : List (Point × α)) (acc g : Grid β), applyWith f items acc = .ok g →
      ∀ it ∈ items, ∃ b, f it.1 it.2 = .ok b := by
  intro items
  induction items with
  | nil => intro _ _ _ it hit; simp at hit
  | cons a rest ih =>
    intro acc g h it hit
    obtain ⟨p, v⟩ := a
    simp only [applyWith] at h
    split at h
    · cases h
    · rename_i b hb
      split at h
      · cases h
      · rename_i acc' hacc'
        rcases List.mem_cons.1 hit with rfl | hit
        · exact ⟨b, hb⟩
        · exact ih _ _ h it hit

theorem applyWith_ok (f : Point → α → Except PyErr β) :
    ∀ (items : List (Point × α)) (acc : Grid β), acc.WF → (items.map Prod.fst).Nodup →
      (∀ it ∈ items, it.1.x < acc.xLen ∧ it.1.y < acc.yLen) →
      (∀ it ∈ items, ∃ b, f it.1 it.2 = .ok b) →
      ∃ g, applyWith f items acc = .ok g ∧ g.xLen = acc.xLen ∧ g.yLen = acc.yLen ∧ g.WF ∧
        (∀ it ∈ items, g.get it.1 = f it.1 it.2) ∧
        (∀ p : Point, p.x < acc.xLen → p.y < acc.yLen → p ∉ items.map Prod.fst →
          g.get p = acc.get p) := by
  intro items
  induction items with
  | nil => intro acc h _ _ _; exact ⟨acc, rfl, rfl, rfl, h, by simp, fun _ _ _ _ => rfl⟩
  | cons a rest ih =>
    intro acc hwf hnd hin hf
    obtain ⟨p, v⟩ := a
    obtain ⟨b, hb⟩ := hf (p, v) (by simp)
    obtain ⟨hpx, hpy⟩ := hin (p, v) (by simp)
    have hset := acc.set_ok b hpx hpy
    have hget := fun (q : Point) hqx hqy => Grid.get_set acc _ hwf (q := q) b hset hqx hqy
    obtain ⟨e1, e2, hwf', _⟩ := hget p hpx hpy
    simp only [List.map_cons, List.nodup_cons] at hnd
    obtain ⟨g, h1, h2, h3, h4, h5, h6⟩ := ih _ hwf' hnd.2
      (fun it hit => by
        have := hin it (by simp [hit])
        rw [e1, e2]; exact this)
      (fun it hit => hf it (by simp [hit]))
    refine ⟨g, ?_, by rw [h2, e1], by rw [h3, e2], h4, ?_, ?_⟩
    · simp only at hb
      simp only [applyWith, hb, hset, h1]
    · intro it hit
      rcases List.mem_cons.1 hit with rfl | hit
      · rw [h6 p (by rw [e1]; exact hpx) (by rw [e2]; exact hpy) hnd.1]
        rw [(hget p hpx hpy).2.2.2, if_pos rfl]
        exact hb.symm
      · exact h5 it hit
    · intro q hqx hqy hq
      simp only [List.map_cons, List.mem_cons, not_or] at hq
      rw [h6 q (by rw [e1]; exact hqx) (by rw [e2]; exact hqy) hq.2, (hget q hqx hqy).2.2.2,
        if_neg hq.1]

end apply

/-! ### Items -/

theorem itemsAt_ok {V : Type} (f : Point → Except PyErr V) :
    ∀ ps : List Point, (∀ p ∈ ps, ∃ v, f p = .ok v) →
      ∃ items, Stack.itemsAt f ps = .ok items ∧ items.map Prod.fst = ps ∧
        ∀ it ∈ items, f it.1 = .ok it.2 := by
  intro ps
  induction ps with
  | nil => intro _; exact ⟨[], rfl, rfl, by simp⟩
  | cons p ps ih =>
    intro h
    obtain ⟨v, hv⟩ := h p (by simp)
    obtain ⟨items, h1, h2, h3⟩ := ih (fun q hq => h q (by simp [hq]))
    refine ⟨(p, v) :: items, by simp [Stack.itemsAt, hv, h1], by simp [h2], ?_⟩
    intro it hit
    rcases List.mem_cons.1 hit with rfl | hit
    · exact hv
    · exact h3 it hit

theorem membersOf_ok (pt : Partition) (hwf : pt.labels.WF) (i : Nat) :
    ∀ ps : List Point, (∀ p ∈ ps, p.x < pt.labels.xLen ∧ p.y < pt.labels.yLen) →
      Stack.membersOf pt i ps = .ok (ps.filter (pt.has i)) := by
  intro ps
  induction ps with
  | nil => intro _; rfl
  | cons p ps ih =>
    intro h
    have hp := h p (by simp)
    simp only [Stack.membersOf, pt.isMember_eq hwf hp.1 hp.2, ih (fun q hq => h q (by simp [hq])),
      List.filter_cons]

theorem allPoints_eq (xLen yLen : Nat) : Stack.allPoints xLen yLen = rowMajor xLen yLen :=
  (rowMajor_eq_map _ _).symm

/-! ### Stacks -/

namespace Stack

variable {K : Type} [Field K] [LinearOrder K]

/-- The datasets of spatial regions are well-formed arrays. -/
def _root_.Spta.SpStack.WF {V : Type} : SpStack V → Prop
  | .plain g => g.WF
  | .cluster inner _ _ => inner.WF

/-- The shape invariants of a stack built from numpy arrays: the cube is well formed, a partition
has the shape of the region it decorates and only claims points the decorated region has, scaling
data covers the points of the decorated region. -/
def OK : Stack K → Prop
  | plain c => c.WF
  | scaled inner smin smax => inner.OK ∧ (smin.WF ∧ smax.WF) ∧
      ∀ p v, inner.seriesAt p = .ok v →
        (∃ lo, smin.valueAt p = .ok lo) ∧ ∃ hi, smax.valueAt p = .ok hi
  | cluster inner part i => inner.OK ∧ part.labels.WF ∧
      part.labels.xLen = inner.data.grid.xLen ∧ part.labels.yLen = inner.data.grid.yLen ∧
      ∀ p, part.labels.get p = .ok i → ∃ v, inner.seriesAt p = .ok v

theorem OK.data_wf {s : Stack K} (h : s.OK) : s.data.WF := by
  induction s with
  | plain c => exact h
  | scaled inner _ _ ih => exact ih h.1
  | cluster inner _ _ ih => exact ih h.1

theorem cluster_seriesAt_iff {inner : Stack K} {part : Partition} {i : Nat} {p : Point}
    {v : List (Option K)} :
    (cluster inner part i).seriesAt p = .ok v ↔
      part.labels.get p = .ok i ∧ inner.seriesAt p = .ok v := by
  simp only [seriesAt, Partition.isMember]
  cases hl : part.labels.get p with
  | error e => simp
  | ok l =>
    by_cases h : l = i
    · simp [h]
    · have : (l == i) = false := by simp [h]
      simp [h, this]

theorem seriesAt_data {s : Stack K} {p : Point} {v : List (Option K)}
    (h : s.seriesAt p = .ok v) : s.data.grid.get p = .ok v := by
  induction s with
  | plain c => exact h
  | scaled inner _ _ ih => exact ih h
  | cluster inner part i ih => exact ih (cluster_seriesAt_iff.1 h).2

theorem seriesAt_range {s : Stack K} {p : Point} {v : List (Option K)}
    (h : s.seriesAt p = .ok v) : p.x < s.data.grid.xLen ∧ p.y < s.data.grid.yLen := by
  have := (Grid.get_eq_ok_iff _ _ _).1 (seriesAt_data h)
  exact ⟨this.1, this.2.1⟩

theorem seriesAt_length {s : Stack K} (hs : s.OK) {p : Point} {v : List (Option K)}
    (h : s.seriesAt p = .ok v) : v.length = s.data.tLen := by
  have := (Grid.get_eq_ok_iff _ _ _).1 (seriesAt_data h)
  exact hs.data_wf.2 v (List.mem_of_getElem? this.2.2)

@[simp] theorem data_new (s : Stack K) (c : Cube (Option K)) : (s.new c).data = c := by
  induction s with
  | plain _ => rfl
  | scaled inner _ _ ih => exact ih
  | cluster inner _ _ ih => exact ih

theorem new_new (s : Stack K) (c d : Cube (Option K)) : (s.new c).new d = s.new d := by
  induction s with
  | plain _ => rfl
  | scaled inner _ _ ih => simp [new, ih]
  | cluster inner _ _ ih => simp [new, ih]

theorem new_data (s : Stack K) : s.new s.data = s := by
  induction s with
  | plain _ => rfl
  | scaled inner _ _ ih => simp [new, data, ih]
  | cluster inner _ _ ih => simp [new, data, ih]

@[simp] theorem hasScaling_new (s : Stack K) (c : Cube (Option K)) :
    (s.new c).hasScaling = s.hasScaling := by
  induction s with
  | plain _ => rfl
  | scaled inner _ _ ih => rfl
  | cluster inner _ _ ih => exact ih

theorem seriesAt_new_eq {s : Stack K} (c : Cube (Option K)) {p : Point} {v : List (Option K)}
    (h : s.seriesAt p = .ok v) : (s.new c).seriesAt p = c.grid.get p := by
  induction s with
  | plain _ => rfl
  | scaled inner _ _ ih => exact ih h
  | cluster inner part i ih =>
    obtain ⟨h1, h2⟩ := cluster_seriesAt_iff.1 h
    simp [new, seriesAt, Partition.isMember, h1, ih h2]

/-- The points of a stack (where `series_at` answers) depend only on the decorators and the
2d shape. -/
theorem seriesAt_new_iff {s : Stack K} (hs : s.OK) {c : Cube (Option K)}
    (hx : c.grid.xLen = s.data.grid.xLen) (hy : c.grid.yLen = s.data.grid.yLen) {p : Point}
    {w : List (Option K)} :
    (s.new c).seriesAt p = .ok w ↔ c.grid.get p = .ok w ∧ ∃ v, s.seriesAt p = .ok v := by
  constructor
  · intro h
    refine ⟨by simpa using seriesAt_data h, ?_⟩
    have hr := seriesAt_range h
    simp only [data_new, hx, hy] at hr
    clear hx hy
    induction s with
    | plain d => exact Grid.exists_get _ hs.1 hr.1 hr.2
    | scaled inner _ _ ih => exact ih hs.1 h hr
    | cluster inner part i ih =>
      obtain ⟨h1, h2⟩ := cluster_seriesAt_iff.1 h
      obtain ⟨v, hv⟩ := ih hs.1 h2 hr
      exact ⟨v, cluster_seriesAt_iff.2 ⟨h1, hv⟩⟩
  · rintro ⟨h, v, hv⟩
    rw [seriesAt_new_eq c hv]; exact h

theorem OK.new {s : Stack K} (hs : s.OK) {c : Cube (Option K)} (hc : c.WF)
    (hx : c.grid.xLen = s.data.grid.xLen) (hy : c.grid.yLen = s.data.grid.yLen) :
    (s.new c).OK := by
  induction s with
  | plain _ => exact hc
  | scaled inner smin smax ih =>
    refine ⟨ih hs.1 hx hy, hs.2.1, ?_⟩
    intro p v h
    obtain ⟨_, w, hw⟩ := (seriesAt_new_iff hs.1 hx hy).1 h
    exact hs.2.2 p w hw
  | cluster inner part i ih =>
    refine ⟨ih hs.1 hx hy, hs.2.1, by rw [data_new, hx]; exact hs.2.2.1,
      by rw [data_new, hy]; exact hs.2.2.2.1, ?_⟩
    intro p hp
    obtain ⟨v, hv⟩ := hs.2.2.2.2 p hp
    have hr := seriesAt_range hv
    change p.x < inner.data.grid.xLen ∧ _ at hr
    obtain ⟨w, hw⟩ := c.grid.exists_get hc.1 (p := p) (by rw [hx]; exact hr.1)
      (by rw [hy]; exact hr.2)
    exact ⟨w, by rw [seriesAt_new_eq c hv]; exact hw⟩

theorem items_ok {s : Stack K} (hs : s.OK) :
    ∃ items, s.items = .ok items ∧ (items.map Prod.fst).Nodup ∧
      (∀ it ∈ items, s.seriesAt it.1 = .ok it.2) ∧
      (∀ p v, s.seriesAt p = .ok v → (p, v) ∈ items) := by
  induction s with
  | plain c =>
    obtain ⟨items, h1, h2, h3⟩ := itemsAt_ok c.grid.get (rowMajor c.grid.xLen c.grid.yLen)
      (fun p hp => c.grid.exists_get hs.1 (mem_rowMajor.1 hp).1 (mem_rowMajor.1 hp).2)
    refine ⟨items, by simp only [Stack.items, allPoints_eq, h1], by rw [h2]; exact rowMajor_nodup _ _,
      h3, ?_⟩
    intro p v hv
    have hr := seriesAt_range hv
    have : p ∈ items.map Prod.fst := by rw [h2]; exact mem_rowMajor.2 hr
    obtain ⟨it, hit, rfl⟩ := List.mem_map.1 this
    have h4 := h3 it hit
    have h5 : c.grid.get it.1 = .ok v := hv
    rw [h4] at h5; cases h5
    exact hit
  | scaled inner _ _ ih => exact ih hs.1
  | cluster inner part i ih =>
    have hm := membersOf_ok part hs.2.1 i (rowMajor inner.data.grid.xLen inner.data.grid.yLen)
      (fun p hp => by
        rw [hs.2.2.1, hs.2.2.2.1]; exact mem_rowMajor.1 hp)
    obtain ⟨items, h1, h2, h3⟩ := itemsAt_ok (cluster inner part i).seriesAt
      ((rowMajor inner.data.grid.xLen inner.data.grid.yLen).filter (part.has i))
      (fun p hp => by
        have hp := (List.mem_filter.1 hp).2
        rw [part.has_iff] at hp
        obtain ⟨v, hv⟩ := hs.2.2.2.2 p hp
        exact ⟨v, cluster_seriesAt_iff.2 ⟨hp, hv⟩⟩)
    refine ⟨items, by simp only [Stack.items, allPoints_eq, hm, h1],
      by rw [h2]; exact (rowMajor_nodup _ _).filter _, h3, ?_⟩
    intro p v hv
    have hr := seriesAt_range hv
    have : p ∈ items.map Prod.fst := by
      rw [h2, List.mem_filter, part.has_iff]
      exact ⟨mem_rowMajor.2 hr, (cluster_seriesAt_iff.1 hv).1⟩
    obtain ⟨it, hit, rfl⟩ := List.mem_map.1 this
    have h4 := h3 it hit
    rw [hv] at h4; cases h4
    exact hit

theorem newSpatial_wf {V : Type} (s : Stack K) {g : Grid V} (h : g.WF) : (s.newSpatial g).WF := by
  induction s with
  | plain _ => exact h
  | scaled inner _ _ ih => exact ih
  | cluster inner part i ih => exact ih

theorem valueAt_newSpatial {V : Type} {s : Stack K} (g : Grid V) {p : Point}
    {v : List (Option K)} (h : s.seriesAt p = .ok v) : (s.newSpatial g).valueAt p = g.get p := by
  induction s with
  | plain _ => rfl
  | scaled inner _ _ ih => exact ih h
  | cluster inner part i ih =>
    obtain ⟨h1, h2⟩ := cluster_seriesAt_iff.1 h
    simp [newSpatial, SpStack.valueAt, Partition.isMember, h1, ih h2]

/-- `apply_function_series` point by point. -/
theorem applySeries_ok {s : Stack K} (hs : s.OK)
    (f : Point → List (Option K) → Except PyErr (List (Option K))) (n : Nat)
    (hf : ∀ p v, s.seriesAt p = .ok v → ∃ w, f p v = .ok w ∧ w.length = n) :
    ∃ g, s.applySeries f n = .ok (s.new ⟨n, g⟩) ∧ g.xLen = s.data.grid.xLen ∧
      g.yLen = s.data.grid.yLen ∧ (⟨n, g⟩ : Cube (Option K)).WF ∧
      (∀ p v, s.seriesAt p = .ok v → g.get p = f p v) ∧
      (∀ p : Point, p.x < g.xLen → p.y < g.yLen → (∀ v, s.seriesAt p ≠ .ok v) →
        g.get p = .ok (List.replicate n (some 0))) := by
  obtain ⟨items, h1, h2, h3, h4⟩ := items_ok hs
  obtain ⟨g, g1, g2, g3, g4, g5, g6⟩ := applyWith_ok f items
    (Grid.const s.data.grid.xLen s.data.grid.yLen (List.replicate n (some 0)))
    (Grid.const_wf _ _ _) h2 (fun it hit => seriesAt_range (h3 it hit))
    (fun it hit => by obtain ⟨w, hw, _⟩ := hf _ _ (h3 it hit); exact ⟨w, hw⟩)
  have hout : ∀ p : Point, p.x < g.xLen → p.y < g.yLen → (∀ v, s.seriesAt p ≠ .ok v) →
        g.get p = .ok (List.replicate n (some 0)) := by
    intro p hx hy hno
    rw [g6 p (by rw [← g2]; exact hx) (by rw [← g3]; exact hy)]
    · exact Grid.get_const (by rw [g2] at hx; exact hx) (by rw [g3] at hy; exact hy)
    · intro hp
      obtain ⟨it, hit, rfl⟩ := List.mem_map.1 hp
      exact hno _ (h3 it hit)
  refine ⟨g, by simp only [applySeries, h1, g1], g2, g3, ⟨g4, ?_⟩,
    fun p v hv => g5 (p, v) (h4 p v hv), hout⟩
  intro w hw
  obtain ⟨m, hm, hmw⟩ := List.mem_iff_getElem.1 hw
  have hm' : m < g.xLen * g.yLen := by
    have h5 : g.data.length = g.xLen * g.yLen := g4
    exact h5 ▸ hm
  have hx := div_lt_of_lt_mul' hm'
  have hy := mod_lt_of_lt_mul hm'
  have hget : g.get ⟨m / g.yLen, m % g.yLen⟩ = .ok w := by
    rw [Grid.get_eq_ok_iff]
    refine ⟨hx, hy, ?_⟩
    simp only [idx_of_div_mod]
    rw [List.getElem?_eq_getElem hm, hmw]
  by_cases hex : ∃ v, s.seriesAt ⟨m / g.yLen, m % g.yLen⟩ = .ok v
  · obtain ⟨v, hv⟩ := hex
    obtain ⟨w', hw', hl⟩ := hf _ _ hv
    rw [g5 (_, v) (h4 _ _ hv), hw'] at hget
    cases hget; exact hl
  · push Not at hex
    rw [hout _ hx hy hex] at hget
    cases hget; simp

/-- `apply_function_scalar` point by point. -/
theorem applyScalar_ok {s : Stack K} (hs : s.OK)
    (f : Point → List (Option K) → Except PyErr (Option K))
    (hf : ∀ p v, s.seriesAt p = .ok v → ∃ w, f p v = .ok w) :
    ∃ g, s.applyScalar f = .ok (s.newSpatial g) ∧ g.xLen = s.data.grid.xLen ∧
      g.yLen = s.data.grid.yLen ∧ g.WF ∧ (∀ p v, s.seriesAt p = .ok v → g.get p = f p v) := by
  obtain ⟨items, h1, h2, h3, h4⟩ := items_ok hs
  obtain ⟨g, g1, g2, g3, g4, g5, g6⟩ := applyWith_ok f items
    (Grid.const s.data.grid.xLen s.data.grid.yLen (some 0))
    (Grid.const_wf _ _ _) h2 (fun it hit => seriesAt_range (h3 it hit))
    (fun it hit => hf _ _ (h3 it hit))
  exact ⟨g, by simp only [applyScalar, h1, g1], g2, g3, g4, fun p v hv => g5 (p, v) (h4 p v hv)⟩

theorem intervalSubset_eq (s : Stack K) (ti : TimeInterval) :
    s.intervalSubset ti = s.new (s.data.intervalSlice ti) := by
  induction s with
  | plain _ => rfl
  | scaled inner _ _ ih => rfl
  | cluster inner part i ih => simp only [intervalSubset, ih, data_new]; rfl

end Stack

end Spta

namespace Spta

/-! ### Series -/

section series

variable {K : Type} [Field K] [LinearOrder K]

theorem min?_spec' {l : List K} {a : K} (h : l.min? = some a) : a ∈ l ∧ ∀ b ∈ l, a ≤ b :=
  List.min?_eq_some_iff.1 h

theorem max?_spec' {l : List K} {a : K} (h : l.max? = some a) : a ∈ l ∧ ∀ b ∈ l, b ≤ a :=
  List.max?_eq_some_iff.1 h

theorem mem_values {s : List (Option K)} {v : K} : v ∈ s.filterMap id ↔ some v ∈ s := by simp

theorem min?_none_iff {s : List (Option K)} :
    (s.filterMap id).min? = none ↔ ∀ v ∈ s, v = none := by
  rw [List.min?_eq_none_iff, List.filterMap_eq_nil_iff]; rfl

theorem max?_none_iff {s : List (Option K)} :
    (s.filterMap id).max? = none ↔ ∀ v ∈ s, v = none := by
  rw [List.max?_eq_none_iff, List.filterMap_eq_nil_iff]; rfl

end series

end Spta
