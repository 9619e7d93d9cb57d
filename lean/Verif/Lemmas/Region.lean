import Mathlib.Data.List.Range
import Mathlib.Tactic.Ring
import Verif.Model.Region
import Verif.Spec.Region
import Verif.Lemmas.Grid

/-!
# Helper lemmas about iteration, clusters and merging
-/

namespace Spta

variable {α β : Type}

theorem mem_rowMajor {xLen yLen : Nat} {p : Point} :
    p ∈ rowMajor xLen yLen ↔ p.x < xLen ∧ p.y < yLen := by
  simp only [rowMajor, List.mem_flatMap, List.mem_map, List.mem_range]
  constructor
  · rintro ⟨x, hx, y, hy, rfl⟩; exact ⟨hx, hy⟩
  · rintro ⟨hx, hy⟩; exact ⟨p.x, hx, p.y, hy, rfl⟩

theorem rowMajor_eq_map (xLen yLen : Nat) :
    rowMajor xLen yLen = (List.range (xLen * yLen)).map fun n => ⟨n / yLen, n % yLen⟩ := by
  unfold rowMajor
  induction xLen with
  | zero => simp
  | succ x ih =>
    rw [List.range_succ, List.flatMap_append, ih, Nat.succ_mul, List.range_add, List.map_append]
    congr 1
    simp only [List.flatMap_singleton, List.map_map]
    apply List.map_congr_left
    intro y hy
    have hy := List.mem_range.1 hy
    simp [idx_div hy, idx_mod hy]

theorem rowMajor_nodup (xLen yLen : Nat) : (rowMajor xLen yLen).Nodup := by
  rw [rowMajor_eq_map]
  refine (List.nodup_range).map_on ?_
  intro a ha b hb h
  simp only [Point.mk.injEq] at h
  have h1 := idx_of_div_mod a yLen
  have h2 := idx_of_div_mod b yLen
  rw [h.1, h.2] at h1
  omega

theorem rowMajor_length (xLen yLen : Nat) : (rowMajor xLen yLen).length = xLen * yLen := by
  rw [rowMajor_eq_map]; simp

/-- The points still to be visited when the cursor is at `i`. -/
def pointsFrom (xLen yLen i : Nat) : List Point :=
  (List.range' i (xLen * yLen - i)).map fun n => ⟨n / yLen, n % yLen⟩

theorem pointsFrom_zero (xLen yLen : Nat) : pointsFrom xLen yLen 0 = rowMajor xLen yLen := by
  rw [rowMajor_eq_map, pointsFrom, List.range_eq_range']; simp

theorem pointsFrom_eq_drop (xLen yLen i : Nat) :
    pointsFrom xLen yLen i = (rowMajor xLen yLen).drop i := by
  rw [rowMajor_eq_map, pointsFrom, ← List.map_drop, List.range_eq_range', List.drop_range']
  simp

theorem pointsFrom_of_le {xLen yLen i : Nat} (h : xLen * yLen ≤ i) : pointsFrom xLen yLen i = [] := by
  simp [pointsFrom, Nat.sub_eq_zero_of_le h]

theorem pointsFrom_succ {xLen yLen i : Nat} (h : i < xLen * yLen) :
    pointsFrom xLen yLen i = ⟨i / yLen, i % yLen⟩ :: pointsFrom xLen yLen (i + 1) := by
  unfold pointsFrom
  have : xLen * yLen - i = (xLen * yLen - (i + 1)) + 1 := by omega
  rw [this, List.range'_succ]; rfl

theorem baseNext_stop {xLen yLen i : Nat} (h : xLen * yLen ≤ i) : baseNext xLen yLen i = (none, 0) := by
  unfold baseNext; rw [if_pos (by rw [Nat.mul_comm]; exact h)]

theorem baseNext_step {xLen yLen i : Nat} (h : i < xLen * yLen) :
    baseNext xLen yLen i = (some ⟨i / yLen, i % yLen⟩, i + 1) := by
  unfold baseNext; rw [if_neg (by rw [Nat.mul_comm]; omega)]

/-- The value of a well-formed grid at an in-range point (total version of `get`). -/
theorem Grid.exists_get (g : Grid α) (h : g.WF) {p : Point} (hx : p.x < g.xLen) (hy : p.y < g.yLen) :
    ∃ v, g.get p = .ok v := by
  obtain ⟨v, _, hv⟩ := g.get_of_lt h hx hy; exact ⟨v, hv⟩

/-- Items of a list of points with the values of the grid; `f p v` relation as a function. -/
theorem Grid.exists_fn (g : Grid α) (h : g.WF) :
    ∃ v : Point → Option α, ∀ p : Point, p.x < g.xLen → p.y < g.yLen → ∃ a, v p = some a ∧ g.get p = .ok a := by
  refine ⟨fun p => match g.get p with | .ok a => some a | .error _ => none, ?_⟩
  intro p hx hy
  obtain ⟨a, ha⟩ := g.exists_get h hx hy
  exact ⟨a, by simp [ha], ha⟩

/-! ### Plain regions -/

theorem ItemsOf.unique {g : Grid α} {ps : List Point} {a b : List (Point × α)}
    (ha : ItemsOf g ps a) (hb : ItemsOf g ps b) : a = b := by
  induction ps generalizing a b with
  | nil =>
    have h1 := ha.1; have h2 := hb.1
    simp only [List.map_eq_nil_iff] at h1 h2
    rw [h1, h2]
  | cons p ps ih =>
    cases a with
    | nil => simp [ItemsOf] at ha
    | cons x a =>
      cases b with
      | nil => simp [ItemsOf] at hb
      | cons y b =>
        obtain ⟨ha1, ha2⟩ := ha
        obtain ⟨hb1, hb2⟩ := hb
        simp only [List.map_cons, List.cons.injEq] at ha1 hb1
        have hx := ha2 x (by simp)
        have hy := hb2 y (by simp)
        have hxy : x = y := by
          rw [ha1.1] at hx; rw [hb1.1] at hy
          rw [hx] at hy
          exact Prod.ext (ha1.1.trans hb1.1.symm) (by simpa using hy)
        have := ih (a := a) (b := b) ⟨ha1.2, fun it h => ha2 it (by simp [h])⟩
          ⟨hb1.2, fun it h => hb2 it (by simp [h])⟩
        rw [hxy, this]

theorem itemsOf_nil (g : Grid α) : ItemsOf g [] [] := ⟨rfl, by simp⟩

theorem itemsOf_cons {g : Grid α} {p : Point} {v : α} {ps : List Point} {items : List (Point × α)}
    (hv : g.get p = .ok v) (h : ItemsOf g ps items) : ItemsOf g (p :: ps) ((p, v) :: items) := by
  refine ⟨by simp [h.1], ?_⟩
  intro it hit
  rcases List.mem_cons.1 hit with rfl | hit
  · exact hv
  · exact h.2 it hit

theorem cursor_point_in {xLen yLen i : Nat} (h : i < xLen * yLen) :
    i / yLen < xLen ∧ i % yLen < yLen := ⟨div_lt_of_lt_mul' h, mod_lt_of_lt_mul h⟩

theorem RegionObj.next_stop (g : Grid α) {i : Nat} (h : g.xLen * g.yLen ≤ i) :
    RegionObj.next ⟨g, i⟩ = .ok (none, ⟨g, 0⟩) := by
  simp [RegionObj.next, baseNext_stop h]

theorem RegionObj.next_step (g : Grid α) (hwf : g.WF) {i : Nat} (h : i < g.xLen * g.yLen) :
    ∃ v, g.get ⟨i / g.yLen, i % g.yLen⟩ = .ok v ∧
      RegionObj.next ⟨g, i⟩ = .ok (some (⟨i / g.yLen, i % g.yLen⟩, v), ⟨g, i + 1⟩) := by
  obtain ⟨h1, h2⟩ := cursor_point_in h
  obtain ⟨v, hv⟩ := g.exists_get hwf (p := ⟨i / g.yLen, i % g.yLen⟩) h1 h2
  exact ⟨v, hv, by simp [RegionObj.next, baseNext_step h, hv]⟩

theorem RegionObj.loopAux_eq (g : Grid α) (h : g.WF) :
    ∀ (fuel i : Nat), 0 < fuel → g.xLen * g.yLen + 1 ≤ fuel + i →
      ∃ items, loopAux RegionObj.next fuel ⟨g, i⟩ = .ok (items, ⟨g, 0⟩) ∧
        ItemsOf g (pointsFrom g.xLen g.yLen i) items := by
  intro fuel
  induction fuel with
  | zero => intro i h0; omega
  | succ fuel ih =>
    intro i _ hi
    rcases Nat.lt_or_ge i (g.xLen * g.yLen) with hlt | hge
    · obtain ⟨v, hv, hn⟩ := RegionObj.next_step g h hlt
      obtain ⟨items, h1, h2⟩ := ih (i + 1) (by omega) (by omega)
      refine ⟨(⟨i / g.yLen, i % g.yLen⟩, v) :: items, by simp [loopAux, hn, h1], ?_⟩
      rw [pointsFrom_succ hlt]
      exact itemsOf_cons hv h2
    · refine ⟨[], by simp [loopAux, RegionObj.next_stop g hge], ?_⟩
      rw [pointsFrom_of_le hge]; exact itemsOf_nil g

theorem RegionObj.loop_eq (r : RegionObj α) (h : r.data.WF) :
    ∃ items, r.loop = .ok (items, ⟨r.data, 0⟩) ∧
      ItemsOf r.data (pointsFrom r.data.xLen r.data.yLen r.pointIndex) items :=
  RegionObj.loopAux_eq r.data h _ r.pointIndex (by omega) (by omega)

theorem RegionObj.breakAux_eq (g : Grid α) (h : g.WF) :
    ∀ (m i : Nat), i + m ≤ g.xLen * g.yLen →
      ∃ items, breakAux RegionObj.next m ⟨g, i⟩ = .ok (items, ⟨g, i + m⟩) ∧
        ItemsOf g ((pointsFrom g.xLen g.yLen i).take m) items := by
  intro m
  induction m with
  | zero => intro i _; exact ⟨[], by simp [breakAux], by simpa using itemsOf_nil g⟩
  | succ m ih =>
    intro i hi
    obtain ⟨v, hv, hn⟩ := RegionObj.next_step g h (i := i) (by omega)
    obtain ⟨items, h1, h2⟩ := ih (i + 1) (by omega)
    refine ⟨(⟨i / g.yLen, i % g.yLen⟩, v) :: items, by
      have e : i + 1 + m = i + (m + 1) := by omega
      simp [breakAux, hn, h1, e], ?_⟩
    rw [pointsFrom_succ (by omega), List.take_succ_cons]
    exact itemsOf_cons hv h2

/-! ### Partition loop -/

theorem Partition.loopAux_eq (l : Grid Nat) (k : Nat) :
    ∀ (fuel i : Nat), 0 < fuel → l.xLen * l.yLen + 1 ≤ fuel + i →
      loopAux Partition.next fuel ⟨l, k, i⟩ = .ok (pointsFrom l.xLen l.yLen i, ⟨l, k, 0⟩) := by
  intro fuel
  induction fuel with
  | zero => intro i h0; omega
  | succ fuel ih =>
    intro i _ hi
    rcases Nat.lt_or_ge i (l.xLen * l.yLen) with hlt | hge
    · have := ih (i + 1) (by omega) (by omega)
      simp [loopAux, Partition.next, baseNext_step hlt, this, pointsFrom_succ hlt]
    · simp [loopAux, Partition.next, baseNext_stop hge, pointsFrom_of_le hge]

theorem Partition.loop_eq (pt : Partition) :
    pt.loop = .ok (pointsFrom pt.labels.xLen pt.labels.yLen pt.pointIndex,
      { pt with pointIndex := 0 }) :=
  Partition.loopAux_eq pt.labels pt.k _ pt.pointIndex (by omega) (by omega)

/-! ### Clusters -/

/-- `p` carries label `i` in the membership matrix (specification). -/
def Partition.has (pt : Partition) (i : Nat) (p : Point) : Bool := decide (pt.labels.get p = .ok i)

theorem Partition.has_iff (pt : Partition) (i : Nat) (p : Point) :
    pt.has i p = true ↔ pt.labels.get p = .ok i := by simp [Partition.has]

theorem Partition.isMember_eq (pt : Partition) (h : pt.labels.WF) {p : Point}
    (hx : p.x < pt.labels.xLen) (hy : p.y < pt.labels.yLen) (i : Nat) :
    pt.isMember p i = .ok (pt.has i p) := by
  obtain ⟨v, hv⟩ := pt.labels.exists_get h hx hy
  by_cases e : v = i <;> simp [Partition.isMember, Partition.has, hv, e]

/-- A cluster as created by a partition: matching shapes, well-formed arrays. -/
structure ClusterObj.OK (c : ClusterObj α) : Prop where
  wfR : c.region.WF
  wfL : c.part.labels.WF
  sx : c.part.labels.xLen = c.region.xLen
  sy : c.part.labels.yLen = c.region.yLen

theorem ClusterObj.OK.isMember {c : ClusterObj α} (h : c.OK) {p : Point}
    (hx : p.x < c.region.xLen) (hy : p.y < c.region.yLen) :
    c.part.isMember p c.index = .ok (c.part.has c.index p) :=
  c.part.isMember_eq h.wfL (by rw [h.sx]; exact hx) (by rw [h.sy]; exact hy) _

theorem ClusterObj.valueAt_member {c : ClusterObj α} (h : c.OK) {p : Point}
    (hm : c.part.labels.get p = .ok c.index) : c.valueAt p = c.region.get p := by
  have hb := (Grid.get_eq_ok_iff _ _ _).1 hm
  rw [h.sx, h.sy] at hb
  simp [ClusterObj.valueAt, h.isMember hb.1 hb.2.1, (c.part.has_iff _ _).2 hm]

theorem ClusterObj.valueAt_nonmember {c : ClusterObj α} (h : c.OK) {p : Point}
    (hx : p.x < c.region.xLen) (hy : p.y < c.region.yLen)
    (hm : c.part.labels.get p ≠ .ok c.index) : c.valueAt p = .error .valueError := by
  have : c.part.has c.index p = false := by simp [Partition.has, hm]
  simp [ClusterObj.valueAt, h.isMember hx hy, this]

/-- The outcome of one call of a cluster's `__next__` with the cursor at `i`. -/
theorem ClusterObj.nextAux_eq (g : Grid α) (pt : Partition) (idx : Nat)
    (hok : (⟨g, pt, idx, 0⟩ : ClusterObj α).OK) :
    ∀ (fuel i : Nat), 0 < fuel → g.xLen * g.yLen + 1 ≤ fuel + i →
      ((pointsFrom g.xLen g.yLen i).filter (pt.has idx) = [] ∧
        ClusterObj.nextAux fuel ⟨g, pt, idx, i⟩ = .ok (none, ⟨g, pt, idx, 0⟩)) ∨
      (∃ p v j, (pointsFrom g.xLen g.yLen i).filter (pt.has idx) =
          p :: (pointsFrom g.xLen g.yLen j).filter (pt.has idx) ∧ g.get p = .ok v ∧
        i < j ∧ j ≤ g.xLen * g.yLen ∧
        ClusterObj.nextAux fuel ⟨g, pt, idx, i⟩ = .ok (some (p, v), ⟨g, pt, idx, j⟩)) := by
  intro fuel
  induction fuel with
  | zero => intro i h0; omega
  | succ fuel ih =>
    intro i _ hi
    rcases Nat.lt_or_ge i (g.xLen * g.yLen) with hlt | hge
    · obtain ⟨h1, h2⟩ := cursor_point_in hlt
      have hmem := hok.isMember (p := ⟨i / g.yLen, i % g.yLen⟩) h1 h2
      simp only at hmem
      obtain ⟨v, hv⟩ := g.exists_get hok.wfR (p := ⟨i / g.yLen, i % g.yLen⟩) h1 h2
      rw [pointsFrom_succ hlt]
      cases hb : pt.has idx ⟨i / g.yLen, i % g.yLen⟩ with
      | true =>
        right
        refine ⟨_, v, i + 1, by simp [hb], hv, by omega, by omega, ?_⟩
        rw [hb] at hmem
        simp [ClusterObj.nextAux, baseNext_step hlt, hmem, ClusterObj.valueAt, hv]
      | false =>
        rw [hb] at hmem
        have e : ClusterObj.nextAux (fuel + 1) ⟨g, pt, idx, i⟩ =
            ClusterObj.nextAux fuel ⟨g, pt, idx, i + 1⟩ := by
          simp [ClusterObj.nextAux, baseNext_step hlt, hmem]
        rw [e]
        simp only [List.filter_cons, hb]
        rcases ih (i + 1) (by omega) (by omega) with h | ⟨p, v, j, h3, h4, h5, h6, h7⟩
        · exact Or.inl h
        · exact Or.inr ⟨p, v, j, h3, h4, by omega, h6, h7⟩
    · left
      simp [ClusterObj.nextAux, baseNext_stop hge, pointsFrom_of_le hge]

theorem ClusterObj.loopAux_eq (g : Grid α) (pt : Partition) (idx : Nat)
    (hok : (⟨g, pt, idx, 0⟩ : ClusterObj α).OK) :
    ∀ (fuel i : Nat), 0 < fuel → g.xLen * g.yLen + 1 ≤ fuel + i →
      ∃ items, loopAux ClusterObj.next fuel ⟨g, pt, idx, i⟩ = .ok (items, ⟨g, pt, idx, 0⟩) ∧
        ItemsOf g ((pointsFrom g.xLen g.yLen i).filter (pt.has idx)) items := by
  intro fuel
  induction fuel with
  | zero => intro i h0; omega
  | succ fuel ih =>
    intro i _ hi
    rcases ClusterObj.nextAux_eq g pt idx hok (g.xLen * g.yLen + 1) i (by omega) (by omega) with
      ⟨h1, h2⟩ | ⟨p, v, j, h1, h2, h3, h4, h5⟩
    · refine ⟨[], by simp [loopAux, ClusterObj.next, h2], ?_⟩
      rw [h1]; exact itemsOf_nil g
    · obtain ⟨items, h6, h7⟩ := ih j (by omega) (by omega)
      refine ⟨(p, v) :: items, by simp [loopAux, ClusterObj.next, h5, h6], ?_⟩
      rw [h1]; exact itemsOf_cons h2 h7

theorem ClusterObj.OK.reset {c : ClusterObj α} (h : c.OK) :
    (⟨c.region, c.part, c.index, 0⟩ : ClusterObj α).OK := ⟨h.wfR, h.wfL, h.sx, h.sy⟩

theorem ClusterObj.loop_eq (c : ClusterObj α) (h : c.OK) :
    ∃ items, c.loop = .ok (items, { c with pointIndex := 0 }) ∧
      ItemsOf c.region ((pointsFrom c.region.xLen c.region.yLen c.pointIndex).filter
        (c.part.has c.index)) items :=
  ClusterObj.loopAux_eq c.region c.part c.index h.reset _ c.pointIndex (by omega) (by omega)

/-! ### Functions applied to the items of a loop -/

theorem applyItems_eq (f : Grid (α → β)) (hf : f.WF) (v : Point → α) :
    ∀ (ps : List Point) (items : List (Point × α)) (acc : Grid β), acc.WF →
      acc.xLen = f.xLen → acc.yLen = f.yLen →
      items = ps.map (fun p => (p, v p)) →
      (∀ p ∈ ps, p.x < f.xLen ∧ p.y < f.yLen) →
      ∃ g, applyItems f items acc = .ok g ∧ g.WF ∧ g.xLen = f.xLen ∧ g.yLen = f.yLen ∧
        ∀ q : Point, q.x < f.xLen → q.y < f.yLen →
          (q ∈ ps → ∃ fn, f.get q = .ok fn ∧ g.get q = .ok (fn (v q))) ∧
          (q ∉ ps → g.get q = acc.get q) := by
  intro ps
  induction ps with
  | nil =>
    intro items acc hwf hx hy hit _
    subst hit
    exact ⟨acc, rfl, hwf, hx, hy, fun q _ _ => ⟨by simp, by simp⟩⟩
  | cons p ps ih =>
    intro items acc hwf hx hy hit hin
    subst hit
    obtain ⟨hpx, hpy⟩ := hin p (by simp)
    obtain ⟨fn, hfn⟩ := f.exists_get hf hpx hpy
    have hset := acc.set_ok (p := p) (fn (v p)) (by rw [hx]; exact hpx) (by rw [hy]; exact hpy)
    set acc' : Grid β := { acc with data := acc.data.set (p.x * acc.yLen + p.y) (fn (v p)) }
    have hgs := fun (q : Point) h1 h2 => acc.get_set acc' hwf (p := p) (q := q) (fn (v p)) hset h1 h2
    have hwf' : acc'.WF := (hgs p (by rw [hx]; exact hpx) (by rw [hy]; exact hpy)).2.2.1
    obtain ⟨g, h1, h2, h3, h4, h5⟩ := ih _ acc' hwf' hx hy rfl (fun q hq => hin q (by simp [hq]))
    refine ⟨g, by simp [applyItems, hfn, hset, h1], h2, h3, h4, ?_⟩
    intro q hqx hqy
    obtain ⟨h6, h7⟩ := h5 q hqx hqy
    have hq := (hgs q (by rw [hx]; exact hqx) (by rw [hy]; exact hqy)).2.2.2
    constructor
    · intro hmem
      by_cases hqp : q ∈ ps
      · exact h6 hqp
      · have : q = p := by simpa [hqp] using hmem
        subst this
        exact ⟨fn, hfn, by rw [h7 hqp, hq, if_pos rfl]⟩
    · intro hmem
      simp only [List.mem_cons, not_or] at hmem
      rw [h7 hmem.2, hq, if_neg hmem.1]

theorem ItemsOf.exists_fn {g : Grid α} {ps : List Point} {items : List (Point × α)}
    (h : ItemsOf g ps items) (hne : Nonempty α) :
    ∃ v : Point → α, items = ps.map (fun p => (p, v p)) ∧ ∀ p ∈ ps, g.get p = .ok (v p) := by
  obtain ⟨d⟩ := hne
  refine ⟨fun p => match g.get p with | .ok a => a | .error _ => d, ?_, ?_⟩
  · rw [← h.1, List.map_map]
    conv_lhs => rw [← List.map_id items]
    apply List.map_congr_left
    intro it hit
    have := h.2 it hit
    simp only [id, Function.comp, this]
  · intro p hp
    rw [← h.1] at hp
    obtain ⟨it, hit, rfl⟩ := List.mem_map.1 hp
    simp [h.2 it hit]

/-! ### Merging -/

theorem mergeItems_eq (pt : Partition) (cs : List (ClusterObj α)) (val : Point → α) :
    ∀ (ps : List Point) (acc : Grid α), acc.WF → acc.xLen = pt.labels.xLen →
      acc.yLen = pt.labels.yLen →
      (∀ p ∈ ps, p.x < pt.labels.xLen ∧ p.y < pt.labels.yLen ∧
        ∃ l c, pt.labels.get p = .ok l ∧ cs[l]? = some c ∧ c.valueAt p = .ok (val p)) →
      ∃ g, mergeItems pt cs ps acc = .ok g ∧ g.WF ∧ g.xLen = pt.labels.xLen ∧
        g.yLen = pt.labels.yLen ∧
        ∀ q : Point, q.x < pt.labels.xLen → q.y < pt.labels.yLen →
          g.get q = if q ∈ ps then .ok (val q) else acc.get q := by
  intro ps
  induction ps with
  | nil =>
    intro acc hwf hx hy _
    exact ⟨acc, rfl, hwf, hx, hy, by simp⟩
  | cons p ps ih =>
    intro acc hwf hx hy hin
    obtain ⟨hpx, hpy, l, c, hl, hc, hv⟩ := hin p (by simp)
    have hset := acc.set_ok (p := p) (val p) (by rw [hx]; exact hpx) (by rw [hy]; exact hpy)
    set acc' : Grid α := { acc with data := acc.data.set (p.x * acc.yLen + p.y) (val p) }
    have hgs := fun (q : Point) h1 h2 => acc.get_set acc' hwf (p := p) (q := q) (val p) hset h1 h2
    have hwf' : acc'.WF := (hgs p (by rw [hx]; exact hpx) (by rw [hy]; exact hpy)).2.2.1
    obtain ⟨g, h1, h2, h3, h4, h5⟩ := ih acc' hwf' hx hy (fun q hq => hin q (by simp [hq]))
    refine ⟨g, by simp [mergeItems, hl, hc, hv, hset, h1], h2, h3, h4, ?_⟩
    intro q hqx hqy
    rw [h5 q hqx hqy]
    have hq := (hgs q (by rw [hx]; exact hqx) (by rw [hy]; exact hqy)).2.2.2
    by_cases hqp : q ∈ ps
    · simp [hqp]
    · simp only [hqp, if_false, List.mem_cons, or_false, hq]
      by_cases e : q = p
      · simp [e]
      · simp [e]

end Spta
