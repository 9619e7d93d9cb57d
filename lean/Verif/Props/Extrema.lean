import Mathlib.Order.WithBot
import Mathlib.Algebra.Order.Monoid.WithTop
import Verif.Spec.Extrema
import Verif.Model.Extrema
import Verif.Lemmas.Scaling
import Verif.Lemmas.Cluster
import Verif.Props.Clusters
import Verif.Props.Scaling

/-!
# C22–C25: extrema, repetition, subsets, centroid
-/

set_option linter.unusedSectionVars false

namespace Spta

variable {ι V : Type}

/-- What the strict search loop computes. -/
theorem strictBest_spec (lt : V → V → Prop) [DecidableRel lt]
    (htr : ∀ a b c, lt a b → lt b c → lt a c)
    (htri : ∀ a b, ¬ lt a b → ¬ lt b a → a = b) :
    ∀ (items : List (ι × Option V)) (s : Option ι × V),
      (strictBest lt items s = s ∧ ∀ it ∈ items, ∀ v, it.2 = some v → ¬ lt v s.2) ∨
      ∃ pre i m post, items = pre ++ (i, some m) :: post ∧ strictBest lt items s = (some i, m) ∧
        lt m s.2 ∧ (∀ it ∈ pre, ∀ v, it.2 = some v → lt m v) ∧
        (∀ it ∈ post, ∀ v, it.2 = some v → ¬ lt v m) := by
  intro items
  induction items with
  | nil => intro s; left; exact ⟨rfl, by simp⟩
  | cons a rest ih =>
    intro s
    obtain ⟨i, ov⟩ := a
    cases ov with
    | none =>
      rcases ih s with ⟨h1, h2⟩ | ⟨pre, j, m, post, h1, h2, h3, h4, h5⟩
      · left
        refine ⟨by simpa [strictBest] using h1, ?_⟩
        intro it hit v hv
        rcases List.mem_cons.1 hit with rfl | hit
        · cases hv
        · exact h2 it hit v hv
      · right
        refine ⟨(i, none) :: pre, j, m, post, by rw [h1]; rfl, by simpa [strictBest] using h2, h3,
          ?_, h5⟩
        intro it hit v hv
        rcases List.mem_cons.1 hit with rfl | hit
        · cases hv
        · exact h4 it hit v hv
    | some v =>
      by_cases hlt : lt v s.2
      · right
        have e : strictBest lt ((i, some v) :: rest) s = strictBest lt rest (some i, v) := by
          simp [strictBest, hlt]
        rw [e]
        rcases ih (some i, v) with ⟨h1, h2⟩ | ⟨pre, j, m, post, h1, h2, h3, h4, h5⟩
        · exact ⟨[], i, v, rest, rfl, h1, hlt, by simp, h2⟩
        · refine ⟨(i, some v) :: pre, j, m, post, by rw [h1]; rfl, h2, htr _ _ _ h3 hlt, ?_, h5⟩
          intro it hit w hw
          rcases List.mem_cons.1 hit with rfl | hit
          · cases hw; exact h3
          · exact h4 it hit w hw
      · have e : strictBest lt ((i, some v) :: rest) s = strictBest lt rest s := by
          simp [strictBest, hlt]
        rw [e]
        rcases ih s with ⟨h1, h2⟩ | ⟨pre, j, m, post, h1, h2, h3, h4, h5⟩
        · left
          refine ⟨h1, ?_⟩
          intro it hit w hw
          rcases List.mem_cons.1 hit with rfl | hit
          · cases hw; exact hlt
          · exact h2 it hit w hw
        · right
          refine ⟨(i, some v) :: pre, j, m, post, by rw [h1]; rfl, h2, h3, ?_, h5⟩
          intro it hit w hw
          rcases List.mem_cons.1 hit with rfl | hit
          · cases hw
            by_contra hn
            by_cases hvm : lt v m
            · exact hlt (htr _ _ _ hvm h3)
            · exact hlt (htri _ _ hvm hn ▸ h3)
          · exact h4 it hit w hw

section minmax

variable [LinearOrder V]

theorem items_get_iff {α : Type} {g : Grid α} {ps : List Point} {items : List (Point × α)}
    (h : ItemsOf g ps items) {p : Point} (hp : p ∈ ps) {v : α} (hv : g.get p = .ok v) :
    (p, v) ∈ items := by
  rw [← h.1] at hp
  obtain ⟨it, hit, rfl⟩ := List.mem_map.1 hp
  have := h.2 it hit
  rw [hv] at this; cases this
  exact hit

theorem strictBest_firstMin [OrderTop V] (g : Grid (Option V)) (ps : List Point)
    (items : List (Point × Option V)) (h : ItemsOf g ps items) :
    FirstMin g ps (strictBest (· < ·) items (none, ⊤)) := by
  rcases strictBest_spec (V := V) (· < ·) (fun _ _ _ => lt_trans)
    (fun a b h1 h2 => le_antisymm (not_lt.1 h2) (not_lt.1 h1)) items (none, ⊤) with
    ⟨h1, h2⟩ | ⟨pre, i, m, post, h1, h2, h3, h4, h5⟩
  · rw [h1]
    refine ⟨rfl, ?_⟩
    intro p hp w hw
    exact not_lt_top_iff.1 (h2 _ (items_get_iff h hp hw) w rfl)
  · rw [h2]
    have hmem : (i, some m) ∈ items := by rw [h1]; simp
    refine ⟨h3, h.2 _ hmem, ?_, pre.map Prod.fst, post.map Prod.fst, ?_, ?_⟩
    · intro q hq w hw
      have hm := items_get_iff h hq hw
      rw [h1] at hm
      rcases List.mem_append.1 hm with hm | hm
      · exact (h4 _ hm w rfl).le
      · rcases List.mem_cons.1 hm with hm | hm
        · cases hm; exact le_rfl
        · exact not_lt.1 (h5 _ hm w rfl)
    · rw [← h.1, h1]; simp
    · intro q hq hc
      obtain ⟨it, hit, rfl⟩ := List.mem_map.1 hq
      have h6 := h.2 it (by rw [h1]; simp [hit])
      rw [hc] at h6
      injection h6 with h6
      exact lt_irrefl _ (h4 it hit m h6.symm)

theorem strictBest_firstMax [OrderBot V] (g : Grid (Option V)) (ps : List Point)
    (items : List (Point × Option V)) (h : ItemsOf g ps items) :
    FirstMax g ps (strictBest (· > ·) items (none, ⊥)) := by
  rcases strictBest_spec (V := V) (· > ·) (fun _ _ _ h h' => lt_trans h' h)
    (fun a b h1 h2 => le_antisymm (not_lt.1 h1) (not_lt.1 h2)) items (none, ⊥) with
    ⟨h1, h2⟩ | ⟨pre, i, m, post, h1, h2, h3, h4, h5⟩
  · rw [h1]
    refine ⟨rfl, ?_⟩
    intro p hp w hw
    exact not_bot_lt_iff.1 (h2 _ (items_get_iff h hp hw) w rfl)
  · rw [h2]
    have hmem : (i, some m) ∈ items := by rw [h1]; simp
    refine ⟨h3, h.2 _ hmem, ?_, pre.map Prod.fst, post.map Prod.fst, ?_, ?_⟩
    · intro q hq w hw
      have hm := items_get_iff h hq hw
      rw [h1] at hm
      rcases List.mem_append.1 hm with hm | hm
      · exact (h4 _ hm w rfl).le
      · rcases List.mem_cons.1 hm with hm | hm
        · cases hm; exact le_rfl
        · exact not_lt.1 (h5 _ hm w rfl)
    · rw [← h.1, h1]; simp
    · intro q hq hc
      obtain ⟨it, hit, rfl⟩ := List.mem_map.1 hq
      have h6 := h.2 it (by rw [h1]; simp [hit])
      rw [hc] at h6
      injection h6 with h6
      exact lt_irrefl _ (h4 it hit m h6.symm)

/-- **C22** (regions): `find_minimum` and `find_maximum` of a spatial region return the first
extremum over all points in row-major order, and leave the region unchanged. -/
theorem C22_find_extrema_region [BoundedOrder V] (g : Grid (Option V)) (hg : g.WF) :
    (∃ res, (RegionObj.new g).findMinimum = .ok (res, RegionObj.new g) ∧
      FirstMin g (rowMajor g.xLen g.yLen) res) ∧
    (∃ res, (RegionObj.new g).findMaximum = .ok (res, RegionObj.new g) ∧
      FirstMax g (rowMajor g.xLen g.yLen) res) := by
  obtain ⟨items, h1, h2⟩ := (RegionObj.new g).loop_eq hg
  simp only [RegionObj.new, pointsFrom_zero] at h1 h2 ⊢
  exact ⟨⟨_, by simp only [RegionObj.findMinimum, h1], strictBest_firstMin g _ items h2⟩,
    ⟨_, by simp only [RegionObj.findMaximum, h1], strictBest_firstMax g _ items h2⟩⟩

/-- **C22** (clusters): the same on a cluster, where only its members are considered. -/
theorem C22_find_extrema_cluster [BoundedOrder V] (pt : Partition) (hp : pt.Valid)
    (g : Grid (Option V)) (hg : g.WF) (i : Nat) (c : ClusterObj (Option V))
    (hc : pt.createCluster g i = .ok c) (ps : List Point)
    (hps : ps = (rowMajor g.xLen g.yLen).filter fun p => decide (pt.labels.get p = .ok i)) :
    (∃ res, c.findMinimum = .ok (res, c) ∧ FirstMin g ps res) ∧
    (∃ res, c.findMaximum = .ok (res, c) ∧ FirstMax g ps res) := by
  unfold Partition.createCluster at hc
  split at hc
  · rename_i hs
    cases hc
    subst hps
    have hok : (⟨g, pt, i, 0⟩ : ClusterObj (Option V)).OK := ⟨hg, hp.wf, hs.1, hs.2⟩
    obtain ⟨items, h1, h2⟩ := (⟨g, pt, i, 0⟩ : ClusterObj (Option V)).loop_eq hok
    simp only [pointsFrom_zero] at h1 h2
    exact ⟨⟨_, by simp only [ClusterObj.findMinimum, h1], strictBest_firstMin g _ items h2⟩,
      ⟨_, by simp only [ClusterObj.findMaximum, h1], strictBest_firstMax g _ items h2⟩⟩
  · cases hc

/-- **C22** (abandoned iteration): if an iteration of a region was left at point number `n`, the next search
considers only the points from there on; afterwards the iteration starts at the first point again. -/
theorem C22_resumed [BoundedOrder V] (g : Grid (Option V)) (hg : g.WF) (n : Nat) :
    (∃ res, (⟨g, n⟩ : RegionObj (Option V)).findMinimum = .ok (res, RegionObj.new g) ∧
      FirstMin g ((rowMajor g.xLen g.yLen).drop n) res) ∧
    (∃ res, (⟨g, n⟩ : RegionObj (Option V)).findMaximum = .ok (res, RegionObj.new g) ∧
      FirstMax g ((rowMajor g.xLen g.yLen).drop n) res) := by
  obtain ⟨items, h1, h2⟩ := (⟨g, n⟩ : RegionObj (Option V)).loop_eq hg
  simp only [pointsFrom_eq_drop] at h1 h2
  exact ⟨⟨_, by simp only [RegionObj.findMinimum, h1]; rfl, strictBest_firstMin g _ items h2⟩,
    ⟨_, by simp only [RegionObj.findMaximum, h1]; rfl, strictBest_firstMax g _ items h2⟩⟩

example : ∃ r, (RegionObj.new (Grid.mk 2 2 [some 1, some 3, some 2, some (4 : WithBot (WithTop ℕ))])).loopBreak 1 =
      .ok ([(⟨0, 0⟩, some 1)], r) ∧
    r.findMinimum = .ok ((some ⟨1, 0⟩, 2), RegionObj.new (Grid.mk 2 2 [some 1, some 3, some 2, some 4])) :=
  ⟨_, rfl, by decide⟩

example : (RegionObj.new (Grid.mk 2 2 [none, some 3, some 1, some (1 : WithBot (WithTop ℕ))])).findMinimum
    = .ok ((some ⟨1, 0⟩, 1), RegionObj.new (Grid.mk 2 2 [none, some 3, some 1, some 1])) := by
  decide

end minmax

/-! ### C23 -/

theorem reshape3_repeat {α : Type} (l : List α) (m n : Nat) :
    copyArrayAsMatrixElements l m n =
      .ok ⟨l.length, ⟨m, n, List.replicate (m * n) l⟩⟩ := by
  have hlen : (npRepeat l (m * n)).length = l.length * (m * n) := by
    unfold npRepeat
    rw [flatMap_const_length _ (m * n) l (by simp)]
  unfold copyArrayAsMatrixElements reshape3
  rw [if_pos hlen]
  congr 3
  apply List.eq_replicate_iff.2
  refine ⟨by simp, ?_⟩
  intro s hs
  obtain ⟨c, hc, rfl⟩ := List.mem_map.1 hs
  have hc := List.mem_range.1 hc
  have : ∀ t, (npRepeat l (m * n))[t * (m * n) + c]? = l[t]? := by
    intro t
    unfold npRepeat
    rw [flatMap_const_getElem? _ (m * n) l (by simp) t c hc]
    cases l[t]? with
    | none => rfl
    | some a => simp [hc]
  simp only [this]
  clear * -
  induction l using List.reverseRecOn with
  | nil => rfl
  | append_singleton l a ih =>
    rw [List.length_append, List.length_singleton, List.range_succ, List.filterMap_append]
    congr 1
    · conv_rhs => rw [← ih]
      apply List.filterMap_congr
      intro t ht
      rw [List.getElem?_append_left (List.mem_range.1 ht)]
    · simp

theorem copyValue_eq {α : Type} (b : Bool) (v : α) (m n : Nat) :
    copyValueAsMatrixElements b v m n = .ok (Grid.const m n v) := by
  unfold copyValueAsMatrixElements
  cases b
  · simp [reshape2, npRepeat, Grid.const]
  · have : (((List.range (m * n)).map fun _ => some v) ++ [none]).dropLast.mapM id =
        some (List.replicate (m * n) v) := by
      rw [List.dropLast_concat]
      have : ((List.range (m * n)).map fun _ => some v) = (List.replicate (m * n) v).map some := by
        simp [List.map_const']
      rw [this]
      generalize List.replicate (m * n) v = l
      induction l with
      | nil => rfl
      | cons a l ih => simp [List.mapM_cons, ih]
    simp only [this, if_true, reshape2, List.length_replicate, Grid.const]

theorem SpStack.valueAt_data {α : Type} {s : SpStack α} {p : Point} {w : α} (h : s.valueAt p = .ok w) :
    s.data.get p = .ok w := by
  induction s with
  | plain _ => exact h
  | cluster inner part i ih =>
    simp only [SpStack.valueAt] at h
    split at h
    · cases h
    · exact ih h
    · cases h

theorem SpStack.valueAt_new_ok {α β : Type} {s : SpStack α} (g : Grid β) {p : Point} {w : α}
    (h : s.valueAt p = .ok w) : (s.newSpatial g).valueAt p = g.get p := by
  induction s with
  | plain _ => rfl
  | cluster inner part i ih =>
    simp only [SpStack.valueAt] at h
    simp only [SpStack.newSpatial, SpStack.valueAt]
    split at h
    · cases h
    · exact ih h
    · cases h

theorem SpStack.valueAt_new_error {α β : Type} {s : SpStack α} (hs : s.WF) {g : Grid β}
    (hx : g.xLen = s.data.xLen) (hy : g.yLen = s.data.yLen) {p : Point} {e : PyErr}
    (h : s.valueAt p = .error e) : (s.newSpatial g).valueAt p = .error e := by
  induction s with
  | plain g0 =>
    by_cases hp : p.x < g0.xLen ∧ p.y < g0.yLen
    · obtain ⟨w, hw⟩ := Grid.exists_get g0 hs hp.1 hp.2
      rw [show (SpStack.plain g0).valueAt p = g0.get p from rfl, hw] at h
      cases h
    · have h' : g0.get p = .error e := h
      unfold Grid.get at h'
      rw [if_neg hp] at h'
      show g.get p = _
      unfold Grid.get
      rw [if_neg (by rw [hx, hy]; exact hp)]
      cases h'; rfl
  | cluster inner part i ih =>
    simp only [SpStack.valueAt] at h
    simp only [SpStack.newSpatial, SpStack.valueAt]
    split at h
    · cases h; rfl
    · exact ih hs hx hy h
    · cases h; rfl

/-- **C23** (spatial regions and clusters): `repeat_value` succeeds and every point of the new
region holds the value, for numbers and for named tuples alike. The new region has the same points:
in a cluster, `value_at` gives the value at the members and fails as before elsewhere. -/
theorem C23_repeat_value {α β : Type} (s : SpStack α) (namedtuple : Bool) (v : β) :
    ∃ r, s.repeatValue namedtuple v = .ok r ∧ r.data.WF ∧
      r.data.xLen = s.data.xLen ∧ r.data.yLen = s.data.yLen ∧
      (∀ p : Point, p.x < s.data.xLen → p.y < s.data.yLen → r.data.get p = .ok v) ∧
      (∀ p w, s.valueAt p = .ok w → r.valueAt p = .ok v) ∧
      (s.WF → ∀ p e, s.valueAt p = .error e → r.valueAt p = .error e) := by
  have hd : ∀ (s : SpStack α) (g : Grid β), (s.newSpatial g).data = g := by
    intro s
    induction s with
    | plain _ => intro _; rfl
    | cluster inner _ _ ih => exact ih
  refine ⟨s.newSpatial (Grid.const s.data.xLen s.data.yLen v),
    by simp only [SpStack.repeatValue, copyValue_eq], ?_⟩
  rw [hd]
  refine ⟨Grid.const_wf _ _ _, rfl, rfl, fun p hx hy => Grid.get_const hx hy, ?_, ?_⟩
  · intro p w hw
    have hr := (Grid.get_eq_ok_iff _ _ _).1 (SpStack.valueAt_data hw)
    rw [SpStack.valueAt_new_ok _ hw]
    exact Grid.get_const hr.1 hr.2.1
  · intro hs p e he
    exact SpStack.valueAt_new_error hs (g := Grid.const s.data.xLen s.data.yLen v) rfl rfl he

/-- **C23** (spatial regions and clusters): `repeat_point` repeats the value at the point, and fails
exactly when `value_at` fails. -/
theorem C23_repeat_point_spatial {α : Type} (s : SpStack α) (namedtuple : Bool) (p : Point) :
    (∀ e, s.valueAt p = .error e → s.repeatPoint namedtuple p = .error e) ∧
    ∀ v, s.valueAt p = .ok v → ∃ r, s.repeatPoint namedtuple p = .ok r ∧
      r.data.xLen = s.data.xLen ∧ r.data.yLen = s.data.yLen ∧
      ∀ q : Point, q.x < s.data.xLen → q.y < s.data.yLen → r.data.get q = .ok v := by
  constructor
  · intro e he; simp [SpStack.repeatPoint, he]
  · intro v hv
    obtain ⟨r, h1, _, h2, h3, h4, _⟩ := C23_repeat_value s namedtuple v
    exact ⟨r, by simp only [SpStack.repeatPoint, hv, h1], h2, h3, h4⟩

section series

variable {K : Type} [Field K] [LinearOrder K] [IsStrictOrderedRing K]

/-- **C23** (spatio-temporal regions, decorated or not): `repeat_series` succeeds, the new region
has the same 2d shape and decorations and every point holds exactly the given series. -/
theorem C23_repeat_series (s : Stack K) (series : List (Option K)) :
    ∃ r, s.repeatSeries series = .ok r ∧ r.data.WF ∧ r.data.tLen = series.length ∧
      r.data.grid.xLen = s.data.grid.xLen ∧ r.data.grid.yLen = s.data.grid.yLen ∧
      r.hasScaling = s.hasScaling ∧
      (∀ p : Point, p.x < s.data.grid.xLen → p.y < s.data.grid.yLen →
        r.data.grid.get p = .ok series) ∧
      (∀ p w, s.seriesAt p = .ok w → r.seriesAt p = .ok series) ∧
      (s.OK → ∀ p w, r.seriesAt p = .ok w → ∃ v, s.seriesAt p = .ok v) := by
  refine ⟨s.new _, by simp only [Stack.repeatSeries, reshape3_repeat]; rfl, ?_⟩
  rw [Stack.data_new, Stack.hasScaling_new]
  refine ⟨⟨Grid.const_wf _ _ series, ?_⟩, rfl, rfl, rfl, rfl,
    fun p hx hy => Grid.get_const (v := series) hx hy, ?_, ?_⟩
  · intro w hw
    rw [(List.mem_replicate.1 hw).2]
  · intro p w hw
    rw [Stack.seriesAt_new_eq _ hw]
    obtain ⟨hx, hy⟩ := Stack.seriesAt_range hw
    exact Grid.get_const (v := series) hx hy
  · intro hs p w hw
    exact ((Stack.seriesAt_new_iff hs (c := ⟨series.length, Grid.const s.data.grid.xLen s.data.grid.yLen series⟩)
      rfl rfl).1 hw).2

/-- **C23**: `repeat_series_over_region` likewise. -/
theorem C23_repeat_series_over_region (series : List (Option K)) (xLen yLen : Nat) :
    ∃ c : Cube (Option K), repeatSeriesOverRegion series xLen yLen = .ok (.plain c) ∧ c.WF ∧
      c.tLen = series.length ∧ c.grid.xLen = xLen ∧ c.grid.yLen = yLen ∧
      ∀ p : Point, p.x < xLen → p.y < yLen → c.grid.get p = .ok series := by
  refine ⟨_, by simp only [repeatSeriesOverRegion, reshape3_repeat]; rfl,
    ⟨Grid.const_wf _ _ series, ?_⟩, rfl, rfl, rfl,
    fun p hx hy => Grid.get_const (v := series) hx hy⟩
  intro w hw
  rw [(List.mem_replicate.1 hw).2]

/-- **C23** (partial): on a plain spatio-temporal region `repeat_point` repeats the series of the
point. Missing: decorated regions, where it fails (next theorem). -/
theorem C23_repeat_point_series_partial (c : Cube (Option K)) (p : Point) (series : List (Option K))
    (hp : c.grid.get p = .ok series) :
    ∃ d : Cube (Option K), (Stack.plain c).repeatPoint p = .ok (.plain d) ∧
      d.grid.xLen = c.grid.xLen ∧ d.grid.yLen = c.grid.yLen ∧
      ∀ q : Point, q.x < c.grid.xLen → q.y < c.grid.yLen → d.grid.get q = .ok series := by
  refine ⟨⟨series.length, Grid.const c.grid.xLen c.grid.yLen series⟩, ?_, rfl, rfl,
    fun q hx hy => Grid.get_const hx hy⟩
  simp only [Stack.repeatPoint, Stack.seriesAt, hp, Stack.repeatSeries, reshape3_repeat,
    Stack.data, Stack.new, Grid.const]

/-- **C23 refuted** for decorated spatio-temporal regions: `repeat_point` on a scaled region or a
cluster never succeeds; at a member of a cluster of a plain region it raises AttributeError, at other
points of the region ValueError. -/
theorem C23_repeat_point_decorated_refuted :
    (∀ (inner : Stack K) smin smax p, ∃ e, (Stack.scaled inner smin smax).repeatPoint p = .error e) ∧
    (∀ (inner : Stack K) part i p, ∃ e, (Stack.cluster inner part i).repeatPoint p = .error e) ∧
    (∀ (c : Cube (Option K)) (part : Partition) (i : Nat) (p : Point), part.labels.get p = .ok i →
      (Stack.cluster (.plain c) part i).repeatPoint p = .error .attributeError) ∧
    (∀ (inner : Stack K) (part : Partition) (i l : Nat) (p : Point), part.labels.get p = .ok l → l ≠ i →
      (Stack.cluster inner part i).repeatPoint p = .error .valueError) := by
  refine ⟨fun _ _ _ _ => ⟨_, rfl⟩, fun _ _ _ _ => ⟨_, rfl⟩, ?_, ?_⟩
  · intro c part i p hp
    simp [Stack.repeatPoint, Stack.valueAtError, Partition.isMember, hp]
  · intro inner part i l p hp hl
    have hb : (l == i) = false := by simpa using hl
    simp [Stack.repeatPoint, Stack.valueAtError, Partition.isMember, hp, hb]

example : copyArrayAsMatrixElements [1, 2, 3] 2 2 =
    .ok ⟨3, ⟨2, 2, [[1, 2, 3], [1, 2, 3], [1, 2, 3], [1, 2, 3]]⟩⟩ := by decide

example : (Grid.mk 2 1 [[some (5 : ℚ)], [some 6]]).get ⟨1, 0⟩ = .ok [some 6] := by decide

/-! ### C24 -/

/-- **C24** (shape and shift, plain region): a spatial subset with the rectangle inside the region
has the size of the rectangle, and its point `(i, j)` holds the series of `(x1 + i, y1 + j)`. -/
theorem C24_region_subset (c : Cube (Option K)) (hc : c.WF) (r : Region)
    (hx : r.x2 ≤ c.grid.xLen) (hy : r.y2 ≤ c.grid.yLen) :
    ∃ d : Cube (Option K), (Stack.plain c).regionSubset r = .ok (.plain d) ∧ d.WF ∧
      d.tLen = c.tLen ∧ d.grid.xLen = r.x2 - r.x1 ∧ d.grid.yLen = r.y2 - r.y1 ∧
      ∀ p : Point, p.x < r.x2 - r.x1 → p.y < r.y2 - r.y1 →
        d.grid.get p = c.grid.get ⟨r.x1 + p.x, r.y1 + p.y⟩ := by
  refine ⟨_, rfl, Cube.regionSlice_wf hc r, rfl, ?_, ?_, ?_⟩
  · simp [Cube.regionSlice, Nat.min_eq_left hx]
  · simp [Cube.regionSlice, Nat.min_eq_left hy]
  · intro p hpx hpy
    exact Grid.get_slice _ hc.1 r (by rw [Nat.min_eq_left hx]; exact hpx)
      (by rw [Nat.min_eq_left hy]; exact hpy)

/-- **C24** (spatial regions): the same for a 2d region. -/
theorem C24_region_subset_spatial {α : Type} (g : Grid α) (hg : g.WF) (r : Region)
    (hx : r.x2 ≤ g.xLen) (hy : r.y2 ≤ g.yLen) :
    ∃ h : Grid α, (SpStack.plain g).regionSubset r = .ok (.plain h) ∧ h.WF ∧
      h.xLen = r.x2 - r.x1 ∧ h.yLen = r.y2 - r.y1 ∧
      ∀ p : Point, p.x < r.x2 - r.x1 → p.y < r.y2 - r.y1 →
        h.get p = g.get ⟨r.x1 + p.x, r.y1 + p.y⟩ := by
  refine ⟨_, rfl, Grid.slice_wf hg r, ?_, ?_, ?_⟩
  · simp [Nat.min_eq_left hx]
  · simp [Nat.min_eq_left hy]
  · intro p hpx hpy
    exact Grid.get_slice _ hg r (by rw [Nat.min_eq_left hx]; exact hpx)
      (by rw [Nat.min_eq_left hy]; exact hpy)

theorem Grid.slice_slice {α : Type} (g : Grid α) (hg : g.WF) (r s : Region)
    (sx : s.x2 ≤ r.x2 - r.x1) (sy : s.y2 ≤ r.y2 - r.y1) :
    (g.slice r).slice s = g.slice ⟨r.x1 + s.x1, r.x1 + s.x2, r.y1 + s.y1, r.y1 + s.y2⟩ := by
  apply Grid.ext_get (Grid.slice_wf (Grid.slice_wf hg r) s) (Grid.slice_wf hg _)
  · simp only [Grid.slice_xLen]; omega
  · simp only [Grid.slice_yLen]; omega
  · intro p hpx hpy
    simp only [Grid.slice_xLen, Grid.slice_yLen] at hpx hpy
    rw [Grid.get_slice _ (Grid.slice_wf hg r) s hpx hpy,
      Grid.get_slice _ hg r (by simp only; omega) (by simp only; omega),
      Grid.get_slice _ hg _ (by simp only; omega) (by simp only; omega)]
    simp only [Nat.add_assoc]

/-- **C24** (composition): taking the subset `s` of the subset `r` of a region (plain or scaled) is
the same as taking once the subset with the rectangle `s` shifted to the corner of `r`, which is
what `absolute_coordinates_of_region` computes. -/
theorem C24_subset_of_subset (st st' : Stack K) (hst : st.OK) (r s : Region)
    (sx : s.x2 ≤ r.x2 - r.x1) (sy : s.y2 ≤ r.y2 - r.y1)
    (h : st.regionSubset r = .ok st') :
    st'.regionSubset s =
      st.regionSubset ⟨r.x1 + s.x1, r.x1 + s.x2, r.y1 + s.y1, r.y1 + s.y2⟩ ∧
    absoluteCoordinates r s = ⟨r.x1 + s.x1, r.x1 + s.x2, r.y1 + s.y1, r.y1 + s.y2⟩ := by
  constructor
  swap
  · simp [absoluteCoordinates, absolutePosition, Nat.add_comm]
  induction st generalizing st' with
  | plain c =>
    simp only [Stack.regionSubset, Except.ok.injEq] at h ⊢
    subst h
    simp only [Stack.regionSubset, Cube.regionSlice]
    rw [Grid.slice_slice _ hst.1 r s sx sy]
  | scaled inner smin smax ih =>
    simp only [Stack.regionSubset] at h
    split at h
    · cases h
    rename_i sub hsub
    split at h
    · cases h
    rename_i smin' hmin
    split at h
    · cases h
    rename_i smax' hmax
    cases h
    cases smin with
    | cluster _ _ _ => cases hmin
    | plain gmin =>
    cases smax with
    | cluster _ _ _ => cases hmax
    | plain gmax =>
    simp only [SpStack.regionSubset, Except.ok.injEq] at hmin hmax
    subst hmin hmax
    simp only [Stack.regionSubset, ih _ hst.1 hsub, SpStack.regionSubset]
    rw [Grid.slice_slice _ hst.2.1.1 r s sx sy, Grid.slice_slice _ hst.2.1.2 r s sx sy]
  | cluster _ _ _ => cases h

/-- **C24** (composition, 2d regions). -/
theorem C24_subset_of_subset_spatial {α : Type} (g : Grid α) (hg : g.WF) (st' : SpStack α)
    (r s : Region) (sx : s.x2 ≤ r.x2 - r.x1) (sy : s.y2 ≤ r.y2 - r.y1)
    (h : (SpStack.plain g).regionSubset r = .ok st') :
    st'.regionSubset s = (SpStack.plain g).regionSubset (absoluteCoordinates r s) := by
  simp only [SpStack.regionSubset, Except.ok.injEq] at h
  subst h
  have : absoluteCoordinates r s = ⟨r.x1 + s.x1, r.x1 + s.x2, r.y1 + s.y1, r.y1 + s.y2⟩ := by
    simp [absoluteCoordinates, absolutePosition, Nat.add_comm]
  simp only [SpStack.regionSubset, this]
  rw [Grid.slice_slice _ hg r s sx sy]

theorem Cube.slices_commute {α : Type} (c : Cube α) (hc : c.WF) (r : Region) (ti : TimeInterval) :
    (c.regionSlice r).intervalSlice ti = (c.intervalSlice ti).regionSlice r := by
  have hw1 := Cube.regionSlice_wf hc r
  have hw2 := Cube.intervalSlice_wf hc ti
  unfold Cube.regionSlice Cube.intervalSlice
  congr 1
  have hg := Grid.slice_wf hw2.1 r
  apply Grid.ext_get (Cube.intervalSlice_wf hw1 ti).1 hg
  · simp [Cube.intervalSlice, Cube.regionSlice]
  · simp [Cube.intervalSlice, Cube.regionSlice]
  · intro p hx hy
    simp only [Grid.slice_xLen, Grid.slice_yLen, Cube.intervalSlice, Cube.regionSlice] at hx hy
    have e1 := Grid.get_slice (c.intervalSlice ti).grid hw2.1 r (p := p) hx hy
    have e2 := Grid.get_slice c.grid hc.1 r (p := p) hx hy
    refine Eq.trans ?_ e1.symm
    have e3 := Grid.get_map (c.grid.slice r) (fun w => sliceSeries w ti) p
    have e4 := Grid.get_map c.grid (fun w => sliceSeries w ti) ⟨r.x1 + p.x, r.y1 + p.y⟩
    rw [e2] at e3
    exact e3.trans e4.symm

/-- **C24** (commutation): a spatial subset of a temporal subset is the temporal subset of the
spatial subset, on plain and scaled regions. -/
theorem C24_region_and_interval_commute (st st' : Stack K) (hst : st.OK) (r : Region)
    (ti : TimeInterval) (h : st.regionSubset r = .ok st') :
    (st.intervalSubset ti).regionSubset r = .ok (st'.intervalSubset ti) := by
  obtain ⟨h1, _, _, _, h5⟩ := Stack.regionSubset_facts hst h
  rw [Stack.intervalSubset_eq, Stack.intervalSubset_eq, h5, h1, Cube.slices_commute _ hst.data_wf]

/-- **C24** (time axis): sample `n` of every series of a temporal subset is sample `t1 + n` of the
original, and the subset has `t2 - t1` samples. -/
theorem C24_interval_subset (c : Cube (Option K)) (hc : c.WF) (ti : TimeInterval)
    (ht : ti.t2 ≤ c.tLen) :
    ∃ d : Cube (Option K), (Stack.plain c).intervalSubset ti = .plain d ∧ d.WF ∧
      d.tLen = ti.t2 - ti.t1 ∧ d.grid.xLen = c.grid.xLen ∧ d.grid.yLen = c.grid.yLen ∧
      ∀ p s, c.grid.get p = .ok s → ∃ s', d.grid.get p = .ok s' ∧ s'.length = ti.t2 - ti.t1 ∧
        ∀ n, n < ti.t2 - ti.t1 → s'[n]? = s[ti.t1 + n]? := by
  have hw := Cube.intervalSlice_wf hc ti
  have hl : (c.intervalSlice ti).tLen = ti.t2 - ti.t1 := by
    simp [Cube.intervalSlice, Nat.min_eq_left ht]
  refine ⟨_, rfl, hw, hl, rfl, rfl, ?_⟩
  intro p s hs
  have e := Grid.get_map c.grid (fun w => sliceSeries w ti) p
  rw [hs] at e
  have hlen := Cube.get_length hw e
  refine ⟨_, e, by rw [hlen, hl], ?_⟩
  intro n hn
  simp only []
  rw [sliceSeries_getElem?, if_pos (by omega)]

/-- **C24** (combined subset): on a plain region `subset(region, ti)` takes the samples from `t1` of
the points from `(x1, y1)`. (On a scaled region see C20.) -/
theorem C24_subset (c : Cube (Option K)) (hc : c.WF) (r : Region) (ti : TimeInterval)
    (hx : r.x2 ≤ c.grid.xLen) (hy : r.y2 ≤ c.grid.yLen) (ht : ti.t2 ≤ c.tLen) :
    ∃ d : Cube (Option K), (Stack.plain c).subset r ti = .plain d ∧ d.WF ∧
      d.tLen = ti.t2 - ti.t1 ∧ d.grid.xLen = r.x2 - r.x1 ∧ d.grid.yLen = r.y2 - r.y1 ∧
      ∀ p : Point, p.x < r.x2 - r.x1 → p.y < r.y2 - r.y1 → ∃ s s',
        c.grid.get ⟨r.x1 + p.x, r.y1 + p.y⟩ = .ok s ∧ d.grid.get p = .ok s' ∧
        ∀ n, n < ti.t2 - ti.t1 → s'[n]? = s[ti.t1 + n]? := by
  obtain ⟨d, h1, h2, h3, h4, h5, h6⟩ := C24_region_subset c hc r hx hy
  obtain ⟨e, k1, k2, k3, k4, k5, k6⟩ := C24_interval_subset d h2 ti (by omega)
  simp only [Stack.regionSubset, Except.ok.injEq, Stack.plain.injEq] at h1
  subst h1
  simp only [Stack.intervalSubset, Stack.plain.injEq] at k1
  subst k1
  refine ⟨_, rfl, k2, k3, k4.trans h4, k5.trans h5, ?_⟩
  intro p hpx hpy
  obtain ⟨s, hs⟩ := c.grid.exists_get hc.1 (p := ⟨r.x1 + p.x, r.y1 + p.y⟩)
    (by simp only; omega) (by simp only; omega)
  obtain ⟨s', e1, _, e3⟩ := k6 p s (by rw [h6 p hpx hpy, hs])
  exact ⟨s, s', hs, e1, e3⟩

/-- A 2x3 region of series of two samples. -/
def subsetExample : Cube (Option ℚ) :=
  ⟨2, ⟨2, 3, [[some 1, some 2], [some 3, none], [some 5, some 6], [some 7, some 8], [some 9, some 10],
    [some 11, some 12]]⟩⟩

example : subsetExample.WF ∧ (Stack.plain subsetExample).subset ⟨1, 2, 1, 3⟩ ⟨1, 2⟩ =
    .plain ⟨1, ⟨1, 2, [[some 10], [some 12]]⟩⟩ := by decide +kernel

example : absoluteCoordinates ⟨0, 2, 1, 3⟩ ⟨1, 2, 0, 1⟩ = ⟨1, 2, 1, 2⟩ := by decide

end series

/-! ### C25 -/

section centroid

variable [LinearOrder V] [AddCommMonoid V]

theorem nanSum_iff (ds : List (Option V)) (s : V) : nanSum ds = some s ↔ SumIs ds s := by
  unfold SumIs
  induction ds generalizing s with
  | nil =>
    constructor
    · intro h; cases h; exact ⟨[], rfl, rfl⟩
    · rintro ⟨vs, h1, rfl⟩
      cases vs with
      | nil => rfl
      | cons _ _ => cases h1
  | cons o ds ih =>
    cases o with
    | none =>
      constructor
      · intro h; cases h
      · rintro ⟨vs, h1, _⟩
        cases vs <;> cases h1
    | some v =>
      simp only [nanSum, Option.map_eq_some_iff]
      constructor
      · rintro ⟨t, ht, rfl⟩
        obtain ⟨vs, rfl, rfl⟩ := (ih t).1 ht
        exact ⟨v :: vs, rfl, by simp⟩
      · rintro ⟨vs, h1, rfl⟩
        cases vs with
        | nil => cases h1
        | cons w vs =>
          simp only [List.map_cons, List.cons.injEq, Option.some.injEq] at h1
          obtain ⟨rfl, rfl⟩ := h1
          exact ⟨vs.sum, (ih _).2 ⟨vs, rfl, rfl⟩, by simp⟩

/-- `m` holds the distances `d` between the points of a region with `yLen` columns. -/
def MatrixHolds {W : Type} (m : Grid W) (yLen : Nat) (d : Point → Point → W) (ps : List Point) :
    Prop :=
  ∀ p ∈ ps, ∀ q ∈ ps, m.get ⟨p.x * yLen + p.y, q.x * yLen + q.y⟩ = .ok (d p q)

theorem centroidRows_eq {W : Type} (m : Grid W) (yLen : Nat) (d : Point → Point → W)
    (ps qs : List Point) (h : ∀ p ∈ ps, ∀ q ∈ qs,
      m.get ⟨p.x * yLen + p.y, q.x * yLen + q.y⟩ = .ok (d p q)) :
    centroidRows m yLen (qs.map fun q => q.x * yLen + q.y) ps =
      .ok (ps.map fun p => (p, qs.map (d p))) := by
  induction ps with
  | nil => rfl
  | cons p ps ih =>
    have h1 : distancesToPointWithMatrix m yLen p (qs.map fun q => q.x * yLen + q.y) =
        .ok (qs.map (d p)) := by
      unfold distancesToPointWithMatrix
      have hp := h p (by simp)
      clear ih h
      induction qs with
      | nil => rfl
      | cons q qs ihq =>
        rw [List.map_cons, List.mapM_cons, hp q (by simp), ihq fun q hq => hp q (by simp [hq])]
        rfl
    rw [centroidRows, h1]
    simp only
    rw [ih fun p' hp' => h p' (by simp [hp'])]
    rfl

theorem centroidSearch_spec [OrderTop V] (d : Point → Point → Option V) (ps : List Point) :
    IsCentroid d ps (centroidSearch (ps.map fun p => (p, ps.map (d p)))) := by
  unfold centroidSearch
  rcases strictBest_spec (V := V) (· < ·) (fun _ _ _ => lt_trans)
    (fun a b h1 h2 => le_antisymm (not_lt.1 h2) (not_lt.1 h1))
    ((ps.map fun p => (p, ps.map (d p))).map fun r => (r, nanSum r.2)) (none, ⊤) with
    ⟨h1, h2⟩ | ⟨pre, i, m, post, h1, h2, h3, h4, h5⟩
  · rw [h1]
    intro p hp s hs
    refine not_lt_top_iff.1 (h2 ((p, ps.map (d p)), nanSum (ps.map (d p))) ?_ s
      ((nanSum_iff _ _).2 hs))
    simpa using hp
  · rw [h2]
    obtain ⟨c, ds⟩ := i
    rw [List.map_map] at h1
    obtain ⟨pre', rest, hps, hpre, hrest⟩ := List.map_eq_append_iff.1 h1
    obtain ⟨c', post', hr, hc', hpost⟩ := List.map_eq_cons_iff.1 hrest
    simp only [Function.comp_apply, Prod.mk.injEq] at hc'
    obtain ⟨⟨rfl, rfl⟩, hsum⟩ := hc'
    refine ⟨rfl, m, (nanSum_iff _ _).1 hsum, h3, ?_, pre', post', by rw [hps, hr], ?_⟩
    · intro q hq s' hs'
      have hs' := (nanSum_iff _ _).2 hs'
      have hq' : q ∈ pre' ∨ q = c' ∨ q ∈ post' := by
        rw [hps, hr] at hq; simpa using hq
      rcases hq' with hq | rfl | hq
      · refine (h4 ((q, ps.map (d q)), nanSum (ps.map (d q))) ?_ s' hs').le
        rw [← hpre]; exact List.mem_map.2 ⟨q, hq, rfl⟩
      · rw [hsum] at hs'; cases hs'; exact le_rfl
      · refine not_lt.1 (h5 ((q, ps.map (d q)), nanSum (ps.map (d q))) ?_ s' hs')
        rw [← hpost]; exact List.mem_map.2 ⟨q, hq, rfl⟩
    · intro q hq hs
      refine lt_irrefl _ (h4 ((q, ps.map (d q)), nanSum (ps.map (d q))) ?_ m
        ((nanSum_iff _ _).2 hs))
      rw [← hpre]; exact List.mem_map.2 ⟨q, hq, rfl⟩

/-- **C25** (regions): the centroid of a region. -/
theorem C25_region_centroid [OrderTop V] {α : Type} (g : Grid α) (hg : g.WF)
    (m : Grid (Option V)) (d : Point → Point → Option V)
    (hm : MatrixHolds m g.yLen d (rowMajor g.xLen g.yLen)) :
    ∃ res, (RegionObj.new g).findCentroid m = .ok (res, RegionObj.new g) ∧
      IsCentroid d (rowMajor g.xLen g.yLen) res := by
  obtain ⟨items, h1, h2⟩ := (RegionObj.new g).loop_eq hg
  simp only [RegionObj.new, pointsFrom_zero] at h1 h2 ⊢
  have hr : List.range (g.xLen * g.yLen) =
      (rowMajor g.xLen g.yLen).map fun q => q.x * g.yLen + q.y := by
    rw [rowMajor_eq_map, List.map_map]
    conv_lhs => rw [← List.map_id (List.range _)]
    apply List.map_congr_left
    intro n _
    simp [Nat.div_add_mod']
  refine ⟨_, ?_, centroidSearch_spec d (rowMajor g.xLen g.yLen)⟩
  simp only [RegionObj.findCentroid, h1, h2.1]
  rw [hr, centroidRows_eq m g.yLen d _ _ hm]

/-- **C25** (clusters): the centroid of a cluster, among and with respect to its members. -/
theorem C25_cluster_centroid [OrderTop V] {α : Type} (pt : Partition) (hp : pt.Valid)
    (g : Grid α) (hg : g.WF) (i : Nat) (c : ClusterObj α) (hc : pt.createCluster g i = .ok c)
    (ps : List Point)
    (hps : ps = (rowMajor g.xLen g.yLen).filter fun p => decide (pt.labels.get p = .ok i))
    (m : Grid (Option V)) (d : Point → Point → Option V) (hm : MatrixHolds m g.yLen d ps) :
    ∃ res, c.findCentroid m = .ok (res, c) ∧ IsCentroid d ps res := by
  obtain ⟨items', hi1, hi2⟩ := C10_all_point_indices pt hp g hg i c hc
  unfold Partition.createCluster at hc
  split at hc
  · rename_i hs
    cases hc
    subst hps
    have hok : (⟨g, pt, i, 0⟩ : ClusterObj α).OK := ⟨hg, hp.wf, hs.1, hs.2⟩
    obtain ⟨items, h1, h2⟩ := (⟨g, pt, i, 0⟩ : ClusterObj α).loop_eq hok
    simp only [pointsFrom_zero] at h1 h2
    rw [h1] at hi1
    cases hi1
    refine ⟨_, ?_, centroidSearch_spec d _⟩
    simp only [ClusterObj.findCentroid, hi2, h1]
    change MatrixHolds m g.yLen d ((rowMajor g.xLen g.yLen).filter (pt.has i)) at hm
    change _ = Except.ok (centroidSearch (((rowMajor g.xLen g.yLen).filter (pt.has i)).map
      fun p => (p, ((rowMajor g.xLen g.yLen).filter (pt.has i)).map (d p))), _)
    rw [← h2.1] at hm ⊢
    rw [show (items'.map fun it => it.1.x * g.yLen + it.1.y) =
      (items'.map Prod.fst).map fun q => q.x * g.yLen + q.y by rw [List.map_map]; rfl]
    rw [centroidRows_eq m g.yLen d _ _ hm]
  · cases hc

/-- Distances between three points on a line; the middle one is the centroid. -/
def centroidExample : Grid (Option (WithTop ℕ)) :=
  ⟨3, 3, [some 0, some 1, some 2, some 1, some 0, some 1, some 2, some 1, some 0]⟩

set_option synthInstance.maxSize 512 in
example : (RegionObj.new (Grid.mk 1 3 [(), (), ()])).findCentroid centroidExample =
    .ok (some (⟨0, 1⟩, [some 1, some 0, some 1]), RegionObj.new (Grid.mk 1 3 [(), (), ()])) := by
  decide

set_option synthInstance.maxSize 512 in
/-- Points with NaN distances are never chosen, and a region of such points has no centroid. -/
example : (RegionObj.new (Grid.mk 1 1 [()])).findCentroid
    (Grid.mk 1 1 [(none : Option (WithTop ℕ))]) =
    .ok (none, RegionObj.new (Grid.mk 1 1 [()])) := by decide

end centroid

end Spta
