import Verif.Model.Train
import Verif.Spec.Train
import Verif.Lemmas.Scaling
import Verif.Lemmas.Except
import Verif.Lemmas.Util

/-!
# Lemmas about the training of models
-/

set_option linter.unusedSectionVars false

namespace Spta

variable {K : Type} [Field K] [LinearOrder K]

/-! ### Split -/

theorem pyBound_le (n : Nat) (i : Int) : i ≤ n → pyBound n i ≤ n := by
  unfold pyBound; split <;> omega

theorem seriesAt_intervalSubset {s : Stack K} (hs : s.OK) (ti : TimeInterval) {p : Point}
    {w : List (Option K)} : (s.intervalSubset ti).seriesAt p = .ok w ↔
      ∃ v, s.seriesAt p = .ok v ∧ w = sliceSeries v ti := by
  rw [Stack.intervalSubset_eq, Stack.seriesAt_new_iff hs (by rfl) (by rfl)]
  have hget : (s.data.intervalSlice ti).grid.get p = (s.data.grid.get p).map fun s => sliceSeries s ti :=
    Grid.get_map s.data.grid _ p
  rw [hget]
  constructor
  · rintro ⟨h1, v, hv⟩
    rw [Stack.seriesAt_data hv] at h1
    cases h1
    exact ⟨v, hv, rfl⟩
  · rintro ⟨v, hv, rfl⟩
    rw [Stack.seriesAt_data hv]
    exact ⟨rfl, v, hv⟩

/-! ### Application of trainers -/

theorem SpStack.data_newSpatial {V : Type} (s : Stack K) (g : Grid V) : (s.newSpatial g).data = g := by
  induction s with
  | plain _ => rfl
  | scaled inner _ _ ih => exact ih
  | cluster inner part i ih => exact ih

/-- The points over which a spatial result iterates are those of the region it was made from. -/
theorem items_newSpatial {V : Type} {s : Stack K} (hs : s.OK) {g : Grid V} (hg : g.WF)
    (hx : g.xLen = s.data.grid.xLen) (hy : g.yLen = s.data.grid.yLen) :
    ∃ items, (s.newSpatial g).items = .ok items ∧ (items.map Prod.fst).Nodup ∧
      (∀ it ∈ items, g.get it.1 = .ok it.2) ∧
      (∀ p, p ∈ items.map Prod.fst ↔ ∃ v, s.seriesAt p = .ok v) := by
  induction s with
  | plain c =>
    obtain ⟨items, h1, h2, h3⟩ := itemsAt_ok g.get (rowMajor g.xLen g.yLen)
      (fun p hp => g.exists_get hg (mem_rowMajor.1 hp).1 (mem_rowMajor.1 hp).2)
    refine ⟨items, by simp only [Stack.newSpatial, SpStack.items, allPoints_eq, h1],
      by rw [h2]; exact rowMajor_nodup _ _, h3, ?_⟩
    intro p
    rw [h2, mem_rowMajor, hx, hy]
    constructor
    · intro h; exact c.grid.exists_get hs.1 h.1 h.2
    · rintro ⟨v, hv⟩; exact Stack.seriesAt_range hv
  | scaled inner _ _ ih => exact ih hs.1 hx hy
  | cluster inner part i ih =>
    have hd : (inner.newSpatial g).data = g := SpStack.data_newSpatial inner g
    have hm := membersOf_ok part hs.2.1 i (rowMajor g.xLen g.yLen)
      (fun p hp => by rw [hs.2.2.1, hs.2.2.2.1]; rw [hx, hy] at hp; exact mem_rowMajor.1 hp)
    have hval : ∀ p, part.labels.get p = .ok i →
        (SpStack.cluster (inner.newSpatial g) part i).valueAt p = g.get p := by
      intro p hp
      obtain ⟨v, hv⟩ := hs.2.2.2.2 p hp
      exact Stack.valueAt_newSpatial (s := .cluster inner part i) g
        (Stack.cluster_seriesAt_iff.2 ⟨hp, hv⟩)
    obtain ⟨items, h1, h2, h3⟩ := itemsAt_ok (SpStack.cluster (inner.newSpatial g) part i).valueAt
      ((rowMajor g.xLen g.yLen).filter (part.has i))
      (fun p hp => by
        have hp := List.mem_filter.1 hp
        rw [hval p ((part.has_iff _ _).1 hp.2)]
        exact g.exists_get hg (mem_rowMajor.1 hp.1).1 (mem_rowMajor.1 hp.1).2)
    refine ⟨items, ?_, by rw [h2]; exact (rowMajor_nodup _ _).filter _, ?_, ?_⟩
    · simp only [Stack.newSpatial, SpStack.items, hd, allPoints_eq, hm, h1]
    · intro it hit
      have h4 := h3 it hit
      have : it.1 ∈ items.map Prod.fst := List.mem_map.2 ⟨it, hit, rfl⟩
      rw [h2, List.mem_filter, part.has_iff] at this
      rwa [hval _ this.2] at h4
    · intro p
      rw [h2, List.mem_filter, part.has_iff, mem_rowMajor, hx, hy]
      constructor
      · rintro ⟨_, h⟩
        obtain ⟨v, hv⟩ := hs.2.2.2.2 p h
        exact ⟨v, Stack.cluster_seriesAt_iff.2 ⟨h, hv⟩⟩
      · rintro ⟨v, hv⟩
        exact ⟨Stack.seriesAt_range hv, (Stack.cluster_seriesAt_iff.1 hv).1⟩

/-- Training point by point. -/
theorem trainApply_ok {M : Type} {s : Stack K} (hs : s.OK) (fx fy : Nat)
    (hx : s.data.grid.xLen = fx) (hy : s.data.grid.yLen = fy)
    (f : Point → List (Option K) → Except PyErr (Option M)) (zero : Option M)
    (hf : ∀ p v, s.seriesAt p = .ok v → ∃ m, f p v = .ok m) :
    ∃ (g : Grid (Option M)) (items : List (Point × Option M)), trainApply fx fy f zero s = .ok (g, items.countP fun it => it.2.isNone) ∧ g.WF ∧
      g.xLen = fx ∧ g.yLen = fy ∧
      (∀ p v, s.seriesAt p = .ok v → g.get p = f p v) ∧
      (items.map Prod.fst).Nodup ∧ (∀ it ∈ items, g.get it.1 = .ok it.2) ∧
      (∀ p, p ∈ items.map Prod.fst ↔ ∃ v, s.seriesAt p = .ok v) := by
  obtain ⟨items, h1, h2, h3, h4⟩ := Stack.items_ok hs
  obtain ⟨g, g1, g2, g3, g4, g5, g6⟩ := applyWith_ok f items
    (Grid.const s.data.grid.xLen s.data.grid.yLen zero)
    (Grid.const_wf _ _ _) h2 (fun it hit => Stack.seriesAt_range (h3 it hit))
    (fun it hit => hf _ _ (h3 it hit))
  obtain ⟨its, k1, k2, k3, k4⟩ := items_newSpatial hs g4 g2 g3
  refine ⟨g, its, ?_, g4, by rw [g2]; exact hx, by rw [g3]; exact hy,
    fun p v hv => g5 (p, v) (h4 p v hv), k2, k3, k4⟩
  unfold trainApply Stack.applyObjects
  rw [if_pos ⟨hx, hy⟩]
  simp only [h1, g1, k1, SpStack.data_newSpatial]

end Spta
