import Mathlib.Data.List.Count
import Verif.Lemmas.Region

/-!
# Helper lemmas about crisp partitions
-/

namespace Spta

variable {α β : Type}

/-- the labels of points are below `k`. -/
theorem Partition.Valid.get_lt {pt : Partition} (h : pt.Valid) {p : Point} {l : Nat}
    (hl : pt.labels.get p = .ok l) : l < pt.k :=
  h.lt l (List.mem_of_getElem? ((Grid.get_eq_ok_iff _ _ _).1 hl).2.2)

/-- creating clusters. -/
theorem Partition.createAllClusters_eq (pt : Partition) (g : Grid α)
    (sx : pt.labels.xLen = g.xLen) (sy : pt.labels.yLen = g.yLen) :
    pt.createAllClusters g = .ok ((List.range pt.k).map fun i => ⟨g, pt, i, 0⟩) := by
  unfold Partition.createAllClusters
  have : (fun i => pt.createCluster g i) =
      fun i => (pure ((fun i => (⟨g, pt, i, 0⟩ : ClusterObj α)) i) : Except PyErr _) := by
    funext i; simp [Partition.createCluster, sx, sy]; rfl
  rw [this, List.mapM_pure]; rfl

/-- counting labels through the row-major points. -/
theorem Grid.count_eq_filter (g : Grid Nat) (h : g.WF) (i : Nat) :
    g.data.count i =
      ((rowMajor g.xLen g.yLen).filter fun p => decide (g.get p = .ok i)).length := by
  have hd : (rowMajor g.xLen g.yLen).map g.get = g.data.map Except.ok := by
    apply List.ext_getElem?
    intro n
    rw [rowMajor_eq_map]
    simp only [List.getElem?_map]
    rcases Nat.lt_or_ge n (g.xLen * g.yLen) with hn | hn
    · rw [List.getElem?_range hn]
      simp only [Option.map_some]
      obtain ⟨v, h1, h2⟩ := g.get_of_lt h (p := ⟨n / g.yLen, n % g.yLen⟩)
        (div_lt_of_lt_mul' hn) (mod_lt_of_lt_mul hn)
      rw [h2]
      simp only [idx_of_div_mod] at h1
      rw [h1]; rfl
    · rw [List.getElem?_eq_none (by simpa using hn), List.getElem?_eq_none (by rw [h]; exact hn)]
      rfl
  have h1 : g.data.count i = (g.data.map (Except.ok (ε := PyErr))).count (.ok i) := by
    rw [List.count_map_of_injective]
    intro a b hab; simpa using hab
  rw [h1, ← hd, List.count_eq_countP, List.countP_map, List.countP_eq_length_filter]
  congr 1

/-- sizes of all labels add up. -/
theorem sum_count_eq_length (l : List Nat) (k : Nat) (h : ∀ a ∈ l, a < k) :
    ((List.range k).map fun i => l.count i).sum = l.length := by
  induction l with
  | nil =>
    have : (List.range k).map (fun i => List.count i ([] : List Nat)) = List.replicate k 0 := by
      apply List.ext_getElem <;> simp
    rw [this]; simp
  | cons a l ih =>
    have hone : ∀ k, a < k → ((List.range k).map fun i => if a = i then 1 else 0).sum = 1 := by
      intro k
      induction k with
      | zero => omega
      | succ k ihk =>
        intro hk
        rw [List.range_succ, List.map_append, List.sum_append]
        rcases Nat.lt_or_ge a k with hlt | hge
        · rw [ihk hlt]
          simp only [List.map_cons, List.map_nil, List.sum_cons, List.sum_nil]
          rw [if_neg (by omega)]; rfl
        · have : a = k := by omega
          subst this
          have hz : (List.range a).map (fun i => if a = i then 1 else 0) = List.replicate a 0 := by
            apply List.ext_getElem
            · simp
            · intro n h1 h2
              simp only [List.length_map, List.length_range] at h1
              simp; omega
          rw [hz]; simp
    have hsum : ∀ (L : List Nat) (f g : Nat → Nat),
        (L.map fun i => f i + g i).sum = (L.map f).sum + (L.map g).sum := by
      intro L f g
      induction L with
      | nil => rfl
      | cons b L ihL => simp only [List.map_cons, List.sum_cons, ihL]; omega
    have hc : (fun i => (a :: l).count i) = fun i => l.count i + if a = i then 1 else 0 := by
      funext i
      rw [List.count_cons]
      congr 1
      simp
    rw [hc, hsum, ih (fun b hb => h b (by simp [hb])), hone k (h a (by simp))]
    simp

/-- flat `take` with in-range indices. -/
theorem Partition.membershipOfIndices_eq (pt : Partition) :
    ∀ (idx ls : List Nat), idx.map (fun n => pt.labels.data[n]?) = ls.map some →
      pt.membershipOfIndices idx = .ok ls := by
  intro idx
  induction idx with
  | nil =>
    intro ls h
    have : ls = [] := by simpa using h.symm
    subst this; rfl
  | cons n idx ih =>
    intro ls h
    cases ls with
    | nil => simp at h
    | cons l ls =>
      simp only [List.map_cons, List.cons.injEq] at h
      have := ih ls h.2
      unfold Partition.membershipOfIndices at this ⊢
      rw [List.mapM_cons, this, h.1]; rfl

/-- `np.max(labels)` as `List.max?`. -/
theorem max?_spec {l : List Nat} {m : Nat} (h : l.max? = some m) : m ∈ l ∧ ∀ a ∈ l, a ≤ m :=
  List.max?_eq_some_iff.1 h

theorem max?_some_of_ne_nil {l : List Nat} (h : l ≠ []) : ∃ m, l.max? = some m := by
  cases hm : l.max? with
  | none => exact absurd (List.max?_eq_none_iff.1 hm) h
  | some m => exact ⟨m, rfl⟩

theorem Partition.mergeClusters_ok (pt : Partition) (hp : pt.Valid) (h0 : pt.pointIndex = 0)
    (cs : List (ClusterObj α)) (junk : α) (val : Point → α)
    (hshape : ∀ c ∈ cs, c.region.xLen = pt.labels.xLen ∧ c.region.yLen = pt.labels.yLen)
    (hidx : cs.map (·.index) = List.range pt.k)
    (hval : ∀ (p : Point) (l : Nat) (c : ClusterObj α), pt.labels.get p = .ok l →
      cs[l]? = some c → c.valueAt p = .ok (val p)) :
    ∃ g, pt.mergeClusters cs junk = .ok (g, pt) ∧ g.WF ∧ g.xLen = pt.labels.xLen ∧
      g.yLen = pt.labels.yLen ∧
      ∀ q : Point, q.x < pt.labels.xLen → q.y < pt.labels.yLen → g.get q = .ok (val q) := by
  have hlen : cs.length = pt.k := by
    have := congrArg List.length hidx
    simpa using this
  obtain ⟨g, h1, h2, h3, h4, h5⟩ := mergeItems_eq pt cs val
    (rowMajor pt.labels.xLen pt.labels.yLen)
    (Grid.const pt.labels.xLen pt.labels.yLen junk) (Grid.const_wf _ _ _) rfl rfl (by
      intro p hpm
      obtain ⟨hx, hy⟩ := mem_rowMajor.1 hpm
      obtain ⟨l, hl⟩ := pt.labels.exists_get hp.wf hx hy
      have hlk : l < cs.length := by rw [hlen]; exact hp.get_lt hl
      exact ⟨hx, hy, l, cs[l], hl, List.getElem?_eq_getElem hlk,
        hval p l _ hl (List.getElem?_eq_getElem hlk)⟩)
  refine ⟨g, ?_, h2, h3, h4, ?_⟩
  · have hall : cs.all (fun c => c.region.xLen == pt.labels.xLen &&
        c.region.yLen == pt.labels.yLen) = true := by
      rw [List.all_eq_true]
      intro c hc
      simp [hshape c hc]
    have hne : cs.isEmpty = false := by
      rw [List.isEmpty_eq_false_iff]
      rintro rfl
      have := hp.pos
      simp at hlen; omega
    unfold Partition.mergeClusters
    rw [if_pos hall, if_pos hidx, hne, Partition.loop_eq, h0, pointsFrom_zero]
    simp only [Bool.false_eq_true, if_false, h1]
    cases pt; simp_all
  · intro q hqx hqy
    rw [h5 q hqx hqy, if_pos (mem_rowMajor.2 ⟨hqx, hqy⟩)]

theorem Partition.mergeClusters_bad_indices (pt : Partition) (cs : List (ClusterObj α)) (junk : α)
    (hshape : ∀ c ∈ cs, c.region.xLen = pt.labels.xLen ∧ c.region.yLen = pt.labels.yLen)
    (hidx : cs.map (·.index) ≠ List.range pt.k) :
    pt.mergeClusters cs junk = .error .valueError := by
  have hall : cs.all (fun c => c.region.xLen == pt.labels.xLen &&
      c.region.yLen == pt.labels.yLen) = true := by
    rw [List.all_eq_true]
    intro c hc
    simp [hshape c hc]
  unfold Partition.mergeClusters
  rw [if_pos hall, if_neg hidx]

/-- `repeatAll` succeeds when every representative can be read. -/
theorem repeatAll_ok :
    ∀ (cs : List (ClusterObj α)) (reps : List Point) (vs : List α),
      cs.length = reps.length → cs.length = vs.length →
      (∀ (i : Nat) c p v, cs[i]? = some c → reps[i]? = some p → vs[i]? = some v →
        c.valueAt p = .ok v) →
      repeatAll cs reps = .ok ((cs.zip vs).map fun cv =>
        cv.1.newRegion (Grid.const cv.1.region.xLen cv.1.region.yLen cv.2)) := by
  intro cs
  induction cs with
  | nil => intro reps vs _ _ _; rfl
  | cons c cs ih =>
    intro reps vs h1 h2 h3
    cases reps with
    | nil => simp at h1
    | cons p reps =>
      cases vs with
      | nil => simp at h2
      | cons v vs =>
        have h4 := h3 0 c p v rfl rfl rfl
        have h5 := ih reps vs (by simpa using h1) (by simpa using h2)
          (fun i c' p' v' a b d => h3 (i + 1) c' p' v' (by simpa using a) (by simpa using b)
            (by simpa using d))
        simp [repeatAll, ClusterObj.repeatPoint, h4, h5]

/-- `repeatAll` fails with ValueError when some representative is refused that way (and the
ones that can be read are read). -/
theorem repeatAll_error :
    ∀ (cs : List (ClusterObj α)) (reps : List Point),
      cs.length = reps.length →
      (∀ (i : Nat) c p, cs[i]? = some c → reps[i]? = some p →
        (∃ v, c.valueAt p = .ok v) ∨ c.valueAt p = .error .valueError) →
      (∃ (i : Nat) (c : _) (p : _), cs[i]? = some c ∧ reps[i]? = some p ∧
        c.valueAt p = .error .valueError) →
      repeatAll cs reps = .error .valueError := by
  intro cs
  induction cs with
  | nil => rintro reps _ _ ⟨i, c, p, h, _⟩; simp at h
  | cons c cs ih =>
    intro reps h1 h2 h3
    cases reps with
    | nil => simp at h1
    | cons p reps =>
      rcases h2 0 c p rfl rfl with ⟨v, hv⟩ | hv
      · have h4 := ih reps (by simpa using h1)
          (fun i c' p' a b => h2 (i + 1) c' p' (by simpa using a) (by simpa using b)) (by
            obtain ⟨i, c', p', a, b, d⟩ := h3
            cases i with
            | zero =>
              simp only [List.getElem?_cons_zero, Option.some.injEq] at a b
              subst a; subst b
              rw [hv] at d; cases d
            | succ i => exact ⟨i, c', p', by simpa using a, by simpa using b, d⟩)
        simp [repeatAll, ClusterObj.repeatPoint, hv, h4]
      · simp [repeatAll, ClusterObj.repeatPoint, hv]

end Spta
