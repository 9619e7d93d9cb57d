import Mathlib.Data.List.Perm.Basic
import Mathlib.Data.List.Nodup
import Verif.Lemmas.Except
import Verif.Lemmas.Region
import Verif.Model.Parallel

/-!
# Lemmas on the pool of workers and on distance matrices
-/

set_option linter.unusedSectionVars false

namespace Spta

theorem chunksOf_flatten (size : Nat) (h : 0 < size) (l : List Nat) :
    (chunksOf size l).flatten = l := by
  induction l using chunksOf.induct size with
  | case1 l hl =>
    rw [chunksOf, dif_pos hl]
    rcases hl with hl | hl
    · omega
    · simp [hl]
  | case2 l hl ih =>
    rw [chunksOf, dif_neg hl, List.flatten_cons, ih, List.take_append_drop]

/-- The tasks a worker still has to write. -/
def Worker.rest {V : Type} : Worker V → List Nat
  | .idle => []
  | .ready ks => ks
  | .computed k _ ks => k :: ks
  | .locked k _ ks => k :: ks
  | .written ks => ks

/-- Holding the lock. -/
def Worker.crit {V : Type} : Worker V → Bool
  | .locked .. => true
  | .written .. => true
  | _ => false

/-- A worker only carries right results. -/
def Worker.Right {V : Type} (n : Nat) (task : Nat → Nat → V) : Worker V → Prop
  | .computed k v _ => v = task (k / n) (k % n)
  | .locked k v _ => v = task (k / n) (k % n)
  | _ => True

/-- The invariant of the pool. -/
structure PoolInv {V : Type} [Zero V] (n : Nat) (task : Nat → Nat → V) (s : Pool V) : Prop where
  tasks : (s.log ++ (s.queue.flatten ++ s.workers.flatMap Worker.rest)).Perm (List.range (n * n))
  wf : s.out.WF
  xLen : s.out.xLen = n
  yLen : s.out.yLen = n
  cells : ∀ i < n, ∀ j < n, s.out.get ⟨i, j⟩ =
    .ok (if i * n + j ∈ s.log then task i j else 0)
  right : ∀ w ∈ s.workers, w.Right n task
  mutex : ∀ i, (∃ w, s.workers[i]? = some w ∧ w.crit = true) ↔ s.lock = some i

section

variable {V : Type} [Zero V] {n : Nat} {task : Nat → Nat → V}

theorem PoolInv.start {numProc chunksize : Nat} (hc : 0 < chunksize) :
    PoolInv n task (Pool.start n numProc chunksize) := by
  refine ⟨?_, Grid.const_wf _ _ _, rfl, rfl, ?_, ?_, ?_⟩
  · have : (List.replicate numProc (Worker.idle : Worker V)).flatMap Worker.rest = [] := by
      rw [List.flatMap_eq_nil_iff]
      intro w hw
      rw [(List.mem_replicate.1 hw).2]; rfl
    simp [Pool.start, chunksOf_flatten chunksize hc, this]
  · intro i hi j hj
    simpa [Pool.start] using Grid.get_const (p := ⟨i, j⟩) hi hj
  · intro w hw
    rw [(List.mem_replicate.1 hw).2]; trivial
  · intro i
    constructor
    · rintro ⟨w, hw, hc⟩
      have := (List.mem_replicate.1 (List.mem_of_getElem? hw)).2
      subst this; cases hc
    · intro h; cases h

theorem getElem?_middle {α : Type} (pre post : List α) (a b : α) (i : Nat) (h : i ≠ pre.length) :
    (pre ++ a :: post)[i]? = (pre ++ b :: post)[i]? := by
  rcases Nat.lt_or_ge i pre.length with hl | hl
  · rw [List.getElem?_append_left hl, List.getElem?_append_left hl]
  · rw [List.getElem?_append_right hl, List.getElem?_append_right hl]
    obtain ⟨m, hm⟩ : ∃ m, i - pre.length = m + 1 := ⟨i - pre.length - 1, by omega⟩
    rw [hm]; rfl

theorem mutex_same {pre post : List (Worker V)} {a b : Worker V} {lock : Option Nat}
    (hab : a.crit = b.crit)
    (h : ∀ i, (∃ w, (pre ++ a :: post)[i]? = some w ∧ w.crit = true) ↔ lock = some i) :
    ∀ i, (∃ w, (pre ++ b :: post)[i]? = some w ∧ w.crit = true) ↔ lock = some i := by
  intro i
  rw [← h i]
  by_cases hi : i = pre.length
  · subst hi
    simp [hab]
  · rw [getElem?_middle pre post b a i hi]

theorem mutex_enter {pre post : List (Worker V)} {a b : Worker V}
    (hb : b.crit = true)
    (h : ∀ i, (∃ w, (pre ++ a :: post)[i]? = some w ∧ w.crit = true) ↔ (none : Option Nat) = some i) :
    ∀ i, (∃ w, (pre ++ b :: post)[i]? = some w ∧ w.crit = true) ↔ some pre.length = some i := by
  intro i
  by_cases hi : i = pre.length
  · subst hi
    simp [hb]
  · rw [getElem?_middle pre post b a i hi, h i]
    constructor
    · intro h; cases h
    · intro h; exact absurd (Option.some.inj h).symm hi

theorem mutex_leave {pre post : List (Worker V)} {a b : Worker V} {lock : Option Nat}
    (ha : a.crit = true) (hb : b.crit = false)
    (h : ∀ i, (∃ w, (pre ++ a :: post)[i]? = some w ∧ w.crit = true) ↔ lock = some i) :
    ∀ i, (∃ w, (pre ++ b :: post)[i]? = some w ∧ w.crit = true) ↔ (none : Option Nat) = some i := by
  have hl : lock = some pre.length := (h pre.length).1 ⟨a, by simp, ha⟩
  intro i
  by_cases hi : i = pre.length
  · subst hi
    simp [hb]
  · rw [getElem?_middle pre post b a i hi, h i, hl]
    constructor
    · intro h; exact absurd (Option.some.inj h).symm hi
    · intro h; cases h

theorem mem_middle {α : Type} {pre post : List α} {a b w : α} (P : α → Prop)
    (h : ∀ w ∈ pre ++ a :: post, P w) (hb : P b) (hw : w ∈ pre ++ b :: post) : P w := by
  rcases List.mem_append.1 hw with hw | hw
  · exact h w (List.mem_append_left _ hw)
  · rcases List.mem_cons.1 hw with rfl | hw
    · exact hb
    · exact h w (List.mem_append_right _ (List.mem_cons_of_mem _ hw))

theorem PoolInv.step {s t : Pool V} (h : PoolInv n task s) (hs : PoolStep n task s t) :
    PoolInv n task t := by
  cases hs with
  | take pre post c q lock out log =>
    obtain ⟨tasks, wf, xl, yl, cells, right, mutex⟩ := h
    dsimp only at *
    refine ⟨?_, wf, xl, yl, cells,
      fun w hw => mem_middle (b := .ready c) (Worker.Right n task) right (by exact True.intro) hw,
      mutex_same (a := .idle) (b := .ready c) rfl mutex⟩
    simp only [List.flatMap_append, List.flatMap_cons, Worker.rest, List.nil_append,
      List.flatten_cons] at tasks ⊢
    refine List.Perm.trans ?_ tasks
    apply List.Perm.append_left
    rw [List.append_assoc]
    refine (List.Perm.append_left _ (List.perm_append_comm_assoc _ _ _)).trans ?_
    exact List.perm_append_comm_assoc _ _ _
  | finish pre post q lock out log =>
    obtain ⟨tasks, wf, xl, yl, cells, right, mutex⟩ := h
    dsimp only at *
    exact ⟨by simpa [Worker.rest] using tasks, wf, xl, yl, cells,
      fun w hw => mem_middle (b := .idle) (Worker.Right n task) right (by exact True.intro) hw,
      mutex_same (a := .ready []) (b := .idle) rfl mutex⟩
  | compute pre post k ks q lock out log =>
    obtain ⟨tasks, wf, xl, yl, cells, right, mutex⟩ := h
    dsimp only at *
    exact ⟨by simpa [Worker.rest] using tasks, wf, xl, yl, cells,
      fun w hw => mem_middle (b := .computed k (task (k / n) (k % n)) ks)
        (Worker.Right n task) right (by exact rfl) hw,
      mutex_same (a := .ready (k :: ks)) (b := .computed k (task (k / n) (k % n)) ks) rfl mutex⟩
  | acquire pre post k v ks q out log =>
    obtain ⟨tasks, wf, xl, yl, cells, right, mutex⟩ := h
    dsimp only at *
    refine ⟨by simpa [Worker.rest] using tasks, wf, xl, yl, cells,
      fun w hw => mem_middle (b := .locked k v ks) (Worker.Right n task) right ?_ hw,
      mutex_enter (a := .computed k v ks) (b := .locked k v ks) rfl mutex⟩
    exact right (.computed k v ks) (by simp)
  | write pre post k v ks q lock out out' log hset =>
    obtain ⟨tasks, wf, hx, hy, cells, right, mutex⟩ := h
    dsimp only at *
    have hk : k ∈ List.range (n * n) := tasks.subset (by simp [Worker.rest])
    have hk := List.mem_range.1 hk
    have hk1 := div_lt_of_lt_mul' hk
    have hk2 := mod_lt_of_lt_mul hk
    have hv : v = task (k / n) (k % n) := right (.locked k v ks) (by simp)
    have hg := fun (q : Point) (h1 : q.x < n) (h2 : q.y < n) =>
      Grid.get_set out out' wf (p := ⟨k / n, k % n⟩) (q := q) v hset
        (by rw [hx]; exact h1) (by rw [hy]; exact h2)
    obtain ⟨e1, e2, e3, _⟩ := hg ⟨k / n, k % n⟩ hk1 hk2
    refine ⟨?_, e3, e1.trans hx, e2.trans hy, ?_,
      fun w hw => mem_middle (b := .written ks) (Worker.Right n task) right (by exact True.intro) hw,
      mutex_same (a := .locked k v ks) (b := .written ks) rfl mutex⟩
    · simp only [List.flatMap_append, List.flatMap_cons, Worker.rest] at tasks ⊢
      refine List.Perm.trans ?_ tasks
      rw [List.cons_append]
      refine List.perm_middle.symm.trans ?_
      apply List.Perm.append_left
      refine List.perm_middle.symm.trans ?_
      apply List.Perm.append_left
      rw [List.cons_append]
      exact List.perm_middle.symm
    · intro i hi j hj
      obtain ⟨_, _, _, e4⟩ := hg ⟨i, j⟩ hi hj
      rw [e4]
      by_cases hij : i * n + j = k
      · have h1 : k / n = i := by rw [← hij]; exact idx_div hj
        have h2 : k % n = j := by rw [← hij]; exact idx_mod hj
        simp [h1, h2, hij, hv]
      · have : (⟨i, j⟩ : Point) ≠ ⟨k / n, k % n⟩ := by
          intro e
          simp only [Point.mk.injEq] at e
          apply hij
          rw [e.1, e.2]; exact idx_of_div_mod k n
        rw [if_neg this, cells i hi j hj]
        simp [hij]
  | release pre post ks q lock out log =>
    obtain ⟨tasks, wf, xl, yl, cells, right, mutex⟩ := h
    dsimp only at *
    exact ⟨by simpa [Worker.rest] using tasks, wf, xl, yl, cells,
      fun w hw => mem_middle (b := .ready ks) (Worker.Right n task) right (by exact True.intro) hw,
      mutex_leave (a := .written ks) (b := .ready ks) rfl rfl mutex⟩

theorem PoolInv.run {m : Nat} {s t : Pool V} (h : PoolInv n task s)
    (hr : PoolRun n task m s t) : PoolInv n task t := by
  induction hr with
  | refl => exact h
  | step _ hs ih => exact (ih h).step hs

/-- Remaining work, decreased by every step. -/
def Worker.work {V : Type} : Worker V → Nat
  | .idle => 0
  | .ready ks => 5 * ks.length + 1
  | .computed _ _ ks => 5 * ks.length + 5
  | .locked _ _ ks => 5 * ks.length + 4
  | .written ks => 5 * ks.length + 3

/-- Remaining work of the pool. -/
def Pool.work {V : Type} (s : Pool V) : Nat :=
  (s.queue.map fun c => 5 * c.length + 2).sum + (s.workers.map Worker.work).sum

theorem PoolStep.work {s t : Pool V} (hs : PoolStep n task s t) : t.work < s.work := by
  cases hs <;> simp only [Pool.work, List.map_append, List.map_cons, List.sum_append, List.sum_cons,
    Worker.work, List.length_cons, List.length_nil] <;> omega

theorem PoolRun.work {m : Nat} {s t : Pool V} (hr : PoolRun n task m s t) :
    m + t.work ≤ s.work := by
  induction hr with
  | refl => omega
  | step _ hs ih => have := hs.work; omega

/-- A pool that is not done can go on. -/
theorem PoolInv.progress {s : Pool V} (h : PoolInv n task s) (hw : s.workers ≠ [])
    (hd : ¬ s.Done) : ∃ t, PoolStep n task s t := by
  obtain ⟨queue, workers, lock, out, log⟩ := s
  cases lock with
  | some i =>
    obtain ⟨w, hi, hc⟩ := (h.mutex i).2 rfl
    obtain ⟨pre, post, rfl⟩ := List.append_of_mem (List.mem_of_getElem? hi)
    cases w with
    | idle => cases hc
    | ready ks => cases hc
    | computed k v ks => cases hc
    | locked k v ks =>
      have hk : k ∈ List.range (n * n) := h.tasks.subset (by simp [Worker.rest])
      have hk := List.mem_range.1 hk
      have hset := Grid.set_ok out (p := ⟨k / n, k % n⟩) v
        (by have := h.xLen; simp only at this; rw [this]; exact div_lt_of_lt_mul' hk)
        (by have := h.yLen; simp only at this; rw [this]; exact mod_lt_of_lt_mul hk)
      exact ⟨_, .write pre post k v ks queue (some i) out _ log hset⟩
    | written ks => exact ⟨_, .release pre post ks queue (some i) out log⟩
  | none =>
    by_cases hall : ∀ w ∈ workers, w = .idle
    · cases queue with
      | nil => exact absurd ⟨rfl, hall⟩ hd
      | cons c q =>
        cases workers with
        | nil => exact absurd rfl hw
        | cons w ws =>
          have := hall w (by simp)
          subst this
          exact ⟨_, .take [] ws c q none out log⟩
    · push Not at hall
      obtain ⟨w, hmem, hne⟩ := hall
      obtain ⟨pre, post, rfl⟩ := List.append_of_mem hmem
      have hnc : ∀ w', w' = w → w'.crit = true → False := by
        rintro w' rfl hc
        have := (h.mutex pre.length).1 ⟨w', by simp, hc⟩
        cases this
      cases w with
      | idle => exact absurd rfl hne
      | ready ks =>
        cases ks with
        | nil => exact ⟨_, .finish pre post queue none out log⟩
        | cons k ks => exact ⟨_, .compute pre post k ks queue none out log⟩
      | computed k v ks => exact ⟨_, .acquire pre post k v ks queue out log⟩
      | locked k v ks => exact (hnc _ rfl rfl).elim
      | written ks => exact (hnc _ rfl rfl).elim

theorem PoolStep.workers_length {s t : Pool V} (hs : PoolStep n task s t) :
    t.workers.length = s.workers.length := by
  cases hs <;> simp

theorem PoolRun.workers_length {m : Nat} {s t : Pool V} (hr : PoolRun n task m s t) :
    t.workers.length = s.workers.length := by
  induction hr with
  | refl => rfl
  | step _ hs ih => rw [hs.workers_length, ih]

end

/-! ### Distance matrices -/

section

variable {S V : Type}

theorem nestedPoints_eq (xLen yLen : Nat) : nestedPoints xLen yLen = rowMajor xLen yLen := rfl

theorem Grid.as2d_eq (g : Grid S) (h : g.WF) : g.as2d = .ok g.data := by
  unfold Grid.as2d
  rw [nestedPoints_eq, mapM_eq_ok, rowMajor_eq_map, List.forall₂_map_left_iff]
  rw [List.forall₂_iff_get]
  refine ⟨by rw [List.length_range]; exact h.symm, ?_⟩
  intro i h1 h2
  simp only [List.get_eq_getElem, List.getElem_range]
  have hi : i < g.xLen * g.yLen := by simpa using h1
  rw [Grid.get_eq_ok_iff]
  refine ⟨div_lt_of_lt_mul' hi, mod_lt_of_lt_mul hi, ?_⟩
  simp only
  rw [idx_of_div_mod]
  exact List.getElem?_eq_getElem h2

theorem Grid.setRow_ok (m : Grid V) (h : m.WF) {i : Nat} (hi : i < m.xLen) {row : List V}
    (hrow : row.length = m.yLen) : ∃ m', m.setRow i row = .ok m' ∧ m'.WF ∧ m'.xLen = m.xLen ∧
      m'.yLen = m.yLen ∧ ∀ a < m.xLen, ∀ b < m.yLen,
        (a = i → ∃ v, row[b]? = some v ∧ m'.get ⟨a, b⟩ = .ok v) ∧
        (a ≠ i → m'.get ⟨a, b⟩ = m.get ⟨a, b⟩) := by
  refine ⟨{ m with data := m.data.mapIdx fun a old =>
      if a / m.yLen = i then row[a % m.yLen]?.getD old else old },
    by simp only [Grid.setRow, hi, hrow, if_true], by simpa [Grid.WF] using h, rfl, rfl, ?_⟩
  intro a ha b hb
  have hl : a * m.yLen + b < m.data.length := by rw [h]; exact idx_lt ha hb
  constructor
  · rintro rfl
    have hb' : b < row.length := by rw [hrow]; exact hb
    refine ⟨row[b], List.getElem?_eq_getElem hb', ?_⟩
    rw [Grid.get_eq_ok_iff]
    refine ⟨ha, hb, ?_⟩
    simp only [List.getElem?_mapIdx, List.getElem?_eq_getElem hl, Option.map_some, idx_div hb,
      idx_mod hb, if_true, List.getElem?_eq_getElem hb', Option.getD_some]
  · intro hne
    unfold Grid.get
    simp only [List.getElem?_mapIdx, List.getElem?_eq_getElem hl, Option.map_some, idx_div hb, hne,
      if_false]

theorem distanceRows_ok (measure : S → S → V) (g : Grid S) (hg : g.WF) :
    ∀ (ps : List Point) (m : Grid V), m.WF → m.xLen = g.xLen * g.yLen →
      m.yLen = g.xLen * g.yLen → (∀ p ∈ ps, p.x < g.xLen ∧ p.y < g.yLen) →
      ∃ m', distanceRows measure g g.data ps m = .ok m' ∧ m'.WF ∧ m'.xLen = g.xLen * g.yLen ∧
        m'.yLen = g.xLen * g.yLen ∧ ∀ a < g.xLen * g.yLen, ∀ b < g.xLen * g.yLen,
          ((∃ p ∈ ps, p.x * g.yLen + p.y = a) → ∃ s t, g.data[a]? = some s ∧ g.data[b]? = some t ∧
            m'.get ⟨a, b⟩ = .ok (measure s t)) ∧
          ((¬ ∃ p ∈ ps, p.x * g.yLen + p.y = a) → m'.get ⟨a, b⟩ = m.get ⟨a, b⟩) := by
  intro ps
  induction ps with
  | nil =>
    intro m h1 h2 h3 _
    exact ⟨m, rfl, h1, h2, h3, fun a _ b _ => ⟨by simp, by simp⟩⟩
  | cons p ps ih =>
    intro m h1 h2 h3 hps
    obtain ⟨hpx, hpy⟩ := hps p (by simp)
    obtain ⟨s, hs⟩ := g.exists_get hg hpx hpy
    have hidx := idx_lt hpx hpy
    obtain ⟨m1, e1, e2, e3, e4, e5⟩ := m.setRow_ok h1 (i := p.x * g.yLen + p.y)
      (by rw [h2]; exact hidx) (row := g.data.map fun other => measure s other)
      (by rw [List.length_map, h3]; exact hg)
    obtain ⟨m2, f1, f2, f3, f4, f5⟩ := ih m1 e2 (e3.trans h2) (e4.trans h3)
      fun q hq => hps q (by simp [hq])
    refine ⟨m2, by simp only [distanceRows, hs, e1, f1], f2, f3, f4, ?_⟩
    intro a ha b hb
    obtain ⟨k1, k2⟩ := f5 a ha b hb
    obtain ⟨l1, l2⟩ := e5 a (by rw [h2]; exact ha) b (by rw [h3]; exact hb)
    by_cases hlater : ∃ q ∈ ps, q.x * g.yLen + q.y = a
    · refine ⟨fun _ => k1 hlater, fun hn => ?_⟩
      obtain ⟨q, hq, hqa⟩ := hlater
      exact absurd ⟨q, by simp [hq], hqa⟩ hn
    · by_cases hp : a = p.x * g.yLen + p.y
      · refine ⟨fun _ => ?_, fun hn => absurd ⟨p, by simp, hp.symm⟩ hn⟩
        obtain ⟨v, hv, hget⟩ := l1 hp
        rw [List.getElem?_map, Option.map_eq_some_iff] at hv
        obtain ⟨t, ht, rfl⟩ := hv
        refine ⟨s, t, ?_, ht, (k2 hlater).trans hget⟩
        rw [hp]; exact ((Grid.get_eq_ok_iff _ _ _).1 hs).2.2
      · refine ⟨?_, fun _ => (k2 hlater).trans (l2 hp)⟩
        rintro ⟨q, hq, hqa⟩
        rcases List.mem_cons.1 hq with rfl | hq
        · exact absurd hqa.symm hp
        · exact absurd ⟨q, hq, hqa⟩ hlater

theorem addTranspose_ok [Zero V] [Add V] {m : Grid V} {n : Nat} (h : m.WF) (hx : m.xLen = n)
    (hy : m.yLen = n) (f : Nat → Nat → V)
    (hf : ∀ i < n, ∀ j < n, m.get ⟨i, j⟩ = .ok (f i j)) :
    addTranspose m = .ok (Grid.ofFn n n fun i j => f i j + f j i) := by
  have : (nestedPoints m.xLen m.yLen).mapM (addTransposeAt m) =
      .ok ((rowMajor n n).map fun p => f p.x p.y + f p.y p.x) := by
    rw [hx, hy, nestedPoints_eq]
    apply mapM_ok
    intro p hp
    obtain ⟨h1, h2⟩ := mem_rowMajor.1 hp
    simp [addTransposeAt, hf p.x h1 p.y h2, hf p.y h2 p.x h1]
  unfold addTranspose
  rw [this]
  simp only [hx, hy, Grid.ofFn, rowMajor_eq_map, List.map_map]
  rfl

end

end Spta
