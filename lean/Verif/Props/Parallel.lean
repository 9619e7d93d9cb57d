import Mathlib.Algebra.Order.Ring.Rat
import Mathlib.Algebra.Order.Monoid.Unbundled.WithTop
import Verif.Lemmas.Parallel

/-!
# C34–C35: parallel computation of a matrix over all pairs of points
-/

set_option linter.unusedSectionVars false

namespace Spta

section

variable {V : Type} [Zero V] {n numProc chunksize : Nat} {task : Nat → Nat → V}

/-- **C34**: whatever the number of workers, the chunk size and the interleaving of their steps, when
all chunks have been processed the output holds at `(i, j)` the result of the task for points `i`
and `j`, and every entry has been written exactly once. -/
theorem C34_schedule_independent (hc : 0 < chunksize) {steps : Nat} {s : Pool V}
    (hr : PoolRun n task steps (Pool.start n numProc chunksize) s) (hd : s.Done) :
    s.out.xLen = n ∧ s.out.yLen = n ∧ s.out.WF ∧
      (∀ i < n, ∀ j < n, s.out.get ⟨i, j⟩ = .ok (task i j)) ∧
      ∀ i < n, ∀ j < n, s.log.count (i * n + j) = 1 := by
  have h := (PoolInv.start (task := task) (numProc := numProc) hc).run hr
  have hlog : s.log.Perm (List.range (n * n)) := by
    have := h.tasks
    rw [hd.1] at this
    have he : s.workers.flatMap Worker.rest = [] := by
      rw [List.flatMap_eq_nil_iff]
      intro w hw
      rw [hd.2 w hw]; rfl
    rw [he] at this
    simpa using this
  refine ⟨h.xLen, h.yLen, h.wf, ?_, ?_⟩
  · intro i hi j hj
    rw [h.cells i hi j hj, if_pos]
    exact hlog.mem_iff.2 (List.mem_range.2 (idx_lt hi hj))
  · intro i hi j hj
    rw [hlog.count_eq]
    exact List.count_eq_one_of_mem List.nodup_range (List.mem_range.2 (idx_lt hi hj))

/-- **C34** (termination): there is a bound on the number of steps of all executions, and an execution
can always be continued to the end: with at least one worker no interleaving gets stuck. -/
theorem C34_always_finishes (hc : 0 < chunksize) (hp : 0 < numProc) :
    (∃ bound, ∀ steps (s : Pool V), PoolRun n task steps (Pool.start n numProc chunksize) s →
      steps ≤ bound) ∧
    ∀ steps (s : Pool V), PoolRun n task steps (Pool.start n numProc chunksize) s →
      ∃ steps' s', PoolRun n task steps' (Pool.start n numProc chunksize) s' ∧ s'.Done ∧
        steps ≤ steps' ∧ (¬ s.Done → ∃ t, PoolStep n task s t) := by
  refine ⟨⟨_, fun steps s hr => (Nat.le_add_right _ _).trans hr.work⟩, ?_⟩
  have key : ∀ (m steps : Nat) (s : Pool V), s.work ≤ m →
      PoolRun n task steps (Pool.start n numProc chunksize) s →
      ∃ steps' s', PoolRun n task steps' (Pool.start n numProc chunksize) s' ∧ s'.Done ∧
        steps ≤ steps' ∧ (¬ s.Done → ∃ t, PoolStep n task s t) := by
    intro m
    induction m with
    | zero =>
      intro steps s hm hr
      have h := (PoolInv.start (task := task) (numProc := numProc) hc).run hr
      by_cases hd : s.Done
      · exact ⟨steps, s, hr, hd, le_rfl, fun h => absurd hd h⟩
      · have hw : s.workers ≠ [] := by
          intro e
          have := hr.workers_length
          rw [e] at this
          simp [Pool.start] at this
          omega
        obtain ⟨t, ht⟩ := h.progress hw hd
        have := ht.work
        omega
    | succ m ih =>
      intro steps s hm hr
      have h := (PoolInv.start (task := task) (numProc := numProc) hc).run hr
      by_cases hd : s.Done
      · exact ⟨steps, s, hr, hd, le_rfl, fun h => absurd hd h⟩
      · have hw : s.workers ≠ [] := by
          intro e
          have := hr.workers_length
          rw [e] at this
          simp [Pool.start] at this
          omega
        obtain ⟨t, ht⟩ := h.progress hw hd
        obtain ⟨steps', s', h1, h2, h3, _⟩ := ih (steps + 1) t (by have := ht.work; omega)
          (hr.step ht)
        exact ⟨steps', s', h1, h2, by omega, fun _ => ⟨t, ht⟩⟩
  exact fun steps s hr => key s.work steps s le_rfl hr

/-- Executions exist: for instance with 3 workers and chunks of 2 on a region with 4 points. -/
example : ∃ steps s, PoolRun 4 (fun i j => (10 * i + j : Nat)) steps (Pool.start 4 3 2) s ∧ s.Done ∧
    s.out.get ⟨2, 3⟩ = .ok 23 := by
  obtain ⟨_, h⟩ := C34_always_finishes (n := 4) (numProc := 3) (chunksize := 2)
    (task := fun i j => (10 * i + j : Nat)) (by decide) (by decide)
  obtain ⟨steps, s, h1, h2, _⟩ := h 0 _ (.refl _)
  exact ⟨steps, s, h1, h2, (C34_schedule_independent (by decide) h1 h2).2.2.2.1 2 (by decide) 3
    (by decide)⟩

end

section

variable {S V : Type} {measure : S → S → V} {g : Grid S}

/-- **C35**: the sequential matrix holds at `(i, j)` the distance between series `i` and `j`, in the
order of the point indices. -/
theorem C35_sequential (hg : g.WF) {junk : Grid V} (hj : junk.WF)
    (hx : junk.xLen = g.xLen * g.yLen) (hy : junk.yLen = g.xLen * g.yLen) :
    ∃ m, sequentialMatrix measure g junk = .ok m ∧ m.WF ∧ m.xLen = g.xLen * g.yLen ∧
      m.yLen = g.xLen * g.yLen ∧ ∀ p q : Point, ∀ s t, g.get p = .ok s → g.get q = .ok t →
        m.get ⟨p.x * g.yLen + p.y, q.x * g.yLen + q.y⟩ = .ok (measure s t) := by
  obtain ⟨m, h1, h2, h3, h4, h5⟩ := distanceRows_ok measure g hg
    (nestedPoints g.xLen g.yLen) junk hj hx hy (fun p hp => by
      rw [nestedPoints_eq] at hp; exact mem_rowMajor.1 hp)
  refine ⟨m, by simp only [sequentialMatrix, g.as2d_eq hg, h1], h2, h3, h4, ?_⟩
  intro p q s t hp hq
  obtain ⟨a1, a2, a3⟩ := (Grid.get_eq_ok_iff _ _ _).1 hp
  obtain ⟨b1, b2, b3⟩ := (Grid.get_eq_ok_iff _ _ _).1 hq
  obtain ⟨s', t', c1, c2, c3⟩ := (h5 _ (idx_lt a1 a2) _ (idx_lt b1 b2)).1
    ⟨p, by rw [nestedPoints_eq]; exact mem_rowMajor.2 ⟨a1, a2⟩, rfl⟩
  rw [a3] at c1; rw [b3] at c2
  cases c1; cases c2
  exact c3

variable [AddZeroClass V]

/-- **C35**: the parallel matrix is zero on the diagonal, and on both sides of it holds the distance
measured from the point with the higher index to the other. -/
theorem C35_parallel (hg : g.WF) {numProc : Nat} {outcome : Except PyErr (Grid V)}
    (h : ParallelMatrix measure g numProc outcome) :
    ∃ m, outcome = .ok m ∧ m.WF ∧ m.xLen = g.xLen * g.yLen ∧ m.yLen = g.xLen * g.yLen ∧
      ∀ (i j : Nat) (s t : S), g.data[i]? = some s → g.data[j]? = some t →
        m.get ⟨i, j⟩ = .ok (if i = j then 0 else if j < i then measure s t else measure t s) := by
  obtain ⟨l, hl, steps, s, hr, hd, rfl⟩ := h
  rw [g.as2d_eq hg] at hl
  cases hl
  obtain ⟨h1, h2, h3, h4, _⟩ := C34_schedule_independent (by decide) hr hd
  have e := addTranspose_ok h3 h1 h2 _ h4
  refine ⟨_, e, Grid.ofFn_wf _ _ _, rfl, rfl, ?_⟩
  intro i j s t hs ht
  have hi : i < g.xLen * g.yLen := by
    have := (List.getElem?_eq_some_iff.1 hs).1; rwa [hg] at this
  have hj : j < g.xLen * g.yLen := by
    have := (List.getElem?_eq_some_iff.1 ht).1; rwa [hg] at this
  rw [Grid.get_ofFn (p := ⟨i, j⟩) hi hj]
  congr 1
  unfold dtwTask
  rcases Nat.lt_trichotomy i j with h | h | h
  · have h' : ¬ j ≤ i := by omega
    have h1 : i ≤ j := by omega
    have h2 : i ≠ j := by omega
    have h3 : ¬ j < i := by omega
    simp [h1, h', h2, h3, hs, ht]
  · subst h; simp
  · have h' : ¬ i ≤ j := by omega
    have h1 : j ≤ i := by omega
    have h2 : i ≠ j := by omega
    simp [h1, h', h2, h, hs, ht]

/-- A parallel computation has an outcome. -/
theorem C35_parallel_exists (hg : g.WF) (measure : S → S → V) {numProc : Nat} (hp : 0 < numProc) :
    ∃ outcome, ParallelMatrix measure g numProc outcome := by
  obtain ⟨_, h⟩ := C34_always_finishes (n := g.xLen * g.yLen) (numProc := numProc)
    (chunksize := 50) (task := dtwTask measure g.data) (by decide) hp
  obtain ⟨steps, s, h1, h2, _⟩ := h 0 _ (.refl _)
  exact ⟨_, g.data, g.as2d_eq hg, steps, s, h1, h2, rfl⟩

/-- **C35** (partial: the claim is that both agree always). The parallel and the sequential matrix
agree exactly when the distance between different points is symmetric and the distance of each
series to itself is zero. -/
theorem C35_agree_iff_partial (hg : g.WF) {junk : Grid V} (hj : junk.WF)
    (hx : junk.xLen = g.xLen * g.yLen) (hy : junk.yLen = g.xLen * g.yLen) {numProc : Nat}
    {outcome : Except PyErr (Grid V)} (h : ParallelMatrix measure g numProc outcome) :
    outcome = sequentialMatrix measure g junk ↔
      (∀ s ∈ g.data, measure s s = 0) ∧
      ∀ (i j : Nat) (s t : S), g.data[i]? = some s → g.data[j]? = some t →
        measure s t = measure t s := by
  obtain ⟨m, e1, a1, a2, a3, a4⟩ := C35_parallel hg h
  obtain ⟨m', e2, b1, b2, b3, b4⟩ := C35_sequential (measure := measure) hg hj hx hy
  subst e1
  rw [e2]
  have hseq : ∀ (i j : Nat) (s t : S), g.data[i]? = some s → g.data[j]? = some t →
      m'.get ⟨i, j⟩ = .ok (measure s t) := by
    intro i j s t hs ht
    have hi : i < g.xLen * g.yLen := by
      have := (List.getElem?_eq_some_iff.1 hs).1; rwa [hg] at this
    have hj : j < g.xLen * g.yLen := by
      have := (List.getElem?_eq_some_iff.1 ht).1; rwa [hg] at this
    have := b4 ⟨i / g.yLen, i % g.yLen⟩ ⟨j / g.yLen, j % g.yLen⟩ s t
      ((Grid.get_eq_ok_iff _ _ _).2 ⟨div_lt_of_lt_mul' hi, mod_lt_of_lt_mul hi, by
        simp only [idx_of_div_mod]; exact hs⟩)
      ((Grid.get_eq_ok_iff _ _ _).2 ⟨div_lt_of_lt_mul' hj, mod_lt_of_lt_mul hj, by
        simp only [idx_of_div_mod]; exact ht⟩)
    simpa only [idx_of_div_mod] using this
  constructor
  · intro he
    cases he
    constructor
    · intro s hs
      obtain ⟨i, hi⟩ := List.mem_iff_getElem?.1 hs
      have h1 := a4 i i s s hi hi
      rw [hseq i i s s hi hi] at h1
      simpa using h1
    · intro i j s t hs ht
      have h1 := a4 i j s t hs ht
      rw [hseq i j s t hs ht] at h1
      have h2 := a4 j i t s ht hs
      rw [hseq j i t s ht hs] at h2
      simp only [Except.ok.injEq] at h1 h2
      rcases Nat.lt_trichotomy i j with h | h | h
      · rw [if_neg (by omega), if_neg (by omega)] at h1; exact h1
      · subst h
        rw [if_pos rfl] at h1 h2
        rw [h1, h2]
      · rw [if_neg (by omega), if_neg (by omega)] at h2; exact h2.symm
  · rintro ⟨hz, hsym⟩
    congr 1
    apply Grid.ext_get a1 b1 (a2.trans b2.symm) (a3.trans b3.symm)
    intro p hpx hpy
    rw [a2] at hpx; rw [a3] at hpy
    rw [← hg] at hpx hpy
    have hs := List.getElem?_eq_getElem hpx
    have ht := List.getElem?_eq_getElem hpy
    have h1 := a4 p.x p.y _ _ hs ht
    have h2 := hseq p.x p.y _ _ hs ht
    have hp : (⟨p.x, p.y⟩ : Point) = p := rfl
    rw [hp] at h1 h2
    rw [h1, h2]
    congr 1
    split
    · rename_i e
      have : g.data[p.x] = g.data[p.y] := by
        rw [← Option.some.injEq, ← hs, ← ht, e]
      rw [this]
      exact (hz _ (List.getElem_mem _)).symm
    · split
      · rfl
      · exact hsym _ _ _ _ ht hs

/-- Two points, each with one value; nan is `⊤`. -/
def nanRegion : Grid (WithTop Rat) := ⟨1, 2, [⊤, 3]⟩

/-- The distance of the code: nan as soon as a series contains nan. -/
def nanMeasure (a b : WithTop Rat) : WithTop Rat :=
  if a = ⊤ ∨ b = ⊤ then ⊤ else if a ≤ b then (b.untopD 0 - a.untopD 0 : Rat)
    else (a.untopD 0 - b.untopD 0 : Rat)

/-- **C35** is refuted: with a nan series the two matrices differ (the diagonal is nan in one of them
and zero in the other), in every execution. -/
theorem C35_nan_refuted {numProc : Nat} {outcome : Except PyErr (Grid (WithTop Rat))}
    (h : ParallelMatrix nanMeasure nanRegion numProc outcome) :
    outcome ≠ sequentialMatrix nanMeasure nanRegion (Grid.const 2 2 0) := by
  intro he
  have := ((C35_agree_iff_partial (by decide) (by decide) rfl rfl h).1 he).1 ⊤ (by
    simp [nanRegion])
  simp [nanMeasure] at this

/-- Without nan, that region meets the conditions. -/
example : let g : Grid (WithTop Rat) := ⟨1, 2, [1, 3]⟩
    (∀ s ∈ g.data, nanMeasure s s = 0) ∧ nanMeasure 1 3 = nanMeasure 3 1 := by decide +kernel

end

end Spta
