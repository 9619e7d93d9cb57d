import Mathlib.Algebra.Order.Ring.Rat
import Verif.Lemmas.TaskQueue

/-!
# C92, C93: the queue of tasks of spta/util/parallel_old.py
-/

set_option linter.unusedSectionVars false

namespace Spta

section

variable {V : Type} [Zero V] {f : Nat → Nat → Except PyErr V} {numProc m n : Nat} {s s' : TaskQueue V}
  {r : Grid V}

theorem callTasks_points (array m n : Nat) :
    (callTasks array m n).Perm ((nestedPoints m n).map fun p => ⟨array, p.x, p.y, n⟩) := by
  have hmem : ∀ p : Point, p ∈ nestedPoints m n ↔ p.x < m ∧ p.y < n := by
    rintro ⟨x, y⟩
    simp [nestedPoints]
  have hnd : (nestedPoints m n).Nodup := by
    unfold nestedPoints
    rw [List.nodup_flatMap]
    refine ⟨fun i _ => List.nodup_range.map fun a b h => by simpa using h, ?_⟩
    refine List.nodup_range.imp ?_
    intro a b hab x hx hy
    simp only [List.mem_map] at hx hy
    obtain ⟨_, _, rfl⟩ := hx
    obtain ⟨_, _, h⟩ := hy
    injection h with h1
    exact hab h1.symm
  rw [List.perm_ext_iff_of_nodup]
  · rintro ⟨a, i, j, w⟩
    rw [mem_callTasks]
    simp only [List.mem_map, hmem, QueueTask.mk.injEq]
    constructor
    · rintro ⟨rfl, rfl, h1, h2⟩
      exact ⟨⟨i, j⟩, ⟨h1, h2⟩, rfl, rfl, rfl, rfl⟩
    · rintro ⟨p, ⟨h1, h2⟩, rfl, rfl, rfl, rfl⟩
      exact ⟨rfl, rfl, h1, h2⟩
  · refine (callTasks_nodup array m n).imp ?_
    intro a b h e
    subst e
    rcases h with h | h <;> exact h rfl
  · refine hnd.map ?_
    intro a b h
    simp only [QueueTask.mk.injEq] at h
    obtain ⟨x, y⟩ := a
    obtain ⟨x', y'⟩ := b
    simp_all

/-- **C92**: whatever the number of processes (at least one), the shape, the interleaving of the steps and the
earlier calls of the queue, if the function does not raise then the result of a call holds at `(i, j)` the
value of the function for `i` and `j`; the function was called for all tasks left from earlier calls, then
exactly once for every `(i, j)`, and the queue is empty. -/
theorem C92_result (hp : 0 < numProc) (hs : QueueReach numProc s)
    (hf : ∀ i < m, ∀ j < n, ∃ v, f i j = .ok v) (hl : ∀ t ∈ s.queue, ∃ v, f t.i t.j = .ok v)
    (h : s.Executes numProc f m n s' r) :
    r.xLen = m ∧ r.yLen = n ∧ r.WF ∧ (∀ i < m, ∀ j < n, r.get ⟨i, j⟩ = f i j) ∧ s'.queue = [] ∧
      ∃ new : List QueueTask, s'.log = s.log ++ s.queue ++ new ∧
        ∀ i j, (new.map fun t => (t.i, t.j)).count (i, j) = if i < m ∧ j < n then 1 else 0 := by
  obtain ⟨taken, done, hi, hperm, hlen, hq, hx, hy, hw, hc⟩ := Executes.spec hs.ready h
  have hok : ∀ t ∈ s.queue ++ callTasks s.arrays.length m n, t.fails f = false := by
    intro t ht
    rcases List.mem_append.1 ht with ht | ht
    · obtain ⟨v, hv⟩ := hl t ht
      simp [QueueTask.fails, hv]
    · obtain ⟨_, _, h1, h2⟩ := mem_callTasks.1 ht
      obtain ⟨v, hv⟩ := hf t.i h1 t.j h2
      simp [QueueTask.fails, hv]
  have hdone : ∀ t ∈ done, t ∈ s.queue ++ callTasks s.arrays.length m n := by
    intro t ht
    have : t ∈ (s.start numProc m n).queue := by
      rw [← hi.order]
      exact List.mem_append_left _ (hperm.mem_iff.2 ht)
    exact this
  have hcr : s'.procs.count .crashed = 0 := by
    rw [hi.crashes, List.countP_eq_zero]
    intro t ht
    simp [hok t (hdone t ht)]
  obtain ⟨q1, q2⟩ := hq (by omega)
  refine ⟨hx, hy, hw, ?_, q1, callTasks s.arrays.length m n, ?_, ?_⟩
  · intro i hi' j hj'
    obtain ⟨v, hv⟩ := hf i hi' j hj'
    rw [hv]
    exact (hc i hi' j hj').1 (q2.mem_iff.2 (List.mem_append_right _ (mem_callTasks.2 ⟨rfl, rfl, hi', hj'⟩))) v hv
  · have := hi.order
    rw [q1, List.append_nil] at this
    rw [hi.log, this, List.append_assoc]
    rfl
  · intro i j
    have h1 := ((callTasks_points s.arrays.length m n).map fun t => (t.i, t.j)).count_eq (i, j)
    rw [h1, List.map_map]
    have hnd : ((nestedPoints m n).map ((fun t : QueueTask => (t.i, t.j)) ∘
        fun p => ⟨s.arrays.length, p.x, p.y, n⟩)).Nodup := by
      have : (callTasks s.arrays.length m n).Nodup := (callTasks_nodup s.arrays.length m n).imp (by
        intro a b h e
        subst e
        rcases h with h | h <;> exact h rfl)
      have h2 := ((callTasks_points s.arrays.length m n).nodup_iff.1 this).of_map
      refine h2.map ?_
      rintro ⟨a, b⟩ ⟨a', b'⟩ h
      simpa using h
    split
    · rename_i hij
      refine List.count_eq_one_of_mem hnd ?_
      simp only [List.mem_map, Function.comp]
      exact ⟨⟨i, j⟩, by simp [nestedPoints, hij.1, hij.2], rfl⟩
    · rename_i hij
      rw [List.count_eq_zero]
      simp only [List.mem_map, Function.comp, not_exists, not_and]
      rintro ⟨x, y⟩ hxy h
      have hb : x < m ∧ y < n := by simpa [nestedPoints] using hxy
      simp only [Prod.mk.injEq] at h
      exact hij (h.1 ▸ h.2 ▸ hb)

/-- **C92** (termination): all executions of a call have a bounded number of steps, no execution gets stuck,
and every one can be continued until all processes have ended and a result is returned. -/
theorem C92_finishes (hs : QueueReach numProc s) (m n : Nat) (f : Nat → Nat → Except PyErr V) {steps : Nat}
    {t : TaskQueue V} (h : QueueRun f steps (s.start numProc m n) t) :
    steps ≤ 2 * (s.queue.length + m * n) + numProc ∧ (¬ t.Joined → ∃ u, QueueStep f t u) ∧
      ∃ more u r, QueueRun f more t u ∧ s.Executes numProc f m n u r := by
  refine ⟨?_, fun h => QueueStep.progress f h, ?_⟩
  · have := h.left
    have e : (s.start numProc m n).left = 2 * (s.queue.length + m * n) + numProc := by
      simp [TaskQueue.left, TaskQueue.start, QueueProc.weight]
    omega
  · obtain ⟨k, u, hu, hj⟩ := QueueRun.finishes f t
    have hrun := h.trans hu
    obtain ⟨taken, done, hi⟩ := QueueInv.run (hs.ready.start numProc m n)
      (fun p hp => List.eq_of_mem_replicate hp) hrun
    have hsh := congrArg (fun l => l[s.arrays.length]?) hi.shape
    simp only [TaskQueue.start, List.map_append, List.getElem?_map] at hsh
    cases ha : u.arrays[s.arrays.length]? with
    | none => simp [ha] at hsh
    | some a => exact ⟨k, u, ⟨m, n, a⟩, hu, ⟨_, hrun⟩, hj, a, ha, rfl⟩

/-- Two processes fill a 2 by 2 matrix: there is an execution, and all of them give this result. -/
example : (∃ s' r, TaskQueue.new.Executes 2 (fun i j => (.ok (10 * i + j) : Except PyErr Nat)) 2 2 s' r) ∧
    ∀ s' r, TaskQueue.new.Executes 2 (fun i j => (.ok (10 * i + j) : Except PyErr Nat)) 2 2 s' r →
      r.get ⟨1, 0⟩ = .ok 10 ∧ r.get ⟨1, 1⟩ = .ok 11 := by
  refine ⟨?_, fun s' r h => ?_⟩
  · obtain ⟨-, -, -, u, r, -, h⟩ := C92_finishes (V := Nat) (QueueReach.new (numProc := 2)) 2 2
      (fun i j => .ok (10 * i + j)) (.refl _)
    exact ⟨u, r, h⟩
  · obtain ⟨-, -, -, h1, -⟩ := C92_result (by decide) QueueReach.new (fun i _ j _ => ⟨_, rfl⟩)
      (by simp [TaskQueue.new]) h
    exact ⟨h1 1 (by decide) 0 (by decide), h1 1 (by decide) 1 (by decide)⟩

/-- **C93** in part: a task that raises ends its process. As long as fewer tasks raise than there are processes,
all other entries of the result are right; the entry of a task that raises is 0, no exception is reported. -/
theorem C93_failures_partial (hs : QueueReach numProc s)
    (hfew : s.queue.countP (QueueTask.fails f) +
      (nestedPoints m n).countP (fun p => match f p.x p.y with | .error _ => true | .ok _ => false) < numProc)
    (h : s.Executes numProc f m n s' r) :
    r.xLen = m ∧ r.yLen = n ∧ r.WF ∧ s'.queue = [] ∧
      ∀ i < m, ∀ j < n, (∀ v, f i j = .ok v → r.get ⟨i, j⟩ = .ok v) ∧
        (∀ e, f i j = .error e → r.get ⟨i, j⟩ = .ok 0) := by
  obtain ⟨taken, done, hi, hperm, hlen, hq, hx, hy, hw, hc⟩ := Executes.spec hs.ready h
  have hcr : s'.procs.count .crashed < numProc := by
    rw [hi.crashes]
    refine lt_of_le_of_lt ?_ hfew
    have hsub : taken.Sublist (s.queue ++ callTasks s.arrays.length m n) := by
      have := hi.order
      rw [show s.queue ++ callTasks s.arrays.length m n = (s.start numProc m n).queue from rfl, ← this]
      exact List.sublist_append_left _ _
    rw [← hperm.countP_eq]
    refine (hsub.countP_le).trans ?_
    rw [List.countP_append, (callTasks_points s.arrays.length m n).countP_eq, List.countP_map]
    exact le_refl _
  obtain ⟨q1, q2⟩ := hq hcr
  refine ⟨hx, hy, hw, q1, fun i hi' j hj' => ⟨?_, ?_⟩⟩
  · exact (hc i hi' j hj').1 (q2.mem_iff.2 (List.mem_append_right _ (mem_callTasks.2 ⟨rfl, rfl, hi', hj'⟩)))
  · intro e he
    exact (hc i hi' j hj').2 (Or.inr ⟨e, he⟩)

/-- **C93**: in all cases an entry of the result is 0 or the value of the function. -/
theorem C93_entries (hs : QueueReach numProc s) (h : s.Executes numProc f m n s' r) {i j : Nat} (hi : i < m)
    (hj : j < n) : r.get ⟨i, j⟩ = .ok 0 ∨ ∃ v, f i j = .ok v ∧ r.get ⟨i, j⟩ = .ok v := by
  obtain ⟨taken, done, -, -, -, -, -, -, -, hc⟩ := Executes.spec hs.ready h
  obtain ⟨h1, h2⟩ := hc i hi j hj
  by_cases hd : (⟨s.arrays.length, i, j, n⟩ : QueueTask) ∈ done
  · cases hf : f i j with
    | error e => exact Or.inl (h2 (Or.inr ⟨e, hf⟩))
    | ok v => exact Or.inr ⟨v, rfl, h1 hd v hf⟩
  · exact Or.inl (h2 (Or.inl hd))

/-- **C93**, which tasks are executed, for all functions and schedules: those before which fewer tasks raise than
there are processes, in the order of the queue. The others stay in the queue. -/
theorem C93_left (hs : QueueReach numProc s) (h : s.Executes numProc f m n s' r) :
    ∃ executed, executed ++ s'.queue = s.queue ++ callTasks s.arrays.length m n ∧
      s'.log = s.log ++ executed ∧
      ∀ (k : Nat) (t : QueueTask), (s.queue ++ callTasks s.arrays.length m n)[k]? = some t →
        (k < executed.length ↔
          ((s.queue ++ callTasks s.arrays.length m n).take k).countP (QueueTask.fails f) < numProc) := by
  obtain ⟨steps, hrun⟩ := h.1
  obtain ⟨taken, done, hi, hfew⟩ := QueueInv.few (hs.ready.start numProc m n)
    (fun p hp => List.eq_of_mem_replicate hp) hrun
  obtain ⟨taken2, done2, hi2, hperm, hlen, hq, -⟩ := Executes.spec hs.ready h
  have e : taken2 = taken := List.append_cancel_left (hi2.log.symm.trans hi.log)
  subst e
  have hn : (s.start numProc m n).procs.length = numProc := by simp [TaskQueue.start]
  rw [hn] at hfew
  have horder : taken2 ++ s'.queue = s.queue ++ callTasks s.arrays.length m n := hi.order
  refine ⟨taken2, horder, hi.log, fun k t hk => ⟨fun hlt => ?_, fun hlt => ?_⟩⟩
  · have hne : taken2 ≠ [] := by
      intro e
      rw [e] at hlt
      simp at hlt
    refine lt_of_le_of_lt (List.Sublist.countP_le ?_) (hfew hne)
    rw [← horder, List.take_append_of_le_length (by omega), List.dropLast_eq_take]
    exact (List.take_prefix_take_left (by omega)).sublist
  · by_contra hge
    have hcr : ¬ s'.procs.count .crashed < numProc := by
      intro hc
      have := (hq hc).1
      rw [this, List.append_nil] at horder
      rw [← horder] at hk
      exact hge (List.getElem?_eq_some_iff.1 hk).1
    have : taken2.countP (QueueTask.fails f) ≤
        ((s.queue ++ callTasks s.arrays.length m n).take k).countP (QueueTask.fails f) := by
      refine List.Sublist.countP_le ?_
      rw [← horder, List.take_append, List.take_of_length_le (by omega)]
      exact List.sublist_append_left _ _
    rw [hperm.countP_eq, ← hi2.crashes] at this
    omega

/-- **C93**, every entry of the result, for all functions, numbers of processes, schedules and earlier calls: if fewer
tasks before it raise (counting those an earlier call has left in the queue) than there are processes, it is the value
of the function, or 0 if the function raises; otherwise it is 0. The full claim would be that it is the value whenever
the function does not raise. -/
theorem C93_exactly_partial (hs : QueueReach numProc s) (h : s.Executes numProc f m n s' r) {i j : Nat} (hi : i < m)
    (hj : j < n) : r.get ⟨i, j⟩ = .ok
      (if s.queue.countP (QueueTask.fails f) + ((List.range (i * n + j)).countP fun k =>
          match f (k / n) (k % n) with | .error _ => true | .ok _ => false) < numProc
        then (match f i j with | .ok v => v | .error _ => 0) else 0) := by
  obtain ⟨executed, horder, hlog, hex⟩ := C93_left hs h
  obtain ⟨taken, done, hinv, hperm, -, -, -, -, -, hc⟩ := Executes.spec hs.ready h
  have e : taken = executed := List.append_cancel_left (hinv.log.symm.trans hlog)
  subst e
  have hlt := idx_lt hi hj
  have hn : 0 < n := by omega
  have hpos : (s.queue ++ callTasks s.arrays.length m n)[s.queue.length + (i * n + j)]? =
      some ⟨s.arrays.length, i, j, n⟩ := by
    rw [List.getElem?_append_right (by omega)]
    simp only [Nat.add_sub_cancel_left, callTasks, List.getElem?_map, List.getElem?_range hlt, Option.map_some]
    rw [idx_div hj, idx_mod hj]
  have hcount : ((s.queue ++ callTasks s.arrays.length m n).take (s.queue.length + (i * n + j))).countP
      (QueueTask.fails f) = s.queue.countP (QueueTask.fails f) + ((List.range (i * n + j)).countP fun k =>
          match f (k / n) (k % n) with | .error _ => true | .ok _ => false) := by
    rw [List.take_append, List.take_of_length_le (by omega), Nat.add_sub_cancel_left, List.countP_append]
    unfold callTasks
    rw [← List.map_take, List.take_range, Nat.min_eq_left (by omega), List.countP_map]
    rfl
  have hnd : (s.queue ++ callTasks s.arrays.length m n).Nodup :=
    (hs.ready.start numProc m n).apart.imp (fun h e => by
      subst e
      rcases h with h | h <;> exact h rfl)
  have hmem : (⟨s.arrays.length, i, j, n⟩ : QueueTask) ∈ done ↔ s.queue.length + (i * n + j) < taken.length := by
    rw [← hperm.mem_iff]
    rw [← horder] at hpos hnd
    constructor
    · intro hm
      obtain ⟨k, hk, hke⟩ := List.getElem_of_mem hm
      by_contra hge
      have h1 : (taken ++ s'.queue)[k]? = some ⟨s.arrays.length, i, j, n⟩ := by
        rw [List.getElem?_append_left hk, List.getElem?_eq_getElem hk, hke]
      have h2 := (List.getElem?_eq_some_iff.1 h1).1
      have := (List.getElem?_inj h2 hnd).1 (h1.trans hpos.symm)
      omega
    · intro hk
      rw [List.getElem?_append_left hk] at hpos
      exact List.mem_of_getElem? hpos
  obtain ⟨c1, c2⟩ := hc i hi j hj
  have hiff := hex _ _ hpos
  rw [hcount, ← hmem] at hiff
  split
  · rename_i hlt'
    have hd := hiff.2 hlt'
    cases hf : f i j with
    | ok v => exact c1 hd v hf
    | error er => exact c2 (Or.inr ⟨er, hf⟩)
  · rename_i hge
    exact c2 (Or.inl fun hd => hge (hiff.1 hd))

end

/-- A function that raises for (0, 0). -/
def raisesFirst (i j : Nat) : Except PyErr Nat := if i = 0 ∧ j = 0 then .error .valueError else .ok (10 * i + j)

/-- The state after the only process has ended with the exception of the first task. -/
def afterCrash : TaskQueue Nat := ⟨[⟨0, 0, 1, 2⟩], [.crashed], [[0, 0]], [⟨0, 0, 0, 2⟩]⟩

theorem afterCrash_executes : TaskQueue.new.Executes 1 raisesFirst 1 2 afterCrash ⟨1, 2, [0, 0]⟩ := by
  refine ⟨⟨2, ?_⟩, ?_, [0, 0], rfl, rfl⟩
  · refine .step (.step (.refl _) (.take [] [] ⟨0, 0, 0, 2⟩ [⟨0, 0, 1, 2⟩] [[0, 0]] [])) ?_
    exact .crash [] [] ⟨0, 0, 0, 2⟩ [⟨0, 0, 1, 2⟩] [[0, 0]] [⟨0, 0, 0, 2⟩] .valueError rfl
  · intro p hp
    simp only [afterCrash, List.mem_singleton] at hp
    exact Or.inr hp

/-- **C93** fails in general: one process, the task (0, 0) raises; the call returns normally, the entry (0, 1)
is 0 although the function gives 1, and the task stays in the queue. -/
theorem C93_failures_refuted : ∃ (f : Nat → Nat → Except PyErr Nat) (s' : TaskQueue Nat) (r : Grid Nat),
    TaskQueue.new.Executes 1 f 1 2 s' r ∧ f 0 1 = .ok 1 ∧ r.get ⟨0, 1⟩ = .ok 0 ∧ s'.queue ≠ [] :=
  ⟨raisesFirst, afterCrash, _, afterCrash_executes, rfl, rfl, by decide⟩

/-- After that, a call with a function that does not raise gives the right matrix: the task left in the queue
writes to the old array. -/
example : ∀ s' r, afterCrash.Executes 1 (fun i j => (.ok (10 * i + j) : Except PyErr Nat)) 2 2 s' r →
    r.get ⟨0, 1⟩ = .ok 1 ∧ r.get ⟨1, 0⟩ = .ok 10 := by
  intro s' r h
  obtain ⟨-, -, -, h1, -⟩ := C92_result (by decide) (.call .new afterCrash_executes) (fun i _ j _ => ⟨_, rfl⟩)
    (fun t _ => ⟨_, rfl⟩) h
  exact ⟨h1 0 (by decide) 1 (by decide), h1 1 (by decide) 0 (by decide)⟩

/-- Two processes are enough for one task that raises. -/
example : ∀ s' r, TaskQueue.new.Executes 2 raisesFirst 1 2 s' r → r.get ⟨0, 1⟩ = .ok 1 := by
  intro s' r h
  obtain ⟨-, -, -, -, h1⟩ := C93_failures_partial QueueReach.new (by decide) h
  exact (h1 0 (by decide) 1 (by decide)).1 1 rfl

/-- Three rows of two entries, two processes, and a function that raises in the first column: in every execution the
entries up to (1, 0) are calculated, and the others are 0. -/
example : ∀ s' r, TaskQueue.new.Executes 2 (fun i j => if j = 0 then .error .valueError else
      (.ok (10 * i + j) : Except PyErr Nat)) 3 2 s' r →
    r.get ⟨0, 1⟩ = .ok 1 ∧ r.get ⟨1, 1⟩ = .ok 0 ∧ r.get ⟨2, 1⟩ = .ok 0 := by
  intro s' r h
  refine ⟨?_, ?_, ?_⟩
  · rw [C93_exactly_partial QueueReach.new h (by decide) (by decide)]; rfl
  · rw [C93_exactly_partial QueueReach.new h (by decide) (by decide)]; rfl
  · rw [C93_exactly_partial QueueReach.new h (by decide) (by decide)]; rfl

end Spta
