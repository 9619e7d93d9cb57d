import Mathlib.Data.List.Perm.Basic
import Mathlib.Tactic.Common
import Verif.Spec.TaskQueue
import Verif.Lemmas.Parallel

/-!
# Lemmas for the queue of tasks
-/

set_option linter.unusedSectionVars false

namespace Spta

section

variable {V : Type} {f : Nat → Nat → Except PyErr V}

/-- The task that a process works on. -/
def QueueProc.task : QueueProc → List QueueTask
  | .working t => [t]
  | _ => []

/-- The value in the cell of a task. -/
def QueueTask.read (t : QueueTask) (arrays : List (List V)) : Option V :=
  (arrays[t.array]?).bind fun a => a[t.cell]?

/-- Two tasks write to different cells. -/
def QueueTask.Apart (t u : QueueTask) : Prop := t.array ≠ u.array ∨ t.cell ≠ u.cell

/-- The tasks of the queue write to existing, different cells. -/
structure TaskQueue.Ready (s : TaskQueue V) : Prop where
  apart : s.queue.Pairwise QueueTask.Apart
  cells : ∀ t ∈ s.queue, ∃ v, t.read s.arrays = some v

theorem QueueTask.read_isSome {t : QueueTask} {arrays : List (List V)} {v : V}
    (h : t.read arrays = some v) :
    ∃ a, arrays[t.array]? = some a ∧ t.cell < a.length := by
  unfold QueueTask.read at h
  cases ha : arrays[t.array]? with
  | none => simp [ha] at h
  | some a =>
    refine ⟨a, rfl, ?_⟩
    simp only [ha, Option.bind_some] at h
    exact (List.getElem?_eq_some_iff.1 h).1

theorem QueueTask.work_ok {t : QueueTask} {arrays arrays' : List (List V)}
    (h : t.work f arrays = .ok arrays') :
    arrays'.map List.length = arrays.map List.length ∧ (∃ v, f t.i t.j = .ok v ∧ t.read arrays' = some v) ∧
      ∀ u : QueueTask, t.Apart u → u.read arrays' = u.read arrays := by
  unfold QueueTask.work at h
  cases hf : f t.i t.j with
  | error e => simp [hf] at h
  | ok v =>
    simp only [hf] at h
    cases ha : arrays[t.array]? with
    | none => simp [ha] at h
    | some a =>
      simp only [ha] at h
      split at h
      · rename_i hlt
        have h := (Except.ok.inj h).symm
        subst h
        have hal : t.array < arrays.length := (List.getElem?_eq_some_iff.1 ha).1
        have hae : arrays[t.array] = a := (List.getElem?_eq_some_iff.1 ha).2
        refine ⟨?_, ⟨v, rfl, ?_⟩, ?_⟩
        · apply List.ext_getElem?
          intro k
          simp only [List.getElem?_map, List.getElem?_set]
          split
          · rename_i e
            subst e
            simp [hal, hae]
          · rfl
        · simp [QueueTask.read, hal, hlt]
        · intro u hu
          unfold QueueTask.read
          by_cases e : t.array = u.array
          · have hc : t.cell ≠ u.cell := hu.resolve_left (fun h => h e)
            rw [← e, List.getElem?_set_self hal, ha]
            simp [List.getElem?_set_ne hc]
          · rw [List.getElem?_set_ne e]
      · cases h

theorem QueueTask.work_error {t : QueueTask} {arrays : List (List V)} {e : PyErr} {v : V}
    (h : t.work f arrays = .error e) (hr : t.read arrays = some v) : t.fails f = true := by
  obtain ⟨a, ha, hl⟩ := QueueTask.read_isSome hr
  unfold QueueTask.work at h
  unfold QueueTask.fails
  cases hf : f t.i t.j with
  | error e => rfl
  | ok v => simp [hf, ha, hl] at h

theorem QueueTask.work_total (f : Nat → Nat → Except PyErr V) (t : QueueTask) (arrays : List (List V)) :
    (∃ a, t.work f arrays = .ok a) ∨ ∃ e, t.work f arrays = .error e := by
  cases t.work f arrays with
  | error e => exact Or.inr ⟨e, rfl⟩
  | ok a => exact Or.inl ⟨a, rfl⟩

/-- The invariant of the executions that start in `s0`; `done` are the tasks that have ended. -/
structure QueueInv (f : Nat → Nat → Except PyErr V) (s0 s : TaskQueue V) (taken done : List QueueTask) : Prop where
  log : s.log = s0.log ++ taken
  order : taken ++ s.queue = s0.queue
  tasks : taken.Perm (done ++ s.procs.flatMap QueueProc.task)
  shape : s.arrays.map List.length = s0.arrays.map List.length
  done_ok : ∀ t ∈ done, ∀ v, f t.i t.j = .ok v → t.read s.arrays = some v
  failed : ∀ t ∈ done, t.fails f = true → t.read s.arrays = t.read s0.arrays
  others : ∀ t ∈ s0.queue, t ∉ done → t.read s.arrays = t.read s0.arrays
  crashes : s.procs.count .crashed = done.countP (QueueTask.fails f)
  finished : .finished ∈ s.procs → s.queue = []

theorem QueueInv.start (s : TaskQueue V) (h : ∀ p ∈ s.procs, p = .idle) :
    QueueInv f s s [] [] where
  log := by simp
  order := rfl
  tasks := by
    have : s.procs.flatMap QueueProc.task = [] := by
      rw [List.flatMap_eq_nil_iff]
      intro p hp
      rw [h p hp]; rfl
    rw [this]; exact List.Perm.nil
  shape := rfl
  done_ok := by simp
  failed := by simp
  others := fun _ _ _ => rfl
  crashes := by
    simp only [List.countP_nil]
    rw [List.count_eq_zero]
    intro hc
    have := h _ hc
    cases this
  finished := fun hf => by
    have := h _ hf
    cases this

theorem QueueInv.step {s0 s t : TaskQueue V} {taken done : List QueueTask} (hr : s0.Ready)
    (h : QueueInv f s0 s taken done) (hs : QueueStep f s t) :
    ∃ taken' done', QueueInv f s0 t taken' done' := by
  have hdis : ∀ a ∈ s0.queue, ∀ b ∈ s0.queue, a ≠ b → a.Apart b := by
    intro a ha b hb hab
    have : Std.Symm QueueTask.Apart := ⟨fun x y hxy => hxy.imp Ne.symm Ne.symm⟩
    exact hr.apart.forall ha hb hab
  have hnd : s0.queue.Nodup := hr.apart.imp (fun h e => by
    subst e
    rcases h with h | h <;> exact h rfl)
  cases hs with
  | take pre post u q arrays log =>
    obtain ⟨h1, h2, h3, h4, h5, h6, h7, h8, h9⟩ := h
    refine ⟨taken ++ [u], done, ?_, ?_, ?_, h4, h5, h6, h7, ?_, ?_⟩
    · show log ++ [u] = _
      rw [show log = _ from h1, List.append_assoc]
    · rw [List.append_assoc]; exact h2
    · refine (h3.append_right [u]).trans ?_
      simp only [List.flatMap_append, List.flatMap_cons, QueueProc.task, List.append_assoc, List.nil_append]
      exact List.Perm.append_left _ (List.Perm.append_left _ List.perm_append_comm)
    · simpa [List.count_append, List.count_cons] using h8
    · intro hf
      have : QueueProc.finished ∈ pre ++ QueueProc.idle :: post := by simpa using hf
      cases h9 this
  | store pre post u q arrays arrays' log hw =>
    obtain ⟨h1, h2, h3, h4, h5, h6, h7, h8, h9⟩ := h
    obtain ⟨w1, ⟨v, w2, w3⟩, w4⟩ := QueueTask.work_ok hw
    have hperm : taken.Perm ((u :: done) ++ (pre ++ QueueProc.idle :: post).flatMap QueueProc.task) := by
      refine h3.trans ?_
      simp only [List.flatMap_append, List.flatMap_cons, QueueProc.task, List.cons_append, List.nil_append]
      have := List.perm_middle (a := u) (l₁ := done ++ pre.flatMap QueueProc.task)
        (l₂ := post.flatMap QueueProc.task)
      simpa [List.append_assoc] using this
    have hsub : ∀ x ∈ u :: done, x ∈ s0.queue := fun x hx => by
      rw [← h2]
      exact List.mem_append_left _ (hperm.mem_iff.2 (List.mem_append_left _ hx))
    have hund : (u :: done).Nodup := by
      have h : taken.Nodup := by
        rw [← h2] at hnd
        exact hnd.of_append_left
      exact (hperm.nodup_iff.1 h).of_append_left
    have hu : u ∉ done := (List.nodup_cons.1 hund).1
    have hap : ∀ x ∈ s0.queue, x ≠ u → u.Apart x := fun x hx hxu =>
      hdis u (hsub u List.mem_cons_self) x hx (Ne.symm hxu)
    refine ⟨taken, u :: done, h1, h2, hperm, w1.trans h4, ?_, ?_, ?_, ?_, ?_⟩
    · intro x hx y hy
      by_cases e : x = u
      · subst e
        rw [w2] at hy; cases hy
        exact w3
      · rw [w4 x (hap x (hsub x hx) e)]
        exact h5 x (by simpa [e] using hx) y hy
    · intro x hx hfx
      by_cases e : x = u
      · subst e
        simp [QueueTask.fails, w2] at hfx
      · rw [w4 x (hap x (hsub x hx) e)]
        exact h6 x (by simpa [e] using hx) hfx
    · intro x hx hxd
      have e : x ≠ u := fun e => hxd (e ▸ List.mem_cons_self)
      rw [w4 x (hap x hx e)]
      exact h7 x hx fun h => hxd (List.mem_cons_of_mem _ h)
    · have hff : QueueTask.fails f u = false := by simp [QueueTask.fails, w2]
      rw [List.countP_cons, hff]
      simpa [List.count_append, List.count_cons] using h8
    · intro hf
      exact h9 (by simpa using hf)
  | crash pre post u q arrays log e hw =>
    obtain ⟨h1, h2, h3, h4, h5, h6, h7, h8, h9⟩ := h
    have hperm : taken.Perm ((u :: done) ++ (pre ++ QueueProc.crashed :: post).flatMap QueueProc.task) := by
      refine h3.trans ?_
      simp only [List.flatMap_append, List.flatMap_cons, QueueProc.task, List.cons_append, List.nil_append]
      have := List.perm_middle (a := u) (l₁ := done ++ pre.flatMap QueueProc.task)
        (l₂ := post.flatMap QueueProc.task)
      simpa [List.append_assoc] using this
    have hsub : ∀ x ∈ u :: done, x ∈ s0.queue := fun x hx => by
      rw [← h2]
      exact List.mem_append_left _ (hperm.mem_iff.2 (List.mem_append_left _ hx))
    have hund : (u :: done).Nodup := by
      have h : taken.Nodup := by
        rw [← h2] at hnd
        exact hnd.of_append_left
      exact (hperm.nodup_iff.1 h).of_append_left
    have hu : u ∉ done := (List.nodup_cons.1 hund).1
    have huq := hsub u List.mem_cons_self
    have hru := h7 u huq hu
    obtain ⟨v, hv⟩ := hr.cells u huq
    have hfu : u.fails f = true := QueueTask.work_error hw (by
      show u.read arrays = some v
      rw [show u.read arrays = _ from hru, hv])
    refine ⟨taken, u :: done, h1, h2, hperm, h4, ?_, ?_, ?_, ?_, ?_⟩
    · intro x hx y hy
      by_cases e : x = u
      · subst e
        simp [QueueTask.fails, hy] at hfu
      · exact h5 x (by simpa [e] using hx) y hy
    · intro x hx hfx
      by_cases e : x = u
      · subst e; exact hru
      · exact h6 x (by simpa [e] using hx) hfx
    · intro x hx hxd
      exact h7 x hx fun h => hxd (List.mem_cons_of_mem _ h)
    · rw [List.countP_cons, hfu]
      have : (pre ++ QueueProc.crashed :: post).count .crashed =
          (pre ++ QueueProc.working u :: post).count .crashed + 1 := by
        simp [List.count_append, List.count_cons]; omega
      show (pre ++ QueueProc.crashed :: post).count .crashed = _
      rw [this, show (pre ++ QueueProc.working u :: post).count .crashed = _ from h8]
      rfl
    · intro hf
      exact h9 (by simpa using hf)
  | stop pre post arrays log =>
    obtain ⟨h1, h2, h3, h4, h5, h6, h7, h8, h9⟩ := h
    refine ⟨taken, done, h1, h2, ?_, h4, h5, h6, h7, ?_, fun _ => rfl⟩
    · simpa [List.flatMap_append, QueueProc.task] using h3
    · simpa [List.count_append, List.count_cons] using h8

theorem QueueInv.run {s0 s : TaskQueue V} (hr : s0.Ready) (h : ∀ p ∈ s0.procs, p = .idle) {n : Nat}
    (hs : QueueRun f n s0 s) : ∃ taken done, QueueInv f s0 s taken done := by
  generalize he : s0 = a at hs
  induction hs with
  | refl => subst he; exact ⟨[], [], .start _ h⟩
  | step _ hst ih =>
    obtain ⟨taken, done, hi⟩ := ih he
    subst he
    exact hi.step hr hst

/-! ### Termination -/

/-- What a process still has to do. -/
def QueueProc.weight : QueueProc → Nat
  | .idle => 1
  | .working _ => 2
  | _ => 0

/-- A bound on the number of steps that are left. -/
def TaskQueue.left (s : TaskQueue V) : Nat := 2 * s.queue.length + (s.procs.map QueueProc.weight).sum

theorem QueueStep.left {s t : TaskQueue V} (h : QueueStep f s t) : t.left < s.left := by
  cases h <;> simp [TaskQueue.left, QueueProc.weight] <;> omega

theorem QueueStep.procs {s t : TaskQueue V} (h : QueueStep f s t) : t.procs.length = s.procs.length := by
  cases h <;> simp

theorem QueueRun.left {n : Nat} {s t : TaskQueue V} (h : QueueRun f n s t) : n + t.left ≤ s.left := by
  induction h with
  | refl => simp
  | step _ hs ih => have := hs.left; omega

theorem QueueRun.procs {n : Nat} {s t : TaskQueue V} (h : QueueRun f n s t) :
    t.procs.length = s.procs.length := by
  induction h with
  | refl => rfl
  | step _ hs ih => rw [hs.procs, ih]

theorem QueueStep.progress (f : Nat → Nat → Except PyErr V) {s : TaskQueue V} (h : ¬ s.Joined) :
    ∃ t, QueueStep f s t := by
  unfold TaskQueue.Joined at h
  push Not at h
  obtain ⟨p, hp, h1, h2⟩ := h
  obtain ⟨queue, procs, arrays, log⟩ := s
  obtain ⟨pre, post, rfl⟩ := List.append_of_mem hp
  cases p with
  | idle =>
    cases queue with
    | nil => exact ⟨_, .stop pre post arrays log⟩
    | cons t q => exact ⟨_, .take pre post t q arrays log⟩
  | working t =>
    rcases QueueTask.work_total f t arrays with ⟨a, ha⟩ | ⟨e, he⟩
    · exact ⟨_, .store pre post t queue arrays a log ha⟩
    · exact ⟨_, .crash pre post t queue arrays log e he⟩
  | finished => exact absurd rfl h1
  | crashed => exact absurd rfl h2

theorem QueueRun.trans {n m : Nat} {s t u : TaskQueue V} (h : QueueRun f n s t) (h' : QueueRun f m t u) :
    QueueRun f (n + m) s u := by
  induction h' with
  | refl => exact h
  | step _ hs ih => exact .step (ih h) hs

theorem QueueRun.finishes (f : Nat → Nat → Except PyErr V) (s : TaskQueue V) :
    ∃ n t, QueueRun f n s t ∧ t.Joined := by
  by_cases h : s.Joined
  · exact ⟨0, s, .refl s, h⟩
  · obtain ⟨t, ht⟩ := QueueStep.progress f h
    have hlt := ht.left
    obtain ⟨n, u, hu, hj⟩ := QueueRun.finishes f t
    exact ⟨_, u, (QueueRun.step (.refl s) ht).trans hu, hj⟩
termination_by s.left

/-! ### Calls -/

/-- The tasks of a call. -/
def callTasks (array m n : Nat) : List QueueTask :=
  (List.range (m * n)).map fun k => ⟨array, k / n, k % n, n⟩

theorem mem_callTasks {array m n : Nat} {t : QueueTask} :
    t ∈ callTasks array m n ↔ t.array = array ∧ t.rowLen = n ∧ t.i < m ∧ t.j < n := by
  obtain ⟨a, i, j, r⟩ := t
  simp only [callTasks, List.mem_map, List.mem_range, QueueTask.mk.injEq]
  constructor
  · rintro ⟨k, hk, rfl, rfl, rfl, rfl⟩
    have hn : 0 < n := by
      rcases Nat.eq_zero_or_pos n with rfl | h
      · simp at hk
      · exact h
    exact ⟨rfl, rfl, Nat.div_lt_of_lt_mul (by rwa [Nat.mul_comm]), Nat.mod_lt _ hn⟩
  · rintro ⟨rfl, rfl, hi, hj⟩
    have hn : 0 < r := by omega
    refine ⟨i * r + j, idx_lt hi hj, rfl, ?_, ?_, rfl⟩
    · rw [Nat.mul_comm, Nat.mul_add_div hn, Nat.div_eq_of_lt hj, Nat.add_zero]
    · rw [Nat.mul_comm, Nat.mul_add_mod, Nat.mod_eq_of_lt hj]

theorem callTasks_nodup (array m n : Nat) : (callTasks array m n).Pairwise QueueTask.Apart := by
  unfold callTasks
  rw [List.pairwise_map]
  refine List.pairwise_lt_range.imp ?_
  intro a b hab
  right
  simp only [QueueTask.cell, Nat.div_add_mod']
  omega

theorem TaskQueue.Ready.start [Zero V] {s : TaskQueue V} (h : s.Ready) (numProc m n : Nat) :
    (s.start numProc m n).Ready := by
  have hlt : ∀ t ∈ s.queue, t.array < s.arrays.length := by
    intro t ht
    obtain ⟨v, hv⟩ := h.cells t ht
    obtain ⟨a, ha, _⟩ := QueueTask.read_isSome hv
    exact (List.getElem?_eq_some_iff.1 ha).1
  refine ⟨?_, ?_⟩
  · show (s.queue ++ callTasks s.arrays.length m n).Pairwise _
    rw [List.pairwise_append]
    refine ⟨h.apart, callTasks_nodup _ _ _, ?_⟩
    intro a ha b hb
    left
    have := hlt a ha
    rw [(mem_callTasks.1 hb).1]
    omega
  · intro t ht
    rcases List.mem_append.1 (show t ∈ s.queue ++ callTasks s.arrays.length m n from ht) with ht | ht
    · obtain ⟨v, hv⟩ := h.cells t ht
      refine ⟨v, ?_⟩
      unfold QueueTask.read at hv ⊢
      show ((s.arrays ++ [_])[t.array]?).bind _ = _
      rw [List.getElem?_append_left (hlt t ht)]
      exact hv
    · obtain ⟨h1, h2, h3, h4⟩ := mem_callTasks.1 ht
      refine ⟨0, ?_⟩
      unfold QueueTask.read
      show ((s.arrays ++ [_])[t.array]?).bind _ = _
      rw [h1, List.getElem?_append_right (le_refl _)]
      have := idx_lt h3 h4
      simp [QueueTask.cell, h2, List.getElem?_replicate, this]

theorem QueueInv.ready {s0 s : TaskQueue V} {taken done : List QueueTask} (hr : s0.Ready)
    (h : QueueInv f s0 s taken done) : s.Ready := by
  refine ⟨?_, ?_⟩
  · have := hr.apart
    rw [← h.order, List.pairwise_append] at this
    exact this.2.1
  · intro t ht
    have htq : t ∈ s0.queue := by rw [← h.order]; exact List.mem_append_right _ ht
    obtain ⟨v, hv⟩ := hr.cells t htq
    obtain ⟨a, ha, hl⟩ := QueueTask.read_isSome hv
    have : (s.arrays.map List.length)[t.array]? = some a.length := by
      rw [h.shape, List.getElem?_map, ha]; rfl
    rw [List.getElem?_map] at this
    cases hb : s.arrays[t.array]? with
    | none => simp [hb] at this
    | some b =>
      simp only [hb, Option.map_some, Option.some.injEq] at this
      refine ⟨b[t.cell], ?_⟩
      simp [QueueTask.read, hb, this, hl]

theorem QueueReach.ready [Zero V] {numProc : Nat} {s : TaskQueue V} (h : QueueReach numProc s) : s.Ready := by
  induction h with
  | new => exact ⟨List.Pairwise.nil, by simp [TaskQueue.new]⟩
  | call _ he ih =>
    obtain ⟨⟨steps, hrun⟩, -, -⟩ := he
    obtain ⟨taken, done, hi⟩ := QueueInv.run (ih.start numProc _ _)
      (fun p hp => List.eq_of_mem_replicate hp) hrun
    exact hi.ready (ih.start numProc _ _)

/-- What a call gives, in terms of the tasks that have ended. -/
theorem Executes.spec [Zero V] {numProc m n : Nat} {s s' : TaskQueue V} {r : Grid V} (hs : s.Ready)
    (h : s.Executes numProc f m n s' r) :
    ∃ taken done, QueueInv f (s.start numProc m n) s' taken done ∧ taken.Perm done ∧
      s'.procs.length = numProc ∧
      (s'.procs.count .crashed < numProc → s'.queue = [] ∧ done.Perm (s.queue ++ callTasks s.arrays.length m n)) ∧
      r.xLen = m ∧ r.yLen = n ∧ r.WF ∧
      ∀ i < m, ∀ j < n,
        (⟨s.arrays.length, i, j, n⟩ ∈ done → ∀ v, f i j = .ok v → r.get ⟨i, j⟩ = .ok v) ∧
        ((⟨s.arrays.length, i, j, n⟩ ∉ done ∨ ∃ e, f i j = .error e) → r.get ⟨i, j⟩ = .ok 0) := by
  obtain ⟨⟨steps, hrun⟩, hj, a, ha, rfl⟩ := h
  obtain ⟨taken, done, hi⟩ := QueueInv.run (hs.start numProc m n)
    (fun p hp => List.eq_of_mem_replicate hp) hrun
  have hp : s'.procs.length = numProc := by
    rw [hrun.procs]; simp [TaskQueue.start]
  have hbusy : s'.procs.flatMap QueueProc.task = [] := by
    rw [List.flatMap_eq_nil_iff]
    intro p hp
    rcases hj p hp with rfl | rfl <;> rfl
  have hperm : taken.Perm done := by
    have := hi.tasks
    rwa [hbusy, List.append_nil] at this
  have hlen : a.length = m * n := by
    have : (s'.arrays.map List.length)[s.arrays.length]? = some a.length := by
      rw [List.getElem?_map, ha]; rfl
    rw [hi.shape] at this
    simpa [TaskQueue.start] using this.symm
  have hread : ∀ i < m, ∀ j < n, ∀ v, QueueTask.read ⟨s.arrays.length, i, j, n⟩ s'.arrays = some v →
      (⟨m, n, a⟩ : Grid V).get ⟨i, j⟩ = .ok v := by
    intro i hi' j hj' v hv
    rw [Grid.get_eq_ok_iff]
    refine ⟨hi', hj', ?_⟩
    simpa [QueueTask.read, ha, QueueTask.cell] using hv
  have hzero : ∀ i < m, ∀ j < n,
      QueueTask.read ⟨s.arrays.length, i, j, n⟩ (s.start numProc m n).arrays = some 0 := by
    intro i hi' j hj'
    have := idx_lt hi' hj'
    simp [QueueTask.read, TaskQueue.start, QueueTask.cell, List.getElem?_replicate, this]
  refine ⟨taken, done, hi, hperm, hp, ?_, rfl, rfl, hlen, ?_⟩
  · intro hc
    have hq : s'.queue = [] := by
      refine hi.finished ?_
      by_contra hn
      have : ∀ p ∈ s'.procs, .crashed = p := by
        intro p hp
        rcases hj p hp with rfl | rfl
        · exact absurd hp hn
        · rfl
      rw [List.count_eq_length.2 this, hp] at hc
      exact lt_irrefl _ hc
    refine ⟨hq, ?_⟩
    have := hi.order
    rw [hq, List.append_nil] at this
    rw [show s.queue ++ callTasks s.arrays.length m n = (s.start numProc m n).queue from rfl, ← this]
    exact hperm.symm
  · intro i hi' j hj'
    refine ⟨?_, ?_⟩
    · intro hd v hv
      exact hread i hi' j hj' v (hi.done_ok _ hd v hv)
    · intro h0
      refine hread i hi' j hj' 0 ?_
      by_cases hd : (⟨s.arrays.length, i, j, n⟩ : QueueTask) ∈ done
      · rcases h0 with h0 | ⟨e, he⟩
        · exact absurd hd h0
        · rw [hi.failed _ hd (by simp [QueueTask.fails, he])]
          exact hzero i hi' j hj'
      · rw [hi.others _ (List.mem_append_right _ (mem_callTasks.2 ⟨rfl, rfl, hi', hj'⟩)) hd]
        exact hzero i hi' j hj'

/-- Before a task is taken, fewer tasks have failed (or are going to) than there are processes. -/
theorem QueueInv.few {s0 s : TaskQueue V} (hr : s0.Ready) (h : ∀ p ∈ s0.procs, p = .idle) {n : Nat}
    (hs : QueueRun f n s0 s) : ∃ taken done, QueueInv f s0 s taken done ∧
      (taken ≠ [] → taken.dropLast.countP (QueueTask.fails f) < s0.procs.length) := by
  generalize he : s0 = a at hs
  induction hs with
  | refl => subst he; exact ⟨[], [], .start _ h, fun h => absurd rfl h⟩
  | @step n s1 t u hrun hst ih =>
    obtain ⟨taken, done, hi, hfew⟩ := ih he
    subst he
    obtain ⟨taken', done', hi'⟩ := hi.step hr hst
    refine ⟨taken', done', hi', fun _ => ?_⟩
    have hlen := hrun.procs
    cases hst with
    | take pre post x q arrays log =>
      have e : taken' = taken ++ [x] := by
        have h1 : log ++ [x] = s0.log ++ taken' := hi'.log
        rw [show log = s0.log ++ taken from hi.log, List.append_assoc] at h1
        exact (List.append_cancel_left h1).symm
      rw [e, List.dropLast_concat, ← hlen, hi.tasks.countP_eq, List.countP_append, ← hi.crashes]
      have hle : ∀ l : List QueueProc,
          l.count .crashed + (l.flatMap QueueProc.task).countP (QueueTask.fails f) ≤ l.length := by
        intro l
        induction l with
        | nil => simp
        | cons p l ih =>
          rw [List.flatMap_cons, List.countP_append, List.length_cons]
          cases p with
          | idle => simp [QueueProc.task, List.count_cons]; omega
          | finished => simp [QueueProc.task, List.count_cons]; omega
          | crashed => simp [QueueProc.task, List.count_cons]; omega
          | working t =>
            simp only [QueueProc.task, List.count_cons, List.countP_cons, List.countP_nil]
            simp
            split <;> omega
      have h1 := hle pre
      have h2 := hle post
      simp only [List.count_append, List.count_cons, List.flatMap_append, List.flatMap_cons, QueueProc.task,
        List.countP_append, List.length_append, List.length_cons, List.nil_append]
      simp
      omega
    | store pre post x q arrays arrays' log hw =>
      have e : taken' = taken := List.append_cancel_left (hi'.log.symm.trans hi.log)
      by_cases ht : taken = []
      · rw [e, ht, ← hlen]; simp
      · rw [e]; exact hfew ht
    | crash pre post x q arrays log er hw =>
      have e : taken' = taken := List.append_cancel_left (hi'.log.symm.trans hi.log)
      by_cases ht : taken = []
      · rw [e, ht, ← hlen]; simp
      · rw [e]; exact hfew ht
    | stop pre post arrays log =>
      have e : taken' = taken := List.append_cancel_left (hi'.log.symm.trans hi.log)
      by_cases ht : taken = []
      · rw [e, ht, ← hlen]; simp
      · rw [e]; exact hfew ht

end

end Spta
