import Verif.Model.Parallel

/-!
# Model of spta/util/parallel_old.py: processes that share a queue of tasks

The execution is a transition system: any interleaving of the steps of the processes is an execution. Taking
a task from the queue and writing to the shared array are atomic (both are objects of a `Manager`). The
debug messages of lines 115-117 are kept as `log`. A process that is not started yet makes no steps.
-/

namespace Spta

/-- `Parallel2DTask` — spta/util/parallel_old.py:9-31; `array` tells which shared array the task refers to. -/
structure QueueTask where
  array : Nat
  i : Nat
  j : Nat
  rowLen : Nat
  deriving DecidableEq

/-- `k = self.i * self.row_len + self.j` — spta/util/parallel_old.py:30. -/
def QueueTask.cell (t : QueueTask) : Nat := t.i * t.rowLen + t.j

/-- Where a process is in the loop of `process_one_task` — spta/util/parallel_old.py:97-117. -/
inductive QueueProc where
  /-- about to take a task -/
  | idle
  /-- has taken a task -/
  | working (t : QueueTask)
  /-- found the queue empty -/
  | finished
  /-- ended with the exception of a task, which is not caught -/
  | crashed
  deriving DecidableEq

/-- A `Parallel2DQueue` with its processes and all shared arrays. -/
structure TaskQueue (V : Type) where
  queue : List QueueTask
  procs : List QueueProc
  arrays : List (List V)
  log : List QueueTask
  deriving DecidableEq

section

variable {V : Type}

/-- `work(task_func, task_argv)` — spta/util/parallel_old.py:26-31; `f i j` is
`task_func(i, j, task_argv)`. -/
def QueueTask.work (f : Nat → Nat → Except PyErr V) (t : QueueTask) (arrays : List (List V)) :
    Except PyErr (List (List V)) :=
  match f t.i t.j with
  | .error e => .error e
  | .ok v =>
    match arrays[t.array]? with
    | none => .error .indexError
    | some a =>
      if t.cell < a.length then .ok (arrays.set t.array (a.set t.cell v)) else .error .indexError

/-- One step of one process, at position `pre.length` — spta/util/parallel_old.py:92-120. -/
inductive QueueStep (f : Nat → Nat → Except PyErr V) : TaskQueue V → TaskQueue V → Prop where
  | take (pre post : List QueueProc) (t : QueueTask) (q arrays log) :
      QueueStep f ⟨t :: q, pre ++ .idle :: post, arrays, log⟩
        ⟨q, pre ++ .working t :: post, arrays, log ++ [t]⟩
  | store (pre post : List QueueProc) (t : QueueTask) (q arrays arrays' log)
      (h : t.work f arrays = .ok arrays') :
      QueueStep f ⟨q, pre ++ .working t :: post, arrays, log⟩ ⟨q, pre ++ .idle :: post, arrays', log⟩
  | crash (pre post : List QueueProc) (t : QueueTask) (q arrays log e)
      (h : t.work f arrays = .error e) :
      QueueStep f ⟨q, pre ++ .working t :: post, arrays, log⟩ ⟨q, pre ++ .crashed :: post, arrays, log⟩
  | stop (pre post : List QueueProc) (arrays log) :
      QueueStep f ⟨[], pre ++ .idle :: post, arrays, log⟩ ⟨[], pre ++ .finished :: post, arrays, log⟩

/-- Any number of steps. -/
inductive QueueRun (f : Nat → Nat → Except PyErr V) : Nat → TaskQueue V → TaskQueue V → Prop where
  | refl (s) : QueueRun f 0 s s
  | step {n s t u} : QueueRun f n s t → QueueStep f t u → QueueRun f (n + 1) s u

/-- `Parallel2DQueue(num_proc)` — spta/util/parallel_old.py:43-47. -/
def TaskQueue.new : TaskQueue V := ⟨[], [], [], []⟩

/-- `prepare_queue(shape_2D)` and the start of the processes — spta/util/parallel_old.py:49-67, 73-79. Tasks
that an earlier call has left in the queue stay there. The indices `int(k / n)` and `int(k % n)` are exact as
long as the number of tasks is below 2^53. -/
def TaskQueue.start [Zero V] (numProc m n : Nat) (s : TaskQueue V) : TaskQueue V :=
  ⟨s.queue ++ (List.range (m * n)).map fun k => ⟨s.arrays.length, k / n, k % n, n⟩,
    List.replicate numProc .idle, s.arrays ++ [List.replicate (m * n) 0], s.log⟩

/-- `proc.join()` returns for all processes — spta/util/parallel_old.py:82-83. -/
def TaskQueue.Joined (s : TaskQueue V) : Prop := ∀ p ∈ s.procs, p = .finished ∨ p = .crashed

/-- `execute_func_on_2D(task_func, task_argv, (m, n))` — spta/util/parallel_old.py:69-89: the possible
outcomes. The result is a copy of the shared array. -/
def TaskQueue.Executes [Zero V] (numProc : Nat) (f : Nat → Nat → Except PyErr V) (m n : Nat)
    (s s' : TaskQueue V) (result : Grid V) : Prop :=
  (∃ steps, QueueRun f steps (s.start numProc m n) s') ∧ s'.Joined ∧
    ∃ a, s'.arrays[s.arrays.length]? = some a ∧ result = ⟨m, n, a⟩

/-- The states of a queue after any number of calls, with any functions and shapes. -/
inductive QueueReach [Zero V] (numProc : Nat) : TaskQueue V → Prop where
  | new : QueueReach numProc TaskQueue.new
  | call {f : Nat → Nat → Except PyErr V} {m n : Nat} {s s' : TaskQueue V} {r : Grid V} :
      QueueReach numProc s → s.Executes numProc f m n s' r → QueueReach numProc s'

end

end Spta
