import Verif.Model.Scaling

/-!
# Model of spta/util/parallel.py and of the distance matrices (spta/distance/dtw.py, dtw_parallel.py)

The execution of a pool of worker processes is a transition system: any interleaving of the steps of
the workers is an execution.
-/

namespace Spta

/-! ### Pool of workers -/

/-- The pieces of `chunksize` tasks into which `pool.map` cuts its iterable (chunksize ≥ 1)
— spta/util/parallel.py:155. -/
def chunksOf (size : Nat) (l : List Nat) : List (List Nat) :=
  if h : size = 0 ∨ l = [] then []
  else l.take size :: chunksOf size (l.drop size)
  termination_by l.length
  decreasing_by
    have h1 : 0 < l.length := List.length_pos_iff.2 fun e => h (Or.inr e)
    have h2 : 0 < size := Nat.pos_of_ne_zero fun e => h (Or.inl e)
    rw [List.length_drop]; omega

/-- Where a worker process is within `inter_points_task_wrapper` — spta/util/parallel.py:28-73. -/
inductive Worker (V : Type) where
  /-- waiting for a chunk -/
  | idle
  /-- about to start the first of these tasks (lines 33-55) -/
  | ready (ks : List Nat)
  /-- has computed `result_i_j` for task `k` (line 58) -/
  | computed (k : Nat) (v : V) (ks : List Nat)
  /-- has acquired the lock of the output (line 65) -/
  | locked (k : Nat) (v : V) (ks : List Nat)
  /-- has written its result, still holding the lock (line 70) -/
  | written (ks : List Nat)
  deriving DecidableEq

/-- The state of the pool. `log` is not in the code: it records the written tasks. -/
structure Pool (V : Type) where
  queue : List (List Nat)
  workers : List (Worker V)
  /-- the worker holding the lock of the output array -/
  lock : Option Nat
  out : Grid V
  log : List Nat
  deriving DecidableEq

/-- One atomic step of one worker, at position `pre.length` of the pool. `n` is `x_len * y_len`,
`task i j` the result of the operation between points `i` and `j` (it only reads the shared input).
The indices are recovered as `k / n` and `k % n` (lines 43-44; the code divides floats and truncates,
exact as long as the number of tasks is below 2^53). -/
inductive PoolStep {V : Type} (n : Nat) (task : Nat → Nat → V) : Pool V → Pool V → Prop where
  | take (pre post : List (Worker V)) (c : List Nat) (q : List (List Nat)) (lock out log) :
      PoolStep n task ⟨c :: q, pre ++ .idle :: post, lock, out, log⟩
        ⟨q, pre ++ .ready c :: post, lock, out, log⟩
  | finish (pre post : List (Worker V)) (q lock out log) :
      PoolStep n task ⟨q, pre ++ .ready [] :: post, lock, out, log⟩
        ⟨q, pre ++ .idle :: post, lock, out, log⟩
  | compute (pre post : List (Worker V)) (k : Nat) (ks : List Nat) (q lock out log) :
      PoolStep n task ⟨q, pre ++ .ready (k :: ks) :: post, lock, out, log⟩
        ⟨q, pre ++ .computed k (task (k / n) (k % n)) ks :: post, lock, out, log⟩
  | acquire (pre post : List (Worker V)) (k : Nat) (v : V) (ks : List Nat) (q out log) :
      PoolStep n task ⟨q, pre ++ .computed k v ks :: post, none, out, log⟩
        ⟨q, pre ++ .locked k v ks :: post, some pre.length, out, log⟩
  | write (pre post : List (Worker V)) (k : Nat) (v : V) (ks : List Nat) (q lock out out' log)
      (h : out.set ⟨k / n, k % n⟩ v = .ok out') :
      PoolStep n task ⟨q, pre ++ .locked k v ks :: post, lock, out, log⟩
        ⟨q, pre ++ .written ks :: post, lock, out', k :: log⟩
  | release (pre post : List (Worker V)) (ks : List Nat) (q lock out log) :
      PoolStep n task ⟨q, pre ++ .written ks :: post, lock, out, log⟩
        ⟨q, pre ++ .ready ks :: post, none, out, log⟩

/-- The pool at the start of `operate`: a zero matrix (`__init_output`), `numProc` idle workers and
all tasks in the queue — spta/util/parallel.py:113-127, 136-155. -/
def Pool.start {V : Type} [Zero V] (n numProc chunksize : Nat) : Pool V :=
  ⟨chunksOf chunksize (List.range (n * n)), List.replicate numProc .idle, none, Grid.const n n 0, []⟩

/-- Any number of steps. -/
inductive PoolRun {V : Type} (n : Nat) (task : Nat → Nat → V) : Nat → Pool V → Pool V → Prop where
  | refl (s) : PoolRun n task 0 s s
  | step {m s t u} : PoolRun n task m s t → PoolStep n task t u → PoolRun n task (m + 1) s u

/-- `pool.map` returns when all chunks have been processed. -/
def Pool.Done {V : Type} (s : Pool V) : Prop := s.queue = [] ∧ ∀ w ∈ s.workers, w = .idle

/-! ### Distance matrices -/

section

variable {S V : Type}

/-- The points visited by `for i in range(x_len): for j in range(y_len)`. -/
def nestedPoints (xLen yLen : Nat) : List Point :=
  (List.range xLen).flatMap fun i => (List.range yLen).map fun j => ⟨i, j⟩

/-- `as_2d` / `spatio_temporal_to_list_of_time_series`: the series point by point
— spta/util/arrays.py:40-49, spta/region/temporal.py:175-189. -/
def Grid.as2d (g : Grid S) : Except PyErr (List S) :=
  (nestedPoints g.xLen g.yLen).mapM g.get

/-- `matrix[i, :] = row`: IndexError for a row that does not exist, ValueError for a row of another
length. -/
def Grid.setRow (m : Grid V) (i : Nat) (row : List V) : Except PyErr (Grid V) :=
  if i < m.xLen then
    if row.length = m.yLen then
      .ok { m with data := m.data.mapIdx fun a old =>
        if a / m.yLen = i then row[a % m.yLen]?.getD old else old }
    else .error .valueError
  else .error .indexError

/-- The loop of `compute_distance_matrix_sptr` over the given points, into `m`
— spta/distance/dtw.py:90-106. -/
def distanceRows (measure : S → S → V) (g : Grid S) (sptr2d : List S) :
    List Point → Grid V → Except PyErr (Grid V)
  | [], m => .ok m
  | p :: ps, m =>
    match g.get p with
    | .error e => .error e
    | .ok series =>
      match m.setRow (p.x * g.yLen + p.y) (sptr2d.map fun other => measure series other) with
      | .error e => .error e
      | .ok m' => distanceRows measure g sptr2d ps m'

/-- `compute_distance_matrix_sptr(spatio_temporal_region)` — spta/distance/dtw.py:83-111; `junk` are
the uninitialised elements of `np.empty`. -/
def sequentialMatrix (measure : S → S → V) (g : Grid S) (junk : Grid V) :
    Except PyErr (Grid V) :=
  match g.as2d with
  | .error e => .error e
  | .ok sptr2d => distanceRows measure g sptr2d (nestedPoints g.xLen g.yLen) junk

/-- `compute_distance_matrix_series_array(X)` — spta/distance/dtw.py:61-81. -/
def seriesArrayMatrix (measure : S → S → V) (X : List S) : List (List V) :=
  X.map fun s => X.map fun other => measure s other

variable [Zero V] [Add V]

/-- `dtw_i_j(spt_region, k1, k2)` — spta/distance/dtw_parallel.py:56-70; the points exist. -/
def dtwTask (measure : S → S → V) (sptr2d : List S) (k1 k2 : Nat) : V :=
  if k1 ≤ k2 then 0
  else
    match sptr2d[k1]?, sptr2d[k2]? with
    | some a, some b => measure a b
    | _, _ => 0

/-- One element of `distance_matrix + np.transpose(distance_matrix)`. -/
def addTransposeAt (m : Grid V) (p : Point) : Except PyErr V :=
  match m.get p, m.get ⟨p.y, p.x⟩ with
  | .ok a, .ok b => .ok (a + b)
  | .error e, _ => .error e
  | _, .error e => .error e

/-- `distance_matrix + np.transpose(distance_matrix)` for a square matrix
— spta/distance/dtw_parallel.py:52. -/
def addTranspose (m : Grid V) : Except PyErr (Grid V) :=
  match (nestedPoints m.xLen m.yLen).mapM (addTransposeAt m) with
  | .error e => .error e
  | .ok l => .ok ⟨m.xLen, m.yLen, l⟩

/-- `DistanceByDTWParallel.compute_distance_matrix_sptr` — spta/distance/dtw_parallel.py:40-53 with a
pool of `numProc` workers: the possible outcomes. The chunk size is the default of
`InterPointsOperation`, 50. -/
def ParallelMatrix (measure : S → S → V) (g : Grid S) (numProc : Nat)
    (outcome : Except PyErr (Grid V)) : Prop :=
  ∃ sptr2d, g.as2d = .ok sptr2d ∧
    ∃ steps s, PoolRun (g.xLen * g.yLen) (dtwTask measure sptr2d) steps
        (Pool.start (g.xLen * g.yLen) numProc 50) s ∧ s.Done ∧ outcome = addTranspose s.out

end

end Spta
