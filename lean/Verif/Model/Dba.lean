import Mathlib.Algebra.Order.Field.Basic
import Verif.Model.Strings

/-!
# Model of spta/dba/dba.py: squared DTW and DTW barycenter averaging

The matrices are allocated once by `performDBA` and overwritten by every call, so they are state: what a
call finds in them is arbitrary. Values are exact (an ordered field); NaN is not modelled.
-/

namespace Spta

/-- A square numpy matrix of size `n x n`. -/
structure Mat (A : Type) where
  n : Nat
  at_ : Nat → Nat → A

/-- `mat[i, j] = v` for in-range indices. -/
def Mat.set {A : Type} (m : Mat A) (i j : Nat) (v : A) : Mat A :=
  { m with at_ := fun a b => if a = i ∧ b = j then v else m.at_ a b }

/-- An index of python: negative ones count from the end. -/
def pyIndex (n : Nat) (i : Int) : Except PyErr Nat :=
  if 0 ≤ i then (if i < n then .ok i.toNat else .error .indexError)
  else if 0 ≤ n + i then .ok (n + i).toNat else .error .indexError

/-- `mat[i, j]` -/
def Mat.getInt {A : Type} (m : Mat A) (i j : Int) : Except PyErr A :=
  match pyIndex m.n i, pyIndex m.n j with
  | .ok a, .ok b => .ok (m.at_ a b)
  | _, _ => .error .indexError

/-- `for i in range(a, b)` -/
def forRange {S : Type} (a b : Nat) (f : Nat → S → S) (s : S) : S :=
  (List.range' a (b - a)).foldl (fun s i => f i s) s

section

variable {K : Type} [Field K] [LinearOrder K]

/-- `fill_delta_mat_dtw(center, s, delta_mat)` — spta/dba/dba.py:98-101; numpy raises ValueError if the
slice is smaller than the outer difference. -/
def fillDelta (center s : List K) (delta : Mat K) : Except PyErr (Mat K) :=
  if delta.n < center.length ∨ delta.n < s.length then .error .valueError
  else .ok { delta with
    at_ := fun i j =>
      if i < center.length ∧ j < s.length then
        (center.getD i 0 - s.getD j 0) * (center.getD i 0 - s.getD j 0)
      else delta.at_ i j }

/-- One cell of the dynamic program of `squared_DTW` — spta/dba/dba.py:81-93. -/
def dtwCell (delta : Mat K) (i j : Nat) (cost : Mat K) : Mat K :=
  let diag := cost.at_ (i - 1) (j - 1)
  let left := cost.at_ i (j - 1)
  let top := cost.at_ (i - 1) j
  let res := if diag ≤ left then (if diag ≤ top then diag else top)
    else (if left ≤ top then left else top)
  cost.set i j (res + delta.at_ i j)

/-- The loops of `squared_DTW` — spta/dba/dba.py:73-93. -/
def dtwFill (sLen tLen : Nat) (delta cost : Mat K) : Mat K :=
  let cost := cost.set 0 0 (delta.at_ 0 0)
  let cost := forRange 1 sLen (fun i cost => cost.set i 0 (cost.at_ (i - 1) 0 + delta.at_ i 0)) cost
  let cost := forRange 1 tLen (fun j cost => cost.set 0 j (cost.at_ 0 (j - 1) + delta.at_ 0 j)) cost
  forRange 1 sLen (fun i cost => forRange 1 tLen (fun j cost => dtwCell delta i j cost) cost) cost

/-- `squared_DTW(s, t, cost_mat, delta_mat)` — spta/dba/dba.py:68-95: the value and the matrices. The
cost matrix is assumed to be as large as the delta matrix. -/
def squaredDTW (s t : List K) (cost delta : Mat K) : Except PyErr K × Mat K × Mat K :=
  match fillDelta s t delta with
  | .error e => (.error e, cost, delta)
  | .ok delta =>
    if cost.n = 0 then (.error .indexError, cost, delta)
    else
      let cost := dtwFill s.length t.length delta cost
      (cost.getInt ((s.length : Int) - 1) ((t.length : Int) - 1), cost, delta)

/-- `sum_of_squares(s, series, cost_mat, delta_mat)` — spta/dba/dba.py:60-61. -/
def sumOfSquares (s : List K) : List (List K) → Mat K → Mat K → Except PyErr K × Mat K × Mat K
  | [], cost, delta => (.ok 0, cost, delta)
  | t :: ts, cost, delta =>
    match squaredDTW s t cost delta with
    | (.error e, cost, delta) => (.error e, cost, delta)
    | (.ok v, cost, delta) =>
      match sumOfSquares s ts cost delta with
      | (.error e, cost, delta) => (.error e, cost, delta)
      | (.ok rest, cost, delta) => (.ok (v + rest), cost, delta)

/-- `medoid_ind == -1 or ss < best_ss` — spta/dba/dba.py:54. -/
def ssBetter (best : Option (Nat × K)) (ss : K) : Bool :=
  match best with
  | none => true
  | some (_, v) => decide (ss < v)

/-- The loop of `approximate_medoid_index` — spta/dba/dba.py:50-56. `best` is `none` as long as
`medoid_ind == -1` (the initial `best_ss` is then not looked at). -/
def medoidLoop (series : List (List K)) : List Nat → Option (Nat × K) → Mat K → Mat K →
    Except PyErr (Option (Nat × K)) × Mat K × Mat K
  | [], best, cost, delta => (.ok best, cost, delta)
  | i :: is, best, cost, delta =>
    match listAt series i with
    | .error e => (.error e, cost, delta)
    | .ok candidate =>
      match sumOfSquares candidate series cost delta with
      | (.error e, cost, delta) => (.error e, cost, delta)
      | (.ok ss, cost, delta) =>
        medoidLoop series is (if ssBetter best ss then some (i, ss) else best) cost delta

/-- `approximate_medoid_index(series, cost_mat, delta_mat)` — spta/dba/dba.py:44-57; `sample` is the
outcome of the random choice of 50 indices among more than 50 series. The result is -1 if there are no
series. -/
def approximateMedoid (series : List (List K)) (sample : List Nat) (cost delta : Mat K) :
    Except PyErr (Option (Nat × K)) × Mat K × Mat K :=
  medoidLoop series (if series.length ≤ 50 then List.range series.length else sample) none cost delta

/-! ### DBA update -/

/-- One cell of the dynamic program of `DBA_update`, with the move — spta/dba/dba.py:124-141. -/
def dbaCell (delta : Mat K) (i j : Nat) (st : Mat K × Mat Int) : Mat K × Mat Int :=
  let (cost, path) := st
  let diag := cost.at_ (i - 1) (j - 1)
  let left := cost.at_ i (j - 1)
  let top := cost.at_ (i - 1) j
  let (res, move) :=
    if diag ≤ left then (if diag ≤ top then (diag, (0 : Int)) else (top, 2))
    else (if left ≤ top then (left, 1) else (top, 2))
  (cost.set i j (res + delta.at_ i j), path.set i j move)

/-- The loops that fill the cost and path matrices — spta/dba/dba.py:111-141. -/
def dbaFill (cLen sLen : Nat) (delta : Mat K) (st : Mat K × Mat Int) : Mat K × Mat Int :=
  let st := (st.1.set 0 0 (delta.at_ 0 0), st.2.set 0 0 (-1))
  let st := forRange 1 cLen (fun i (st : Mat K × Mat Int) =>
    (st.1.set i 0 (st.1.at_ (i - 1) 0 + delta.at_ i 0), st.2.set i 0 2)) st
  let st := forRange 1 sLen (fun j (st : Mat K × Mat Int) =>
    (st.1.set 0 j (st.1.at_ 0 (j - 1) + delta.at_ 0 j), st.2.set 0 j 1)) st
  forRange 1 cLen (fun i st => forRange 1 sLen (fun j st => dbaCell delta i j st) st) st

/-- `l[i] += v` -/
def addAt {A : Type} [Add A] (l : List A) (i : Int) (v : A) : Except PyErr (List A) :=
  match pyIndex l.length i with
  | .error e => .error e
  | .ok n => .ok (l.modify n (· + v))

/-- `options_argmin[move]` — spta/dba/dba.py:105. -/
def optionsArgmin (move : Int) : Except PyErr (Int × Int) :=
  listAtInt [(-1, -1), (0, -1), (-1, 0)] move

/-- `updated_center[i] += s[j]`, `n_elements[i] += 1` — spta/dba/dba.py:147-148, 153-154. -/
def accumulate (s : List K) (i j : Int) (acc : List K × List Nat) : Except PyErr (List K × List Nat) :=
  match listAtInt s j with
  | .error e => .error e
  | .ok v =>
    match addAt acc.1 i v with
    | .error e => .error e
    | .ok u =>
      match addAt acc.2 i 1 with
      | .error e => .error e
      | .ok n => .ok (u, n)

/-- The `while` loop and what follows — spta/dba/dba.py:146-154, with fuel. -/
def backtrack (path : Mat Int) (s : List K) : Nat → Int → Int → List K × List Nat →
    Except PyErr (List K × List Nat)
  | 0, _, _, _ => .error .diverges
  | fuel + 1, i, j, acc =>
    match path.getInt i j with
    | .error e => .error e
    | .ok move =>
      if move = -1 then
        if i = 0 ∧ j = 0 then accumulate s i j acc else .error .assertionError
      else
        match accumulate s i j acc with
        | .error e => .error e
        | .ok acc =>
          match optionsArgmin move with
          | .error e => .error e
          | .ok (a, b) => backtrack path s fuel (i + a) (j + b) acc

/-- The loop of `DBA_update` over the series — spta/dba/dba.py:109-154. -/
def dbaLoop (center : List K) : List (List K) → Mat K → Mat Int → Mat K → List K × List Nat →
    Except PyErr (List K × List Nat) × Mat K × Mat Int × Mat K
  | [], cost, path, delta, acc => (.ok acc, cost, path, delta)
  | s :: ss, cost, path, delta, acc =>
    match fillDelta center s delta with
    | .error e => (.error e, cost, path, delta)
    | .ok delta =>
      if cost.n = 0 then (.error .indexError, cost, path, delta)
      else
        let (cost, path) := dbaFill center.length s.length delta (cost, path)
        match backtrack path s (center.length + s.length + 1) ((center.length : Int) - 1)
            ((s.length : Int) - 1) acc with
        | .error e => (.error e, cost, path, delta)
        | .ok acc => dbaLoop center ss cost path delta acc

/-- `DBA_update(center, series, cost_mat, path_mat, delta_mat)` — spta/dba/dba.py:104-156. A division
by zero gives NaN in numpy; here the result is marked by a ValueError (never happens, see C58). -/
def dbaUpdate (center : List K) (series : List (List K)) (cost : Mat K) (path : Mat Int)
    (delta : Mat K) : Except PyErr (List K) × Mat K × Mat Int × Mat K :=
  match dbaLoop center series cost path delta
      (List.replicate center.length 0, List.replicate center.length 0) with
  | (.error e, ms) => (.error e, ms)
  | (.ok (u, n), ms) =>
    if 0 ∈ n then (.error .valueError, ms)
    else (.ok (List.zipWith (fun v (c : Nat) => v / (c : K)) u n), ms)

/-- The iterations of `performDBA` — spta/dba/dba.py:38-39. -/
def dbaIterate (series : List (List K)) : Nat → List K → Mat K → Mat Int → Mat K → Except PyErr (List K)
  | 0, center, _, _, _ => .ok center
  | n + 1, center, cost, path, delta =>
    match dbaUpdate center series cost path delta with
    | (.error e, _) => .error e
    | (.ok center, cost, path, delta) => dbaIterate series n center cost path delta

/-- `performDBA(series, n_iterations)` — spta/dba/dba.py:27-41. -/
def performDBA (series : List (List K)) (sample : List Nat) (iterations : Nat) :
    Except PyErr (List K) :=
  match series with
  | [] => .error .typeError   -- reduce() of an empty sequence
  | _ =>
    let size := (series.map List.length).foldl max 0
    let zeros : Mat K := ⟨size, fun _ _ => 0⟩
    match approximateMedoid series sample zeros zeros with
    | (.error e, _) => .error e
    | (.ok best, cost, delta) =>
      match listAtInt series (match best with | none => -1 | some (i, _) => i) with
      | .error e => .error e
      | .ok center => dbaIterate series iterations center cost ⟨size, fun _ _ => 0⟩ delta

end

end Spta
