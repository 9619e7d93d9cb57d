import Mathlib.Algebra.Order.Field.Basic
import Mathlib.Algebra.Order.Field.Rat
import Mathlib.Data.Finset.Lattice.Fold
import Mathlib.Data.Finset.Max
import Mathlib.Tactic.FieldSimp
import Mathlib.Tactic.Linarith
import Mathlib.Tactic.Positivity
import Mathlib.Tactic.Ring
import Verif.Lemmas.Except
import Verif.Spec.Pareto

/-!
# C100, C101: optimal ARIMA parameters
-/

set_option linter.unusedSectionVars false

namespace Spta

variable {B K : Type} [Field K] [LinearOrder K] [IsStrictOrderedRing K]

/-- **C100**: for positive times and errors, the result consists of exactly the rows to which no row is better,
each of them once. -/
theorem C100_pareto (pareto : List (K × K) → List Nat) (hpareto : IsPareto pareto) (rows : List (PerfRow B K))
    (hpos : PositiveRows rows) :
    ∃ (idx : List Nat) (best : List (PerfRow B K)), findBestModels pareto rows = .ok best ∧ idx.Nodup ∧
      List.Forall₂ (fun i r => rows[i]? = some r) idx best ∧
      ∀ i : Nat, i ∈ idx ↔ ∃ r, rows[i]? = some r ∧ ∀ r' ∈ rows, ¬ r'.Better r := by
  set ws := rows.map fun r => (1 / r.time, 1 / r.error) with hws
  obtain ⟨h1, h2⟩ := hpareto ws
  have hmem : ∀ i : Nat, i ∈ pareto ws ↔ ∃ r, rows[i]? = some r ∧ ∀ r' ∈ rows, ¬ r'.Better r := by
    intro i
    rw [h2 i]
    constructor
    · rintro ⟨w, hw, hnd⟩
      rw [hws, List.getElem?_map] at hw
      cases hr : rows[i]? with
      | none => rw [hr] at hw; cases hw
      | some r =>
        rw [hr] at hw
        cases hw
        refine ⟨r, rfl, ?_⟩
        rintro r' hr' ⟨b1, b2, b3⟩
        obtain ⟨p1, p2⟩ := hpos r (List.mem_of_getElem? hr)
        obtain ⟨q1, q2⟩ := hpos r' hr'
        refine hnd (1 / r'.time, 1 / r'.error) (List.mem_map_of_mem hr') ⟨?_, ?_, ?_⟩
        · exact one_div_le_one_div_of_le q1 b1
        · exact one_div_le_one_div_of_le q2 b2
        · intro e
          simp only [Prod.mk.injEq, one_div, inv_inj] at e
          rcases b3 with b3 | b3
          · exact absurd e.1 b3.ne
          · exact absurd e.2 b3.ne
    · rintro ⟨r, hr, hnb⟩
      refine ⟨(1 / r.time, 1 / r.error), by rw [hws, List.getElem?_map, hr]; rfl, ?_⟩
      rintro w' hw' ⟨d1, d2, d3⟩
      obtain ⟨r', hr', rfl⟩ := List.mem_map.1 hw'
      obtain ⟨p1, p2⟩ := hpos r (List.mem_of_getElem? hr)
      obtain ⟨q1, q2⟩ := hpos r' hr'
      have e1 : r'.time ≤ r.time := (one_div_le_one_div p1 q1).1 d1
      have e2 : r'.error ≤ r.error := (one_div_le_one_div p2 q2).1 d2
      refine hnb r' hr' ⟨e1, e2, ?_⟩
      rcases e1.lt_or_eq with h | h
      · exact .inl h
      · rcases e2.lt_or_eq with h' | h'
        · exact .inr h'
        · exact absurd (by rw [h, h']) d3
  have hex : ∀ i ∈ pareto ws, ∃ r, rows[i]? = some r := fun i hi => by
    obtain ⟨r, hr, _⟩ := (hmem i).1 hi
    exact ⟨r, hr⟩
  have hall : ∀ l : List Nat, (∀ i ∈ l, ∃ r, rows[i]? = some r) → ∃ best : List (PerfRow B K),
      (l.mapM fun i => match rows[i]? with
        | some r => (.ok r : Except PyErr (PerfRow B K))
        | none => .error .indexError) = .ok best ∧
      List.Forall₂ (fun i r => rows[i]? = some r) l best := by
    intro l
    induction l with
    | nil => intro _; exact ⟨[], rfl, .nil⟩
    | cons i l ih =>
      intro h
      obtain ⟨best, b1, b2⟩ := ih fun i hi => h i (by simp [hi])
      obtain ⟨r, hr⟩ := h i (by simp)
      exact ⟨r :: best, by rw [List.mapM_cons, b1, hr]; rfl, .cons hr b2⟩
  obtain ⟨best, b1, b2⟩ := hall (pareto ws) hex
  exact ⟨pareto ws, best, b1, h1, b2, hmem⟩

/-- The result of `find_best_models`, as a set. -/
theorem findBest_mem {pareto : List (K × K) → List Nat} (hpareto : IsPareto pareto)
    {rows best : List (PerfRow B K)} (hpos : PositiveRows rows) (h : findBestModels pareto rows = .ok best)
    (r : PerfRow B K) : r ∈ best ↔ r ∈ rows ∧ ∀ r' ∈ rows, ¬ r'.Better r := by
  obtain ⟨idx, best', h1, _, h3, h4⟩ := C100_pareto pareto hpareto rows hpos
  rw [h] at h1
  cases h1
  constructor
  · intro hr
    obtain ⟨k, hk, e⟩ := List.getElem_of_mem hr
    have hk' : k < idx.length := by rw [h3.length_eq]; exact hk
    have := List.forall₂_iff_get.1 h3
    have hget := this.2 k hk' hk
    simp only [List.get_eq_getElem] at hget
    obtain ⟨r', hr', hnb⟩ := (h4 _).1 (List.getElem_mem hk')
    rw [hget] at hr'
    have hr'' := Option.some.inj hr'
    rw [e] at hr''
    subst hr''
    rw [e] at hget
    exact ⟨List.mem_of_getElem? hget, hnb⟩
  · rintro ⟨hr, hnb⟩
    obtain ⟨i, hi, e⟩ := List.getElem_of_mem hr
    have hi' : rows[i]? = some r := by rw [List.getElem?_eq_getElem hi, e]
    obtain ⟨k, hk, ek⟩ := List.getElem_of_mem ((h4 i).2 ⟨r, hi', hnb⟩)
    have hk' : k < best.length := by rw [← h3.length_eq]; exact hk
    have hget := (List.forall₂_iff_get.1 h3).2 k hk hk'
    simp only [List.get_eq_getElem] at hget
    rw [ek, hi'] at hget
    rw [Option.some.inj hget]
    exact List.getElem_mem hk'

/-- Fewer models are below a model with a lower sum. -/
theorem countP_lt_of_mem {r r' : PerfRow B K} (hlt : r'.time + r'.error < r.time + r.error)
    (l : List (PerfRow B K)) (hr' : r' ∈ l) :
    (l.countP fun x => decide (x.time + x.error < r'.time + r'.error)) <
      l.countP fun x => decide (x.time + x.error < r.time + r.error) := by
  have hmono : ∀ l : List (PerfRow B K),
      (l.countP fun x => decide (x.time + x.error < r'.time + r'.error)) ≤
      l.countP fun x => decide (x.time + x.error < r.time + r.error) := by
    intro l
    apply List.countP_mono_left
    intro x _ hx
    simp only [decide_eq_true_eq] at hx ⊢
    exact hx.trans hlt
  induction l with
  | nil => simp at hr'
  | cons a l ih =>
    rw [List.countP_cons, List.countP_cons]
    rcases List.mem_cons.1 hr' with rfl | hr'
    · have := hmono l
      simp [hlt]
      omega
    · have := ih hr'
      by_cases h1 : a.time + a.error < r'.time + r'.error
      · simp only [h1, decide_true, if_true, h1.trans hlt]; omega
      · simp only [h1, decide_false, Bool.false_eq_true, if_false]
        omega

theorem zip_map_self {α β : Type} (f : α → β) (l : List α) : l.zip (l.map f) = l.map fun r => (r, f r) := by
  induction l with
  | nil => rfl
  | cons a l ih => simp only [List.map_cons, List.zip_cons_cons, ih]

/-- For every model there is an optimal one which is at least as good. -/
theorem exists_optimal (rows : List (PerfRow B K)) (r : PerfRow B K) (hr : r ∈ rows) :
    ∃ o ∈ rows, (∀ r' ∈ rows, ¬ r'.Better o) ∧ o.time ≤ r.time ∧ o.error ≤ r.error := by
  have key : ∀ (n : Nat) (r : PerfRow B K), r ∈ rows →
      (rows.countP fun x => decide (x.time + x.error < r.time + r.error)) = n →
      ∃ o ∈ rows, (∀ r' ∈ rows, ¬ r'.Better o) ∧ o.time ≤ r.time ∧ o.error ≤ r.error := by
    intro n
    induction n using Nat.strong_induction_on with
    | _ n ih =>
      intro r hr hn
      by_cases hb : ∃ r' ∈ rows, r'.Better r
      · obtain ⟨r', hr', b1, b2, b3⟩ := hb
        have hlt : r'.time + r'.error < r.time + r.error := by
          rcases b3 with b3 | b3 <;> linarith
        have hc : (rows.countP fun x => decide (x.time + x.error < r'.time + r'.error)) < n :=
          hn ▸ countP_lt_of_mem hlt rows hr'
        obtain ⟨o, ho, hno, h1, h2⟩ := ih _ hc r' hr' rfl
        exact ⟨o, ho, hno, h1.trans b1, h2.trans b2⟩
      · push Not at hb
        exact ⟨r, hr, hb, le_rfl, le_rfl⟩
  exact key _ r hr rfl

/-! ### The sweep -/

theorem foldl_max_spec (xs : List K) : ∀ x : K, x ≤ xs.foldl max x ∧ (∀ y ∈ xs, y ≤ xs.foldl max x) ∧
    (xs.foldl max x = x ∨ xs.foldl max x ∈ xs) := by
  induction xs with
  | nil => intro x; simp
  | cons y xs ih =>
    intro x
    obtain ⟨h1, h2, h3⟩ := ih (max x y)
    rw [List.foldl_cons]
    refine ⟨(le_max_left x y).trans h1, ?_, ?_⟩
    · intro z hz
      rcases List.mem_cons.1 hz with rfl | hz
      · exact (le_max_right x z).trans h1
      · exact h2 z hz
    · rcases h3 with h | h
      · rw [h]
        rcases max_choice x y with e | e
        · exact .inl e
        · right; rw [e]; simp
      · right; simp [h]

theorem foldl_min_spec (xs : List K) : ∀ x : K, xs.foldl min x ≤ x ∧ (∀ y ∈ xs, xs.foldl min x ≤ y) ∧
    (xs.foldl min x = x ∨ xs.foldl min x ∈ xs) := by
  induction xs with
  | nil => intro x; simp
  | cons y xs ih =>
    intro x
    obtain ⟨h1, h2, h3⟩ := ih (min x y)
    rw [List.foldl_cons]
    refine ⟨h1.trans (min_le_left x y), ?_, ?_⟩
    · intro z hz
      rcases List.mem_cons.1 hz with rfl | hz
      · exact h1.trans (min_le_right x z)
      · exact h2 z hz
    · rcases h3 with h | h
      · rw [h]
        rcases min_choice x y with e | e
        · exact .inl e
        · right; rw [e]; simp
      · right; simp [h]

theorem maxOf_spec {l : List K} (h : l ≠ []) : ∃ m, maxOf l = .ok m ∧ m ∈ l ∧ ∀ x ∈ l, x ≤ m := by
  cases l with
  | nil => exact absurd rfl h
  | cons x xs =>
    obtain ⟨h1, h2, h3⟩ := foldl_max_spec xs x
    refine ⟨_, rfl, ?_, ?_⟩
    · rcases h3 with h | h
      · rw [h]; simp
      · simp [h]
    · intro y hy
      rcases List.mem_cons.1 hy with rfl | hy
      · exact h1
      · exact h2 y hy

theorem minOf_spec {l : List K} (h : l ≠ []) : ∃ m, minOf l = .ok m ∧ m ∈ l ∧ ∀ x ∈ l, m ≤ x := by
  cases l with
  | nil => exact absurd rfl h
  | cons x xs =>
    obtain ⟨h1, h2, h3⟩ := foldl_min_spec xs x
    refine ⟨_, rfl, ?_, ?_⟩
    · rcases h3 with h | h
      · rw [h]; simp
      · simp [h]
    · intro y hy
      rcases List.mem_cons.1 hy with rfl | hy
      · exact h1
      · exact h2 y hy

/-- The content of the log for one step of the sweep. -/
structure SweepOf (rows all : List (PerfRow B K)) (gamma maxTime maxError : K) (e : SweepEntry B K) : Prop where
  /-- the factors correspond to the weights gamma and 1 - gamma of the scaled values -/
  factors : e.alpha * maxTime = gamma ∧ e.beta * maxError = 1 - gamma
  costs : e.costs = rows.map fun r => (r, r.cost e.alpha e.beta)
  /-- the best models: no model at all has a lower cost -/
  best : ∀ r, r ∈ e.best ↔ r ∈ rows ∧ ∀ r' ∈ all, r.cost e.alpha e.beta ≤ r'.cost e.alpha e.beta
  some_best : e.best ≠ []
  /-- the cost logged with them: that of the last model -/
  logged : rows.getLast?.map (·.cost e.alpha e.beta) = some e.bestCost

theorem sweepStep_ok {rows all : List (PerfRow B K)} (hne : rows ≠ []) {maxTime maxError gamma : K}
    (ht : 0 < maxTime) (he : 0 < maxError) (hg0 : 0 ≤ gamma) (hg1 : gamma ≤ 1)
    (hsub : ∀ r ∈ rows, r ∈ all)
    (hopt : ∀ r ∈ all, ∃ o ∈ rows, o.time ≤ r.time ∧ o.error ≤ r.error) :
    ∃ e, sweepStep rows maxTime maxError gamma = .ok e ∧ SweepOf rows all gamma maxTime maxError e := by
  have hcost : ∀ r : PerfRow B K, gamma * (r.time / maxTime) + (1 - gamma) * (r.error / maxError) =
      r.cost (gamma / maxTime) ((1 - gamma) / maxError) := by
    intro r; unfold PerfRow.cost; field_simp
  set costs := rows.map fun r => gamma * (r.time / maxTime) + (1 - gamma) * (r.error / maxError) with hc
  have hc' : costs = rows.map fun r => r.cost (gamma / maxTime) ((1 - gamma) / maxError) := by
    rw [hc]; exact List.map_congr_left fun r _ => hcost r
  have hne' : costs ≠ [] := by rw [hc]; simpa using hne
  obtain ⟨low, h1, h2, h3⟩ := minOf_spec hne'
  have hlast : ∃ c, costs.getLast? = some c := ⟨_, List.getLast?_eq_some_getLast hne'⟩
  obtain ⟨c, hlast⟩ := hlast
  have hzip : rows.zip costs = rows.map fun r => (r, r.cost (gamma / maxTime) ((1 - gamma) / maxError)) := by
    rw [hc']
    exact zip_map_self _ _
  have ha0 : 0 ≤ gamma / maxTime := by positivity
  have hb0 : 0 ≤ (1 - gamma) / maxError := div_nonneg (by linarith) he.le
  refine ⟨_, by unfold sweepStep; rw [← hc]; simp only [h1, hlast]; rfl, ?_⟩
  have hbest : ∀ r, r ∈ ((rows.zip costs).filterMap fun rc => if rc.2 = low then some rc.1 else none) ↔
      r ∈ rows ∧ r.cost (gamma / maxTime) ((1 - gamma) / maxError) = low := by
    intro r
    rw [hzip, List.mem_filterMap]
    constructor
    · rintro ⟨⟨r', c'⟩, hm, hif⟩
      obtain ⟨r2, hr2, e⟩ := List.mem_map.1 hm
      cases e
      simp only at hif
      split at hif
      · rename_i heq; cases hif; exact ⟨hr2, heq⟩
      · cases hif
    · rintro ⟨hr, heq⟩
      exact ⟨(r, _), List.mem_map.2 ⟨r, hr, rfl⟩, by simp only [heq, if_true]⟩
  constructor
  · exact ⟨div_mul_cancel₀ _ ht.ne', div_mul_cancel₀ _ he.ne'⟩
  · exact hzip
  · intro r
    rw [hbest r]
    constructor
    · rintro ⟨hr, heq⟩
      refine ⟨hr, ?_⟩
      intro r' hr'
      obtain ⟨o, ho, o1, o2⟩ := hopt r' hr'
      have hlow := h3 (o.cost (gamma / maxTime) ((1 - gamma) / maxError)) (by
        rw [hc']; exact List.mem_map.2 ⟨o, ho, rfl⟩)
      rw [heq]
      refine hlow.trans ?_
      unfold PerfRow.cost
      have := mul_le_mul_of_nonneg_left o1 ha0
      have := mul_le_mul_of_nonneg_left o2 hb0
      linarith
    · rintro ⟨hr, hmin⟩
      refine ⟨hr, ?_⟩
      rw [hc'] at h2
      obtain ⟨r0, hr0, e0⟩ := List.mem_map.1 h2
      apply le_antisymm
      · rw [← e0]; exact hmin r0 (hsub r0 hr0)
      · exact h3 _ (by rw [hc']; exact List.mem_map.2 ⟨r, hr, rfl⟩)
  · intro hnil
    rw [hc'] at h2
    obtain ⟨r0, hr0, e0⟩ := List.mem_map.1 h2
    have := (hbest r0).2 ⟨hr0, e0⟩
    simp only at hnil
    rw [hnil] at this
    simp at this
  · rw [hc', List.getLast?_map] at hlast
    exact hlast

/-- **C101**: with the optimal models of `find_best_models`, for each of the ten weights gamma = 0, 0.1, ..., 0.9
the sweep logs the costs alpha * time + beta * error of all optimal models, for factors that weigh the scaled
values with gamma and 1 - gamma, and as best models exactly the optimal models that have the least cost of
*all* models. The cost that is logged with the best models is that of the last optimal model; the claim that
it is the least cost is refuted below. -/
theorem C101_sweep_partial (pareto : List (K × K) → List Nat) (hpareto : IsPareto pareto)
    (all : List (PerfRow B K)) (hne : all ≠ []) (hpos : PositiveRows all) :
    ∃ rows entries maxTime maxError, findBestModels pareto all = .ok rows ∧
      sweepCostFactors rows = .ok entries ∧ entries.length = 10 ∧
      IsGreatest {t | ∃ r ∈ rows, r.time = t} maxTime ∧ IsGreatest {t | ∃ r ∈ rows, r.error = t} maxError ∧
      ∀ (step : Nat) (e : SweepEntry B K), entries[step]? = some e →
        SweepOf rows all ((step : K) / 10) maxTime maxError e := by
  obtain ⟨_, rows, h1, -⟩ := C100_pareto pareto hpareto all hpos
  have hmem := findBest_mem hpareto hpos h1
  have hopt : ∀ r ∈ all, ∃ o ∈ rows, o.time ≤ r.time ∧ o.error ≤ r.error := by
    intro r hr
    obtain ⟨o, ho, hno, o1, o2⟩ := exists_optimal all r hr
    exact ⟨o, (hmem o).2 ⟨ho, hno⟩, o1, o2⟩
  have hne' : rows ≠ [] := by
    obtain ⟨r, hr⟩ := List.exists_mem_of_ne_nil all hne
    obtain ⟨o, ho, _⟩ := hopt r hr
    exact List.ne_nil_of_mem ho
  obtain ⟨maxTime, t1, t3, t4⟩ := maxOf_spec (l := rows.map PerfRow.time) (by simpa using hne')
  obtain ⟨maxError, e1, e3, e4⟩ := maxOf_spec (l := rows.map PerfRow.error) (by simpa using hne')
  have t2 : 0 < maxTime := by
    obtain ⟨r, hr, rfl⟩ := List.mem_map.1 t3
    exact (hpos r ((hmem r).1 hr).1).1
  have e2 : 0 < maxError := by
    obtain ⟨r, hr, rfl⟩ := List.mem_map.1 e3
    exact (hpos r ((hmem r).1 hr).1).2
  have hstep : ∀ step : Nat, step < 10 → ∃ e, sweepStep rows maxTime maxError ((step : K) / 10) = .ok e ∧
      SweepOf rows all ((step : K) / 10) maxTime maxError e := by
    intro step hs
    refine sweepStep_ok hne' t2 e2 (by positivity) ?_ (fun r hr => ((hmem r).1 hr).1) hopt
    rw [div_le_one (by norm_num)]
    exact_mod_cast hs.le
  obtain ⟨e0, -⟩ := hstep 0 (by norm_num)
  have : Nonempty (SweepEntry B K) := ⟨e0⟩
  choose! f hf hf' using hstep
  refine ⟨rows, (List.range 10).map f, maxTime, maxError, h1, ?_, by simp,
    ⟨List.mem_map.1 t3, fun x hx => t4 x (List.mem_map.2 hx)⟩,
    ⟨List.mem_map.1 e3, fun x hx => e4 x (List.mem_map.2 hx)⟩, ?_⟩
  · unfold sweepCostFactors
    rw [t1]
    simp only [e1]
    exact mapM_ok _ f _ fun step hs => hf step (List.mem_range.1 hs)
  · intro step e he
    have hs : step < 10 := by
      have := (List.getElem?_eq_some_iff.1 he).1
      simpa using this
    rw [List.getElem?_map, List.getElem?_range hs] at he
    cases he
    exact hf' step hs

/-- **C101**, when the cost logged with the best models is theirs: exactly when the last optimal model is one of them.
Otherwise it is greater than theirs. -/
theorem C101_when_partial (pareto : List (K × K) → List Nat) (hpareto : IsPareto pareto)
    (all : List (PerfRow B K)) (hpos : PositiveRows all) {rows : List (PerfRow B K)}
    {entries : List (SweepEntry B K)} (hrows : findBestModels pareto all = .ok rows)
    (hentries : sweepCostFactors rows = .ok entries) {last : PerfRow B K} (hlast : rows.getLast? = some last)
    {step : Nat} {e : SweepEntry B K} (he : entries[step]? = some e) :
    (IsLeast {c | ∃ r ∈ all, r.cost e.alpha e.beta = c} e.bestCost ↔ last ∈ e.best) ∧
    (last ∉ e.best → ∀ r ∈ e.best, r.cost e.alpha e.beta < e.bestCost) := by
  have hmem := findBest_mem hpareto hpos hrows
  have hlr : last ∈ rows := List.mem_of_getLast? hlast
  have hla : last ∈ all := ((hmem last).1 hlr).1
  obtain ⟨rows', entries', mt, me, h1, h2, -, -, -, h3⟩ :=
    C101_sweep_partial pareto hpareto all (List.ne_nil_of_mem hla) hpos
  rw [hrows] at h1
  cases h1
  rw [hentries] at h2
  cases h2
  have hsw := h3 step e he
  have hcost : last.cost e.alpha e.beta = e.bestCost := by
    have := hsw.logged
    rw [hlast] at this
    exact Option.some.inj this
  have hiff : IsLeast {c | ∃ r ∈ all, r.cost e.alpha e.beta = c} e.bestCost ↔ last ∈ e.best := by
    rw [hsw.best]
    constructor
    · rintro ⟨_, hl⟩
      refine ⟨hlr, fun r' hr' => ?_⟩
      rw [hcost]
      exact hl ⟨r', hr', rfl⟩
    · rintro ⟨_, hl⟩
      refine ⟨⟨last, hla, hcost⟩, ?_⟩
      rintro c ⟨r, hr, rfl⟩
      rw [← hcost]
      exact hl r hr
  refine ⟨hiff, fun hn r hr => ?_⟩
  obtain ⟨_, hmin⟩ := (hsw.best r).1 hr
  refine lt_of_le_of_ne (hcost ▸ hmin last hla) fun heq => hn (hiff.1 ⟨⟨last, hla, hcost⟩, ?_⟩)
  rintro c ⟨r', hr', rfl⟩
  rw [← heq]
  exact hmin r' hr'

/-- The Pareto indices computed by definition, for the example. -/
def examplePareto (ws : List (ℚ × ℚ)) : List Nat :=
  (List.range ws.length).filter fun i => match ws[i]? with
    | some w => ws.all fun w' => !(decide (w.1 ≤ w'.1) && decide (w.2 ≤ w'.2) && decide (w' ≠ w))
    | none => false

theorem examplePareto_ok : IsPareto examplePareto := by
  intro ws
  refine ⟨List.nodup_range.sublist List.filter_sublist, ?_⟩
  intro i
  unfold examplePareto
  rw [List.mem_filter, List.mem_range]
  constructor
  · rintro ⟨hi, h⟩
    rw [List.getElem?_eq_getElem hi] at h ⊢
    refine ⟨_, rfl, ?_⟩
    simp only [List.all_eq_true] at h
    rintro w' hw' ⟨d1, d2, d3⟩
    have := h w' hw'
    simp [d1, d2, d3] at this
  · rintro ⟨w, hw, h⟩
    refine ⟨(List.getElem?_eq_some_iff.1 hw).1, ?_⟩
    rw [hw]
    simp only [List.all_eq_true]
    intro w' hw'
    by_cases hd : w.1 ≤ w'.1 ∧ w.2 ≤ w'.2 ∧ w' ≠ w
    · exact absurd hd (h w' hw')
    · by_contra hc
      simp only [Bool.not_eq_true, Bool.not_eq_false', Bool.and_eq_true, decide_eq_true_eq] at hc
      exact hd ⟨hc.1.1, hc.1.2, hc.2⟩

/-- Three models, the second of which is slower and less precise than the first. -/
example : findBestModels examplePareto [⟨"a", 1, 4⟩, ⟨"b", 2, 5⟩, ⟨"c", 3, 1⟩] =
    .ok [(⟨"a", 1, 4⟩ : PerfRow String ℚ), ⟨"c", 3, 1⟩] := by decide +kernel

/-- **C101**, the refuted part: the cost logged for the best models is not always their cost. For gamma = 0.9
the fast model "a" is the best, with cost 2/5, but the cost of "c" is logged. -/
theorem C101_cost_refuted : ∃ (rows : List (PerfRow String ℚ)) (entries : List (SweepEntry String ℚ))
    (e : SweepEntry String ℚ) (r : PerfRow String ℚ), findBestModels examplePareto rows = .ok rows ∧
      PositiveRows rows ∧ sweepCostFactors rows = .ok entries ∧ entries[9]? = some e ∧ e.best = [r] ∧
      r.cost e.alpha e.beta = 2 / 5 ∧ e.bestCost = 37 / 40 := by
  refine ⟨[⟨"a", 1, 4⟩, ⟨"c", 3, 1⟩], (List.range 10).map fun step => ⟨(step : ℚ) / 10 / 3,
      (1 - (step : ℚ) / 10) / 4,
      [(⟨"a", 1, 4⟩, (step : ℚ) / 10 * (1 / 3) + (1 - (step : ℚ) / 10) * (4 / 4)),
        (⟨"c", 3, 1⟩, (step : ℚ) / 10 * (3 / 3) + (1 - (step : ℚ) / 10) * (1 / 4))],
      if (step : ℚ) < 5.3 then [⟨"c", 3, 1⟩] else [⟨"a", 1, 4⟩],
      (step : ℚ) / 10 * (3 / 3) + (1 - (step : ℚ) / 10) * (1 / 4)⟩, _, ⟨"a", 1, 4⟩, by decide +kernel, ?_,
    by decide +kernel, rfl, by decide +kernel, by decide +kernel, by decide +kernel⟩
  intro r hr
  simp only [List.mem_cons, List.not_mem_nil, or_false] at hr
  rcases hr with rfl | rfl <;> decide +kernel

/-- In the table of the refutation the last optimal model is "c": for gamma = 0 it is the best model, and its cost is
logged. -/
example : ∃ entries, sweepCostFactors [(⟨"a", 1, 4⟩ : PerfRow String ℚ), ⟨"c", 3, 1⟩] = .ok entries ∧
    (entries[0]?.map fun e => (e.best, e.bestCost)) = some ([⟨"c", 3, 1⟩], 1 / 4) ∧
    (entries[9]?.map fun e => (e.best, e.bestCost)) = some ([⟨"a", 1, 4⟩], 37 / 40) :=
  ⟨_, rfl, by decide +kernel, by decide +kernel⟩

end Spta
