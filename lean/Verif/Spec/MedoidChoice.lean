import Verif.Model.MedoidChoice

/-!
# Specification of the choice of medoids
-/

namespace Spta

variable {K : Type} [LinearOrder K]

/-- The penalty of a medoid after the threshold: infinite when the medoid has been chosen `threshold`
times already (a threshold of zero is no threshold). -/
def effective (threshold : Int) (chosen : Nat) (s : Score K) : Score K :=
  if threshold ≠ 0 ∧ (chosen : Int) = threshold then some ⊤ else s

/-- `penalty` gives the (effective) penalty of each medoid of the suite: `penalty repr i` is that of the
`i`-th medoid of `repr`. -/
structure Penalizes (penalties : Str → List AbsPoint → Except PyErr (List (Score K))) (threshold : Int)
    (suite : SuiteResult) (hist : MedoidHist) (penalty : Str → Nat → Score K) : Prop where
  /-- every clustering has medoids -/
  nonempty : ∀ e ∈ suite, e.2 ≠ []
  /-- the strategy gives one score per medoid -/
  scores : ∀ e ∈ suite, ∃ raw, penalties e.1 e.2 = .ok raw ∧ raw.length = e.2.length ∧
    ∀ (i : Nat) s, raw[i]? = some s → penalty e.1 i = effective threshold (hist.count (e.1, i)) s
  /-- no medoid has been chosen too often -/
  below : threshold ≠ 0 → ∀ e ∈ suite, ∀ i < e.2.length, (hist.count (e.1, i) : Int) ≤ threshold

/-- No penalty of the clustering is NaN. -/
def Comparable (penalty : Str → Nat → Score K) (e : Str × List AbsPoint) : Prop :=
  ∀ i < e.2.length, penalty e.1 i ≠ none

/-- `(a, i)` comes before `(b, j)`: earlier clustering, or the same one and earlier medoid. -/
def Before (a i b j : Nat) : Prop := a < b ∨ (a = b ∧ i < j)

/-- The `i`-th medoid of the `a`-th clustering has the finite penalty `v`, smallest among the medoids of
the clusterings without NaN, and is the first with this penalty. -/
structure FirstBest (suite : SuiteResult) (penalty : Str → Nat → Score K) (a i : Nat)
    (e : Str × List AbsPoint) (m : AbsPoint) (v : K) : Prop where
  clustering : suite[a]? = some e
  medoid : e.2[i]? = some m
  comparable : Comparable penalty e
  value : penalty e.1 i = some (v : WithTop K)
  least : ∀ (b : Nat) e' (j : Nat) w, suite[b]? = some e' → Comparable penalty e' → j < e'.2.length →
    penalty e'.1 j = some w → (v : WithTop K) ≤ w
  first : ∀ (b : Nat) e' (j : Nat) w, suite[b]? = some e' → Comparable penalty e' → j < e'.2.length →
    penalty e'.1 j = some w → Before b j a i → (v : WithTop K) < w

end Spta
