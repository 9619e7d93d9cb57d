import Verif.Model.Arima

/-!
# Specification of regions of ARIMA models
-/

namespace Spta

variable {K A M : Type}

/-- The call of a library returns, or raises one of the two exceptions that are expected. -/
def Expected {B : Type} (r : Except LibErr B) : Prop := ∀ e, r ≠ .error (.other e)

/-- The result of a library, or nothing. -/
def resultOf {B : Type} : Except LibErr B → Option B
  | .ok b => some b
  | .error _ => none

/-- The model for a series: that of the order, if the library finds one. -/
def pdqModel (lib : ArimaLib K A M) (o : PDQ) (v : List (Option K)) : Option M := resultOf (lib.fit o v)

/-- The model of auto ARIMA for a series: that of the order found by the search. -/
def autoModel (lib : ArimaLib K A M) (a : A) (v : List (Option K)) : Option M :=
  (resultOf (lib.auto a v)).bind fun o => pdqModel lib o v

/-- A region of models over the points of `s`, in which the model of a point `p` with series `v` is
`want p v`. -/
structure ArimaRegionOf [Field K] [LinearOrder K] (lib : ArimaLib K A M) (s : Stack K)
    (want : Point → List (Option K) → Option M) (r : ArimaRegion K M) : Prop where
  /-- every point of `s` has its model and the AIC of the model; NaN where there is none -/
  inside : ∀ p v, s.seriesAt p = .ok v → r.models.get p = .ok ((want p v).map .model) ∧
    r.aic.get p = .ok ((want p v).bind lib.aic)
  /-- all other points have the number 0 instead of a model, and no AIC -/
  outside : ∀ p : Point, p.x < s.data.grid.xLen → p.y < s.data.grid.yLen → (∀ v, s.seriesAt p ≠ .ok v) →
    r.models.get p = .ok (some .zero) ∧ r.aic.get p = .ok none
  /-- the points of `s` without model are counted -/
  missing : ∃ points : List Point, points.Nodup ∧ r.missing = points.length ∧
    ∀ p, p ∈ points ↔ ∃ v, s.seriesAt p = .ok v ∧ want p v = none

/-- The orders of a region of models: -1 where there is no model. -/
structure OrdersOf [Field K] [LinearOrder K] (lib : ArimaLib K A M) (s : Stack K)
    (want : Point → List (Option K) → Option M) (orders : Grid PDQ) : Prop where
  inside : ∀ p v, s.seriesAt p = .ok v → orders.get p = .ok (((want p v).map lib.order).getD ⟨-1, -1, -1⟩)
  outside : ∀ p : Point, p.x < s.data.grid.xLen → p.y < s.data.grid.yLen → (∀ v, s.seriesAt p ≠ .ok v) →
    orders.get p = .ok ⟨-1, -1, -1⟩

/-- An order that 8 bit integers can hold. -/
def SmallOrder (o : PDQ) : Prop :=
  -128 ≤ o.p ∧ o.p < 128 ∧ -128 ≤ o.d ∧ o.d < 128 ∧ -128 ≤ o.q ∧ o.q < 128

end Spta
