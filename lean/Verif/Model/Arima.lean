import Verif.Model.Train

/-!
# Model of the ARIMA trainers: spta/arima/train.py and spta/arima/__init__.py

The libraries statsmodels and pmdarima are parameters (`ArimaLib`): a call returns a model or raises. Their
results are assumed to depend only on the arguments. Logging is dropped.
-/

namespace Spta

/-- `ArimaPDQ` — spta/arima/__init__.py:3, or any triple of integers. -/
structure PDQ where
  p : Int
  d : Int
  q : Int
  deriving DecidableEq, Repr

/-- `arima_params_gen()` — spta/arima/__init__.py:42-49. -/
def arimaParamsGen (ps ds qs : List Int) : List PDQ :=
  ps.flatMap fun p => ds.flatMap fun d => qs.map fun q => ⟨p, d, q⟩

/-- An exception of a library: the two that are caught, or another one. `LinAlgError` is not a `ValueError`
in all versions of numpy, so the code mentions both. -/
inductive LibErr where
  | valueError
  | linAlgError
  | other (e : PyErr)
  deriving DecidableEq

/-- The libraries: `ARIMA(series, order).fit()`, `auto_arima(series, ...).order`, `model.order` and `aic` of a
fitted model. `A` is the type of `AutoArimaParams`. -/
structure ArimaLib (K A M : Type) where
  fit : PDQ → List (Option K) → Except LibErr M
  auto : A → List (Option K) → Except LibErr PDQ
  order : M → PDQ
  aic : M → Option K

/-- The `except` clauses: `None` for the two exceptions, all others are passed on
— spta/arima/train.py:74-80, 156-163. -/
def exceptArima {M : Type} : LibErr → Except PyErr (Option M)
  | .valueError => .ok none
  | .linAlgError => .ok none
  | .other e => .error e

/-- A value of a region of models that is not None: a model, or the number 0 outside of a cluster. -/
inductive ArimaCell (M : Type) where
  | zero
  | model (m : M)
  deriving DecidableEq

section

variable {K A M : Type}

/-- `TrainerArimaPDQ.training_function(arima_pdq, training_series)` — spta/arima/train.py:42-82; `none` is
python's None. -/
def trainPdq (lib : ArimaLib K A M) (pdq : Option PDQ) (series : Option (List (Option K))) :
    Except PyErr (Option M) :=
  match pdq, series with
  | some o, some v =>
    match lib.fit o v with
    | .ok m => .ok (some m)
    | .error e => exceptArima e
  | _, _ => .ok none

/-- `TrainerAutoArima.training_function(auto_arima_params, training_series)` — spta/arima/train.py:125-165:
`len(None)` raises TypeError before the check. An exception of the fit that the inner function does not catch
is not caught here either. -/
def trainAuto (lib : ArimaLib K A M) (params : Option A) (series : Option (List (Option K))) :
    Except PyErr (Option M) :=
  match series with
  | none => .error .typeError
  | some v =>
    match params with
    | none => .ok none
    | some a =>
      match lib.auto a v with
      | .error e => exceptArima e
      | .ok o => trainPdq lib (some o) (some v)

/-- `ORDER_WHEN_NO_MODEL` — spta/arima/train.py:20. -/
def noOrder : PDQ := ⟨-1, -1, -1⟩

/-- `extract_pdq(fitted_arima_at_point)` — spta/arima/train.py:277-290. -/
def extractPdq (lib : ArimaLib K A M) : Option (ArimaCell M) → PDQ
  | some (.model m) => lib.order m
  | _ => noOrder

/-- `extract_aic(fitted_arima_at_point)` — spta/arima/train.py:251-262; NaN without model. -/
def extractAic (lib : ArimaLib K A M) : Option (ArimaCell M) → Option K
  | some (.model m) => lib.aic m
  | _ => none

/-- The value of an integer that is stored in an array of 8 bit integers. -/
def int8 (i : Int) : Int := (i + 128) % 256 - 128

/-- A `ModelRegionArima` with the attributes of `create_model_region`; `pdq` exists only for auto ARIMA. -/
structure ArimaRegion (K M : Type) where
  models : Grid (Option (ArimaCell M))
  missing : Nat
  aic : Grid (Option K)
  pdq : Option (Grid PDQ)
  deriving DecidableEq

/-- `create_model_region(numpy_model_array)` — spta/arima/train.py:84-97 and, `withPdq`, 167-187: the debug
messages read the values at (0, 0). -/
def createArimaRegion (lib : ArimaLib K A M) (withPdq : Bool) (models : Grid (Option (ArimaCell M)))
    (missing : Nat) : Except PyErr (ArimaRegion K M) :=
  let aic : Grid (Option K) := ⟨models.xLen, models.yLen, models.data.map (extractAic lib)⟩
  let pdq : Grid PDQ := ⟨models.xLen, models.yLen, models.data.map fun c =>
    ⟨int8 (extractPdq lib c).p, int8 (extractPdq lib c).d, int8 (extractPdq lib c).q⟩⟩
  match aic.get ⟨0, 0⟩ with
  | .error e => .error e
  | .ok _ => .ok ⟨models, missing, aic, if withPdq then some pdq else none⟩

/-- The models as values of a region. -/
def asCell (r : Except PyErr (Option M)) : Except PyErr (Option (ArimaCell M)) :=
  match r with
  | .error e => .error e
  | .ok m => .ok (m.map .model)

/-- `TrainerArimaPDQ(arima_params, x_len, y_len)` — spta/arima/train.py:32-40. -/
def pdqTrainer (lib : ArimaLib K A M) (params : Option PDQ) (xLen yLen : Nat) :
    Trainer K (Option PDQ) (ArimaCell M) :=
  Trainer.constant params xLen yLen fun o v => asCell (trainPdq lib o (some v))

/-- `TrainerAutoArima(auto_arima_params, x_len, y_len)` — spta/arima/train.py:110-123. -/
def autoTrainer (lib : ArimaLib K A M) (params : Option A) (xLen yLen : Nat) :
    Trainer K (Option A) (ArimaCell M) :=
  Trainer.constant params xLen yLen fun a v => asCell (trainAuto lib a (some v))

/-- The hyper-parameters that `TrainerRefitArima` stores for a model — spta/arima/train.py:217-224. -/
def refitParams (lib : ArimaLib K A M) (c : Option (ArimaCell M)) : Option PDQ :=
  if extractPdq lib c ≠ noOrder then some (extractPdq lib c) else none

/-- `TrainerRefitArima(arima_model_region)` — spta/arima/train.py:207-242. -/
def refitTrainer (lib : ArimaLib K A M) (models : Grid (Option (ArimaCell M))) :
    Trainer K (Option PDQ) (ArimaCell M) :=
  ⟨⟨models.xLen, models.yLen, models.data.map (refitParams lib)⟩,
    fun o v => asCell (trainPdq lib o (some v))⟩

/-- `trainer.apply_to(region)`, which ends with `create_model_region` — spta/model/train.py:74-100,
spta/arima/train.py:84-97, 167-187, 244-248. -/
def arimaApply [Field K] [LinearOrder K] {P : Type} (lib : ArimaLib K A M) (withPdq : Bool)
    (t : Trainer K P (ArimaCell M)) (s : Stack K) : Except PyErr (ArimaRegion K M) :=
  match t.applyTo (some .zero) s with
  | .error e => .error e
  | .ok (models, missing) => createArimaRegion lib withPdq models missing

end

end Spta
