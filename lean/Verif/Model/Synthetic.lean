import Verif.Model.Basic
import Verif.Model.CsvText
import Mathlib.Algebra.Order.Field.Basic

/-!
# Model of the synthetic training data of the classifier

spta/classifier/synthetic.py and `synthetic_temperature` in spta/dataset/synthetic_temporal.py. The numbers of the
generator `random` are a parameter `draw` (`draw n` is the number behind the n-th call of `random.choice`), the
outcomes of the standard normal distribution of numpy a parameter `z`, and the text of a number with three decimal
places a parameter. The arithmetic is exact.
-/

namespace Spta

/-- `random.choice(seq)` with the number `d` of the generator; IndexError for an empty sequence. -/
def pyChoice {A : Type} (seq : List A) (d : Nat) : Except PyErr A :=
  match seq[d % seq.length]? with
  | some a => .ok a
  | none => .error .indexError

section

variable {K : Type} [Field K] [LinearOrder K]

/-- `np.random.normal(x, noise)` with the outcome `z` of the standard normal distribution. -/
def normalAt (noise x z : K) : K := x + noise * z

/-- `synthetic_temperature(series_len, a, b_min, b_max, noise)` — spta/dataset/synthetic_temporal.py:68-85.
`np.arange(b_min, b_max, (b_max - b_min) / 12)` has 12 elements, and divides by 0 if the bounds are equal; a
negative standard deviation is a ValueError. -/
def syntheticTemperature (seriesLen : Nat) (a bMin bMax noise : K) (d : Nat) (z : Nat → K) :
    Except PyErr (List K) :=
  if bMin = bMax then .error .zeroDivisionError
  else
    match pyChoice ((List.range 12).map fun (i : Nat) => bMin + (i : K) * ((bMax - bMin) / 12)) d with
    | .error e => .error e
    | .ok b =>
      if noise < 0 then .error .valueError
      else .ok ((List.range seriesLen).map fun (j : Nat) => normalAt noise ((j : K) * a + b) (z j))

/-- The slope — spta/classifier/synthetic.py:40-46. -/
def syntheticSlope (k seed : Int) (index : Nat) (weight : K) : K :=
  ((k - (index : Int) : Int) : K) * ((seed % 2 * 2 - 1 : Int) : K) * weight

/-- An entry of the output — spta/classifier/synthetic.py:51-58. -/
structure SyntheticEntry (K : Type) where
  k : Int
  seed : Int
  index : Nat
  medoid : Nat × Nat
  series : List K
  deriving DecidableEq

/-- The parameters of `generate_synthetic_series` — spta/classifier/synthetic.py:8-10. -/
structure SyntheticParams (K : Type) where
  ks : List Int
  seeds : List Int
  numMedoids : Nat
  numEntries : Nat
  seriesLen : Nat
  xLen : Nat := 90
  yLen : Nat := 90
  weight : K
  bMin : K
  bMax : K
  noise : K

/-- The medoids — spta/classifier/synthetic.py:20-23; medoid `i` uses the draws 2 i and 2 i + 1. -/
def syntheticMedoids (p : SyntheticParams K) (draw : Nat → Nat) : Except PyErr (List (Nat × Nat)) :=
  (List.range p.numMedoids).mapM fun i =>
    match pyChoice (List.range p.xLen) (draw (2 * i)) with
    | .error e => .error e
    | .ok x =>
      match pyChoice (List.range p.yLen) (draw (2 * i + 1)) with
      | .error e => .error e
      | .ok y => .ok (x, y)

/-- The body of the loop — spta/classifier/synthetic.py:29-60 with its five draws. `range(0, k)` is empty for
`k` ≤ 0. -/
def syntheticEntry (p : SyntheticParams K) (medoids : List (Nat × Nat)) (draw : Nat → Nat) (z : Nat → K) :
    Except PyErr (SyntheticEntry K) :=
  match pyChoice p.ks (draw 0) with
  | .error e => .error e
  | .ok k =>
    match pyChoice p.seeds (draw 1) with
    | .error e => .error e
    | .ok seed =>
      match pyChoice (List.range k.toNat) (draw 2) with
      | .error e => .error e
      | .ok index =>
        match pyChoice medoids (draw 3) with
        | .error e => .error e
        | .ok medoid =>
          match syntheticTemperature p.seriesLen (syntheticSlope k seed index p.weight) p.bMin p.bMax p.noise
              (draw 4) z with
          | .error e => .error e
          | .ok series => .ok ⟨k, seed, index, medoid, series⟩

/-- `generate_synthetic_series(...)` — spta/classifier/synthetic.py:8-62; `z i j` is the noise of sample `j` of
entry `i`. -/
def generateSyntheticSeries (p : SyntheticParams K) (draw : Nat → Nat) (z : Nat → Nat → K) :
    Except PyErr (List (SyntheticEntry K)) :=
  match syntheticMedoids p draw with
  | .error e => .error e
  | .ok medoids =>
    (List.range p.numEntries).mapM fun i =>
      syntheticEntry p medoids (fun n => draw (2 * p.numMedoids + 5 * i + n)) (z i)

/-- The header — spta/classifier/synthetic.py:77-82. -/
def syntheticHeader (seriesLen : Nat) : List Str :=
  ["region_id".toList, "type".toList, "k".toList, "seed".toList, "mode".toList, "cluster_index".toList,
    "medoid_x".toList, "medoid_y".toList] ++ (List.range seriesLen).map fun i => 's' :: natStr i

/-- A row — spta/classifier/synthetic.py:86-95; `text` is `'{:0.3f}'.format`. -/
def syntheticRow (regionId type mode : Str) (text : K → Str) (e : SyntheticEntry K) : List Str :=
  [regionId, type, intStr e.k, intStr e.seed, mode, natStr e.index, natStr e.medoid.1, natStr e.medoid.2] ++
    e.series.map text

/-- `generate_synthetic_csv(...)` — spta/classifier/synthetic.py:65-96: the text of the file. If the series cannot
be generated, no file is opened. -/
def generateSyntheticCsv (p : SyntheticParams K) (draw : Nat → Nat) (z : Nat → Nat → K) (regionId type mode : Str)
    (text : K → Str) : Except PyErr Str :=
  match generateSyntheticSeries p draw z with
  | .error e => .error e
  | .ok entries =>
    .ok (csvWrite (syntheticHeader p.seriesLen :: entries.map (syntheticRow regionId type mode text)))

end

end Spta
