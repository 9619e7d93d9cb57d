import Verif.Model.Catalogue
import Verif.Model.Centroid
import Verif.Model.TrainingErrors

/-!
# Model of experiments/arima/forecast.py: ARIMA forecasts for a whole region

Without parallel workers (see C66). Not modelled: logging. The text of a number, `'{:.2f}'.format(x)`, is a
parameter.
-/

namespace Spta

variable {K A M V : Type} [Field K] [LinearOrder K] [AddCommMonoid V] [LinearOrder V] [OrderTop V]

/-- `ForecastAnalysis(TrainerArimaPDQ(arima_params, x_len, y_len)).analyze_errors(spt_region, 'MASE')` with the
default forecast length — experiments/arima/forecast.py:62-64. `centroid` is the attribute of the region. -/
def analyseRegion (root : K → K) (lib : ArimaLib K A M) (forecast : M → Nat → Except PyErr (List (Option K)))
    (junk : Option K) (s : Stack K) (centroid : Option Point) (o : PDQ) : Except PyErr (ForecastErrors K) :=
  ((Analysis.new K (ArimaCell M)).analyze root
    (fun tr => (arimaApply lib false (pdqTrainer lib (some o) s.data.grid.xLen s.data.grid.yLen) tr).map (·.models))
    (cellForecast forecast) junk s centroid "MASE" defaultForecastLen).1

/-- The loop over the orders; the results are kept in a dictionary — experiments/arima/forecast.py:56-67. -/
def collectResults {R : Type} (job : PDQ → Except PyErr R) : List PDQ → List (PDQ × R) → Except PyErr (List (PDQ × R))
  | [], results => .ok results
  | o :: rest, results =>
    match job o with
    | .error e => .error e
    | .ok r => collectResults job rest (dictSet o r results)

/-- `str(ArimaPDQ(p, d, q))`, a namedtuple — spta/arima/__init__.py:3. -/
def PDQ.str (o : PDQ) : Str :=
  "ArimaPDQ(p=".toList ++ intStr o.p ++ ", d=".toList ++ intStr o.d ++ ", q=".toList ++ intStr o.q ++ [')']

/-- A printed line — experiments/arima/forecast.py:72-74. -/
def resultLine (show2 : ErrorVal K → Str) (o : PDQ) (e : ForecastErrors K) : Str :=
  o.str ++ " errors -> each=".toList ++ show2 e.each ++ ", min_local=".toList ++ show2 e.minLocal ++
    ", centroid=".toList ++ show2 e.centroid

/-- `do_arima_forecast(args)` — experiments/arima/forecast.py:37-74: what is printed. `create` is
`create_instance()`, `files` are the saved distances. The region is created a second time for the centroid
(spta/region/centroid.py:71). -/
def arimaForecast (root : K → K) (lib : ArimaLib K A M) (forecast : M → Nat → Except PyErr (List (Option K)))
    (junk : Option K) (show2 : ErrorVal K → Str) (create : RegionMeta → Except PyErr (Stack K))
    (files : MatrixFiles (Option V)) (region suite : Str) : Except PyErr (List Str) :=
  match dictAt predefinedRegions region with
  | .error e => .error e
  | .ok md =>
    match create md with
    | .error e => .error e
    | .ok s =>
      match centroidByRegion (fun md => (forMetadata (fun md => (create md).map (·.data.grid)) files md none).1)
          region "DistanceByDTW".toList with
      | .error e => .error e
      | .ok centroid =>
        match arimaSuiteByName suite with
        | .error e => .error e
        | .ok orders =>
          match collectResults (analyseRegion root lib forecast junk s centroid) orders [] with
          | .error e => .error e
          | .ok results => .ok (results.map fun r => resultLine show2 r.1 r.2)

end Spta
