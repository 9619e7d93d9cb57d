import Verif.Model.Query
import Verif.Model.Silhouette
import Verif.Model.SolverFiles

/-!
# Model of the figure of a query

`plot_regions` and `get_plot_filename` in spta/solver/model.py, `plot_partition` and
`plot_discrete_spatial_region` (with marked points) in spta/util/plot.py and the strings of the clustering
metadata. A figure is the data given to the drawing functions of matplotlib; those do not fail. The colour map
`cm.nipy_spectral` is a parameter `cmap`, colours are the elements of a type with a black.
-/

namespace Spta

/-- `str(clustering_metadata)` — spta/clustering/__init__.py:59-60, spta/clustering/kmedoids.py:49-54. -/
def ClusterMeta.text : ClusterMeta → Str
  | .regular k => "Regular: k=".toList ++ intStr k
  | .kmedoids m => "Kmedoids: k=".toList ++ (intStr m.k ++ (" seed=".toList ++ (intStr m.seed ++
      (" mode=".toList ++ m.mode))))

/-- A mark of the figure: its position on the horizontal and the vertical axis, and whether it is white
(symbol 'xw') or black ('xk'). -/
structure FigureMark where
  horizontal : Nat
  vertical : Nat
  white : Bool
  deriving DecidableEq

/-- A `Rectangle(xy, width, height)` of matplotlib. -/
structure Rectangle (K : Type) where
  left : K
  base : K
  width : K
  height : K
  deriving DecidableEq

/-- The figure of a query: the colour of each point, the marks, the rectangle and the title. -/
structure QueryFigure (K C : Type) where
  colours : Grid C
  marks : List FigureMark
  rectangle : Rectangle K
  title : Str
  deriving DecidableEq

section

variable {K : Type} [Field K] [LinearOrder K] {C : Type} [DecidableEq C]

/-- The loop over the points to mark — spta/util/plot.py:84-98. -/
def figureMarks (black : C) (colours : Grid C) : List Point → Except PyErr (List FigureMark)
  | [] => .ok []
  | p :: ps =>
    match colours.get p with
    | .error e => .error e
    | .ok c =>
      match figureMarks black colours ps with
      | .error e => .error e
      | .ok ms => .ok (⟨p.y, p.x, decide (c = black)⟩ :: ms)

/-- The colours of a map — spta/util/plot.py:68-78, `clusterColours` has the arguments of the colour map. -/
def mapColours (cmap : K → C) (g : Grid Nat) : Except PyErr (Grid C) :=
  match clusterColours (K := K) g with
  | .error e => .error e
  | .ok values => .ok ⟨values.xLen, values.yLen, values.data.map cmap⟩

/-- The rectangle around a region — spta/util/plot.py:140-154. -/
def regionRectangle (r : Region) : Rectangle K :=
  ⟨(r.y1 : K) - 1 / 2, (r.x1 : K) - 1 / 2, (r.y2 : K) - (r.y1 : K), (r.x2 : K) - (r.x1 : K)⟩

/-- `'({}, {})'` -/
def cornerText (x y : Nat) : Str := '(' :: (natStr x ++ (',' :: ' ' :: (natStr y ++ [')'])))

/-- The title — spta/solver/model.py:162-171; `md` is the rectangle of the region metadata. -/
def queryTitle (clustering : ClusterMeta) (md r : Region) : Str :=
  let a := absoluteCoordinates md r
  clustering.text ++ ("; Region: ".toList ++ (cornerText a.x1 a.y1 ++ (" - ".toList ++
    (cornerText a.x1 a.y2 ++ (" - ".toList ++ (cornerText a.x2 a.y1 ++ (" - ".toList ++
      cornerText a.x2 a.y2)))))))

/-- `plot_regions(prediction_region, output_home)` — spta/solver/model.py:155-189, spta/util/plot.py:126-156;
`medoids` is None for a partition without medoids. -/
def queryFigure (cmap : K → C) (black : C) (clustering : ClusterMeta) (md : Region) (pt : Partition)
    (medoids : Option (List Point)) (r : Region) : Except PyErr (QueryFigure K C) :=
  match mapColours cmap pt.labels with
  | .error e => .error e
  | .ok colours =>
    match figureMarks black colours (medoids.getD []) with
    | .error e => .error e
    | .ok marks => .ok ⟨colours, marks, regionRectangle r, queryTitle clustering md r⟩

/-- `predict(prediction_region, forecast_len, output_home, plot)` — spta/solver/model.py:45-54: the preparation,
the figure (if wanted) and the result. -/
def Solver.query {M : Type} (sv : Solver K M) (forecast : M → Nat → Except PyErr (List (Option K)))
    (cmap : K → C) (black : C) (mdRegion : Region) (pt : Partition) (medoids : Option (List Point))
    (clustering : ClusterMeta) (r : Region) (forecastLen : Int) (plot : Bool) :
    Except PyErr (Result K) × Option (QueryFigure K C) :=
  match sv.testRegion with
  | .error e => (.error e, none)
  | .ok _ =>
    if plot then
      match queryFigure cmap black clustering mdRegion pt medoids r with
      | .error e => (.error e, none)
      | .ok fig => (sv.queryResult forecast mdRegion pt medoids clustering r forecastLen, some fig)
    else (sv.queryResult forecast mdRegion pt medoids clustering r forecastLen, none)

end

/-- `get_plot_filename(prediction_region, output_home)` — spta/solver/model.py:191-201. -/
def SolverMeta.plotFile (m : SolverMeta) (home : Str) (r : Region) : Str :=
  osJoin (m.outputDir home) ("query-".toList ++ (m.clustering.repr ++ (sep2 ++ (regionStr r ++ ".pdf".toList))))

end Spta
