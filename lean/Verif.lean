import Verif.Model.AnalysisOptions
import Verif.Model.Arima
import Verif.Model.ArimaForecast
import Verif.Model.BaselineSolvers
import Verif.Model.Basic
import Verif.Model.Catalogue
import Verif.Model.Centroid
import Verif.Model.Classifier
import Verif.Model.ClusterRun
import Verif.Model.Clustering
import Verif.Model.Cost
import Verif.Model.CsvText
import Verif.Model.Dataset
import Verif.Model.Dba
import Verif.Model.Dbscan
import Verif.Model.Distance
import Verif.Model.DistanceFiles
import Verif.Model.ErrorSuites
import Verif.Model.ErrorVal
import Verif.Model.Examples
import Verif.Model.ExtractionLstm
import Verif.Model.Extrema
import Verif.Model.FindElbows
import Verif.Model.Forecast
import Verif.Model.ForecastHistory
import Verif.Model.Fuzzy
import Verif.Model.FuzzyReport
import Verif.Model.Iris
import Verif.Model.Iterators
import Verif.Model.KMedoids
import Verif.Model.KMedoidsBad
import Verif.Model.Maths
import Verif.Model.MedoidChoice
import Verif.Model.MedoidErrors
import Verif.Model.Parallel
import Verif.Model.Pareto
import Verif.Model.PartitionAnalysis
import Verif.Model.Query
import Verif.Model.QueryFigure
import Verif.Model.Region
import Verif.Model.RegionPickle
import Verif.Model.Result
import Verif.Model.Rmse
import Verif.Model.Scaling
import Verif.Model.Silhouette
import Verif.Model.SilhouetteSession
import Verif.Model.Solver
import Verif.Model.SolverDnn
import Verif.Model.SolverEach
import Verif.Model.SolverFiles
import Verif.Model.SolverSession
import Verif.Model.SolverTrain
import Verif.Model.Strings
import Verif.Model.StudySuites
import Verif.Model.Suite
import Verif.Model.SuiteFiles
import Verif.Model.Synthetic
import Verif.Model.SyntheticProfiles
import Verif.Model.TaskQueue
import Verif.Model.Train
import Verif.Model.TrainingErrors
import Verif.Model.Util
import Verif.Model.Variance
import Verif.Spec.AnalysisOptions
import Verif.Spec.Arima
import Verif.Spec.ArimaForecast
import Verif.Spec.BaselineSolvers
import Verif.Spec.Catalogue
import Verif.Spec.Centroid
import Verif.Spec.Classifier
import Verif.Spec.ClusterRun
import Verif.Spec.Cost
import Verif.Spec.CsvText
import Verif.Spec.Dataset
import Verif.Spec.Dba
import Verif.Spec.Dbscan
import Verif.Spec.Distance
import Verif.Spec.DistanceFiles
import Verif.Spec.ErrorSuites
import Verif.Spec.ErrorVal
import Verif.Spec.Examples
import Verif.Spec.ExtractionLstm
import Verif.Spec.Extrema
import Verif.Spec.FindElbows
import Verif.Spec.Forecast
import Verif.Spec.Fuzzy
import Verif.Spec.FuzzyReport
import Verif.Spec.Iris
import Verif.Spec.Iterators
import Verif.Spec.KMedoids
import Verif.Spec.KMedoidsBad
import Verif.Spec.MedoidChoice
import Verif.Spec.MedoidErrors
import Verif.Spec.Pareto
import Verif.Spec.PartitionAnalysis
import Verif.Spec.QueryFigure
import Verif.Spec.Region
import Verif.Spec.RegionPickle
import Verif.Spec.Result
import Verif.Spec.Rmse
import Verif.Spec.Scaling
import Verif.Spec.Silhouette
import Verif.Spec.SilhouetteSession
import Verif.Spec.Solver
import Verif.Spec.SolverDnn
import Verif.Spec.SolverEach
import Verif.Spec.SolverSession
import Verif.Spec.SolverTrain
import Verif.Spec.StudySuites
import Verif.Spec.Suite
import Verif.Spec.SuiteFiles
import Verif.Spec.SyntheticProfiles
import Verif.Spec.TaskQueue
import Verif.Spec.Train
import Verif.Spec.TrainingErrors
import Verif.Spec.TrainingPipeline
import Verif.Spec.Util
import Verif.Spec.Variance
import Verif.Lemmas.Classifier
import Verif.Lemmas.Cluster
import Verif.Lemmas.Clustering
import Verif.Lemmas.Dataset
import Verif.Lemmas.Dba
import Verif.Lemmas.Distance
import Verif.Lemmas.ErrorVal
import Verif.Lemmas.Except
import Verif.Lemmas.Forecast
import Verif.Lemmas.Fuzzy
import Verif.Lemmas.Grid
import Verif.Lemmas.KMedoids
import Verif.Lemmas.KMedoidsBad
import Verif.Lemmas.Maths
import Verif.Lemmas.Parallel
import Verif.Lemmas.Region
import Verif.Lemmas.Scaling
import Verif.Lemmas.SolverFiles
import Verif.Lemmas.Strings
import Verif.Lemmas.Suite
import Verif.Lemmas.TaskQueue
import Verif.Lemmas.Train
import Verif.Lemmas.Util
import Verif.Props.AnalysisOptions
import Verif.Props.Arima
import Verif.Props.ArimaForecast
import Verif.Props.BaselineSolvers
import Verif.Props.Catalogue
import Verif.Props.Centroid
import Verif.Props.Classifier
import Verif.Props.ClusterRun
import Verif.Props.Clustering
import Verif.Props.Clusters
import Verif.Props.Cost
import Verif.Props.CsvText
import Verif.Props.Dataset
import Verif.Props.Dba
import Verif.Props.Dbscan
import Verif.Props.Distance
import Verif.Props.DistanceFiles
import Verif.Props.ErrorSuites
import Verif.Props.Examples
import Verif.Props.ExtractionLstm
import Verif.Props.Extrema
import Verif.Props.Extreme
import Verif.Props.FindElbows
import Verif.Props.Forecast
import Verif.Props.ForecastHistory
import Verif.Props.Fuzzy
import Verif.Props.FuzzyReport
import Verif.Props.Iris
import Verif.Props.Iteration
import Verif.Props.Iterators
import Verif.Props.KMedoids
import Verif.Props.KMedoidsBad
import Verif.Props.MedoidChoice
import Verif.Props.MedoidErrors
import Verif.Props.Merge
import Verif.Props.Parallel
import Verif.Props.Pareto
import Verif.Props.PartitionAnalysis
import Verif.Props.Query
import Verif.Props.QueryFigure
import Verif.Props.RegionPickle
import Verif.Props.RegularPartition
import Verif.Props.Result
import Verif.Props.Rmse
import Verif.Props.Scaling
import Verif.Props.Silhouette
import Verif.Props.SilhouetteSession
import Verif.Props.Solver
import Verif.Props.SolverDnn
import Verif.Props.SolverEach
import Verif.Props.SolverFiles
import Verif.Props.SolverSession
import Verif.Props.SolverTrain
import Verif.Props.StudySuites
import Verif.Props.Suite
import Verif.Props.SuiteFiles
import Verif.Props.Synthetic
import Verif.Props.SyntheticProfiles
import Verif.Props.TaskQueue
import Verif.Props.Train
import Verif.Props.TrainInput
import Verif.Props.TrainingErrors
import Verif.Props.TrainingPipeline
import Verif.Props.Util
import Verif.Props.Variance
import Verif.Conformance.UnitTests
