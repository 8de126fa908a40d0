import Verif.Common.SortedMap
import Verif.Lob.Model
import Verif.Lob.Spec
import Verif.Lob.Refine
import Verif.Lob.RefineMarket
import Verif.Lob.Obs
import Verif.Lob.FillFacts
import Verif.Lob.Props
import Verif.Lob.OrderBook
import Verif.Time.Date
import Verif.Time.Civil
import Verif.Time.EasterTable
import Verif.Time.Countries
import Verif.Time.Calendar
import Verif.Time.CalendarLemmas
import Verif.Time.CalendarProps
import Verif.Time.Utilities
import Verif.Time.DayCountProps
import Verif.Time.UtilProps
import Verif.Time.EasterProps
import Verif.Time.CountrySpec
import Verif.Time.CountryLemmas
import Verif.Time.CountryRules
import Verif.Time.CountryProps
import Verif.Time.HebrewSpec
import Verif.Time.HebrewProps
import Verif.Autodiff.Model
import Verif.Autodiff.Spec
import Verif.Autodiff.Tape
import Verif.Autodiff.Deriv
import Verif.Autodiff.Run
import Verif.Autodiff.Props
import Verif.Time.Order
import Verif.Cashflows.Model
import Verif.Cashflows.Props
import Verif.Fx.Model
import Verif.Fx.CurrencyTable
import Verif.Fx.Props
import Verif.Portfolios.Model
import Verif.Portfolios.Props
import Verif.Math.Interp
import Verif.Math.InterpLemmas
import Verif.Math.InterpProps
import Verif.Data.Curve
import Verif.Data.CurveProps
import Verif.Math.Rootfind
import Verif.Math.RootfindProps
import Verif.Math.RootfindSuccessProps
import Verif.Math.BSpline
import Verif.Math.BSplineProps
import Verif.Math.Statistic
import Verif.Math.StatisticProps
import Verif.Math.StatisticOrderProps
import Verif.Math.Fft
import Verif.Math.FftProps
import Verif.Math.Sequences
import Verif.Math.SequencesProps
import Verif.Math.GradientDescent
import Verif.Math.GradientDescentProps
import Verif.Math.QuadratureTable
import Verif.Math.Quadrature
import Verif.Math.QuadratureProps
import Verif.Options.Payoffs
import Verif.Options.PayoffProps
import Verif.Distributions.Gaussian
import Verif.Distributions.GaussianLemmas
import Verif.Distributions.GaussianProps
import Verif.Options.Bsm
import Verif.Options.BsmLemmas
import Verif.Options.BsmProps
import Verif.Options.FiniteDifference
import Verif.Options.FiniteDifferenceLemmas
import Verif.Options.FiniteDifferenceProps
import Verif.Stochastics.Simulation
import Verif.Stochastics.SimulationLemmas
import Verif.Stochastics.SimulationProps
import Verif.Stochastics.SimulationSpec
import Verif.Stochastics.SimulationEulerProps
import Verif.Stochastics.SimulationProbProps
import Verif.Stochastics.SimulationLawProps
import Verif.Stochastics.NelsonSiegel
import Verif.Stochastics.NelsonSiegelProps
import Verif.Options.Bachelier
import Verif.Options.BachelierProps
import Verif.Options.Sabr
import Verif.Options.SabrProps
import Verif.Options.Heston
import Verif.Options.HestonLemmas
import Verif.Options.HestonProps
import Verif.Options.HestonBranchProps
import Verif.Distributions.Spec
import Verif.Distributions.SpecLemmas
import Verif.Distributions.GammaLemmas
import Verif.Distributions.GammaFamily
import Verif.Distributions.GammaFamilyLemmas
import Verif.Distributions.ExponentialProps
import Verif.Distributions.GammaProps
import Verif.Distributions.ChiSquaredProps
import Verif.Distributions.Uniform
import Verif.Distributions.UniformLemmas
import Verif.Distributions.UniformProps
import Verif.Distributions.Poisson
import Verif.Distributions.PoissonLemmas
import Verif.Distributions.PoissonProps
import Verif.Distributions.Trials
import Verif.Distributions.TrialsLemmas
import Verif.Distributions.TrialsProps
import Verif.ML.Spec
import Verif.ML.Regression
import Verif.ML.RegressionLemmas
import Verif.ML.RegressionProps
import Verif.ML.Lasso
import Verif.ML.LassoLemmas
import Verif.ML.LassoProps
import Verif.ML.Activations
import Verif.ML.ActivationsSpec
import Verif.ML.ActivationsProps
import Verif.ML.Logistic
import Verif.ML.LogisticLemmas
import Verif.ML.LogisticProps
import Verif.ML.Knn
import Verif.ML.KnnProps
import Verif.Options.LongstaffSchwartz
import Verif.Options.LongstaffSchwartzSpec
import Verif.Options.LongstaffSchwartzLemmas
import Verif.Options.LongstaffSchwartzProps
import Verif.Options.LongstaffSchwartzLaw
import Verif.Options.MonteCarlo
import Verif.Options.MonteCarloSpec
import Verif.Options.MonteCarloLemmas
import Verif.Options.MonteCarloProps
import Verif.Options.MonteCarloLaw
import Verif.Options.MonteCarloGbmProps
import Verif.Options.AnalyticPricer
import Verif.Options.AnalyticPricerProps
import Verif.ImpliedVol.Model
import Verif.ImpliedVol.Spec
import Verif.ImpliedVol.Moments
import Verif.ImpliedVol.Series
import Verif.ImpliedVol.Expansion
import Verif.ImpliedVol.Asymptotic
import Verif.ImpliedVol.Accuracy
import Verif.ImpliedVol.Calculus
import Verif.ImpliedVol.Interp
import Verif.ImpliedVol.Maps
import Verif.ImpliedVol.Solve
import Verif.ImpliedVol.Order
import Verif.ImpliedVol.Solver
import Verif.ImpliedVol.Props
import Verif.Iso.Props
import Verif.Autodiff.GraphvizProps
import Verif.Math.RiskRewardProps
import Verif.Options.FdErrorLemmas
import Verif.Options.FdErrorProps
import Verif.Options.FdBlackScholesLemmas
import Verif.Options.FdBlackScholesProps
import Verif.Options.AnalyticPricerGreeks
import Verif.Distributions.Sampling
import Verif.Distributions.SamplingLemmas
import Verif.Distributions.SamplingProps
import Verif.Autodiff.Compare
import Verif.Autodiff.CompareProps
import Verif.Float.Binary64
import Verif.Float.Ops
import Verif.Float.Model
import Verif.Float.SumProps
import Verif.Float.OrderProps
import Verif.Float.SeqProps
import Verif.Float.FormulaProps
import Verif.Float.VarianceProps
import Verif.Float.Bisection
import Verif.Float.BisectionLemmas
import Verif.Float.BisectionProps
import Verif.Float.Binary32
import Verif.Float.Portfolio
import Verif.Float.PortfolioProps
import Verif.Float.Quadrature
import Verif.Float.QuadratureProps
import Verif.Float.Money
import Verif.Float.MoneyProps
import Verif.Float.Autodiff
import Verif.Float.AutodiffSpec
import Verif.Float.AutodiffLemmas
import Verif.Float.AutodiffExact
import Verif.Float.AutodiffRun
import Verif.Float.AutodiffProps
import Verif.Float.Fft
import Verif.Float.FftSpec
import Verif.Float.FftLemmas
import Verif.Float.FftRun
import Verif.Float.FftProps
import Verif.Float.Extended
import Verif.Float.FiniteDifference
import Verif.Float.FdSpec
import Verif.Float.FdLemmas
import Verif.Float.FdRun
import Verif.Float.FdInputs
import Verif.Float.FdExplicit
import Verif.Float.FdProps
import Verif.Float.Simulation
import Verif.Float.SimulationSpec
import Verif.Float.SimulationLemmas
import Verif.Float.SimulationRun
import Verif.Float.SimulationProps
import Verif.Float.BlackScholes
import Verif.Float.BlackScholesExtended
import Verif.Float.BlackScholesSpec
import Verif.Float.BlackScholesLemmas
import Verif.Float.BlackScholesTerms
import Verif.Float.BlackScholesRun
import Verif.Float.BlackScholesProps
import Verif.Float.BlackScholesExpiry
import Verif.Float.Correlation
import Verif.Float.CorrelationSpec
import Verif.Float.CorrelationLemmas
import Verif.Float.CorrelationCore
import Verif.Float.CorrelationRun
import Verif.Float.CorrelationProps
import Verif.Float.MeansProps
import Verif.Float.AsianProps
import Verif.Float.MonteCarlo
import Verif.Float.MonteCarloSpec
import Verif.Float.MonteCarloLemmas
import Verif.Float.MonteCarloProps
import Verif.Float.MonteCarloRun
import Verif.Float.NanPayoffs
import Verif.Float.NanSpec
import Verif.Float.NanLemmas
import Verif.Float.NanProps
import Verif.Float.NanPaths
import Verif.Float.NanLookback
import Verif.Float.Sorting
import Verif.Float.SortingSpec
import Verif.Float.SortingLemmas
import Verif.Float.SortingProps
import Verif.Float.SortingInterp
import Verif.Float.Solvers
import Verif.Float.SolversLemmas
import Verif.Float.SolversProps
import Verif.Float.SolversNan
import Verif.Float.SolversSame
import Verif.Float.SolversRun
import Verif.Float.Greeks
import Verif.Float.GreeksSpec
import Verif.Float.GreeksLemmas
import Verif.Float.GreeksTerms
import Verif.Float.GreeksProps
import Verif.Float.GreeksTheta
import Verif.Float.GreeksExpiry
import Verif.Float.Laws
import Verif.Float.LawsLemmas
import Verif.Float.LawsProps
import Verif.Float.LawsExpProps
import Verif.Float.LawsOverflow
import Verif.Float.LawsGaussian
import Verif.Distributions.Release
import Verif.Distributions.ReleaseProps
import Verif.Distributions.ReleaseBinomial
import Verif.Float.Tape
import Verif.Float.TapeSpec
import Verif.Float.TapeLemmas
import Verif.Float.TapeProps
import Verif.Float.TapeRun
import Verif.Float.Activations
import Verif.Float.ActivationsSpec
import Verif.Float.ActivationsLemmas
import Verif.Float.ActivationsProps
import Verif.Float.ActivationsVar
import Verif.Float.ActivationsGelu
import Verif.Float.ActivationsRun
import Verif.Float.NelsonSiegel
import Verif.Float.NelsonSiegelSpec
import Verif.Float.NelsonSiegelLemmas
import Verif.Float.NelsonSiegelProps
import Verif.Float.NelsonSiegelDiscount
import Verif.Float.NelsonSiegelNan
import Verif.Float.NelsonSiegelCost
import Verif.Float.NelsonSiegelRun
import Verif.Float.Spline
import Verif.Float.SplineSpec
import Verif.Float.SplineLemmas
import Verif.Float.SplineBasis
import Verif.Float.SplineTerms
import Verif.Float.SplineProps
import Verif.Float.SplineEdges
import Verif.Float.SplinePow
import Verif.Float.SplineCases
import Verif.Float.Moments
import Verif.Float.MomentsSpec
import Verif.Float.MomentsLemmas
import Verif.Float.MomentsRun
import Verif.Float.MomentsCore
import Verif.Float.MomentsProps
import Verif.Float.RiskReward
import Verif.Float.RiskRewardSpec
import Verif.Float.RiskRewardLemmas
import Verif.Float.RiskRewardProps
import Verif.Float.Bachelier
import Verif.Float.BachelierSpec
import Verif.Float.BachelierLemmas
import Verif.Float.BachelierProps
import Verif.Float.BachelierExpiry
import Verif.Float.Schemes
import Verif.Float.SchemesSpec
import Verif.Float.SchemesLemmas
import Verif.Float.SchemesRun
import Verif.Float.SchemesMilstein
import Verif.Float.SchemesProps
import Verif.Float.SchemesRates
import Verif.Float.Jumps
import Verif.Float.JumpsSpec
import Verif.Float.JumpsLemmas
import Verif.Float.JumpsProps
import Verif.Float.Paths
import Verif.Float.PathsSpec
import Verif.Float.PathsProps
