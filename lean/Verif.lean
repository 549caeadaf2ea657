import Verif.Text
import Verif.Prelude
import Verif.Lab.NumMatrix
import Verif.Sparse.Coo
import Verif.Sparse.Csr
import Verif.Sparse.Spec
import Verif.Sparse.DenseLemmas
import Verif.Sparse.CooLemmas
import Verif.Sparse.CooProps
import Verif.Sparse.Group
import Verif.Sparse.Merge
import Verif.Sparse.CsrConv
import Verif.Sparse.CsrRep
import Verif.Sparse.CscConv
import Verif.Sparse.Transpose
import Verif.Sparse.DenseEq
import Verif.Sparse.ConvProps
import Verif.Sparse.NewProps
import Verif.Sparse.CompressedProps
import Verif.Lab.Sort
import Verif.Lab.MinMax
import Verif.Lab.Dense
import Verif.Lab.Band
import Verif.Lab.NumVector
import Verif.Lab.Kernels
import Verif.Lab.Functions
import Verif.Lab.Chebyshev
import Verif.Lab.ChebyshevPoints
import Verif.Lab.Legendre
import Verif.Lab.Small
import Verif.Lab.GaussJ
import Verif.Lab.Bspline
import Verif.Lab.LinearFitting
import Verif.Lab.Bracket
import Verif.Lab.BrentRoot
import Verif.Lab.BrentMin
import Verif.Lab.Cubic
import Verif.Stat.Histogram
import Verif.Stat.Quantile
import Verif.Stat.Statistics
import Verif.Stat.Distributions
import Verif.Pde.Equations
import Verif.Pde.Grid
import Verif.Pde.Bcs
import Verif.Pde.Assembly
import Verif.Pde.Line
import Verif.Pde.Scheme
import Verif.Pde.Fdm
import Verif.Pde.SchemeAux
import Verif.Pde.Fdm1dProps
import Verif.Pde.Fdm2dProps
import Verif.Sparse.Jacobian
import Verif.Sparse.Verify
import Verif.Sparse.Solver
import Verif.Sparse.MatrixMarket
import Verif.Sparse.MatrixMarketProps
import Verif.Sparse.MatrixMarketSafe
import Verif.Lab.Norms
import Verif.Lab.Barycentric
import Verif.Lab.InterpLagrange
import Verif.Lab.InterpLagrangeProps
import Verif.Lab.InterpLagrangeNew
import Verif.Lab.ReadTable
import Verif.Ode.EulerForward
import Verif.Ode.Tableaux
import Verif.Ode.ErkAccept
import Verif.Ode.ErkSolve
import Verif.Ode.Trees
import Verif.Ode.OrderDp8
import Verif.Ode.ErkCases
import Verif.Ode.Stiffness
import Verif.Tensor.Represent
import Verif.Tensor.AlgebraProps
import Verif.Tensor.Invariants
import Verif.Tensor.Deriv1
import Verif.Tensor.Ops4
import Verif.Tensor.Deriv2Props
import Verif.Tensor.ElasticProps
import Verif.Tensor.Ops3
import Verif.Tensor.Spectral
import Verif.Nonlin.Arclength
import Verif.Nonlin.ArclengthFacts
import Verif.Nonlin.DriverFacts
import Verif.Nonlin.NaturalProp
import Verif.Nonlin.NaturalMore
import Verif.Lab.LineSearch
import Verif.Lab.NewtonProp
import Verif.Lab.FiniteDiff
import Verif.Ode.BwEuler
import Verif.Ode.RadauConst
import Verif.Ode.RadauProp
import Verif.Ode.RadauCases
import Verif.Ode.Params
import Verif.Lab.Quadrature
import Verif.Lab.QuadratureProp
import Verif.Lab.QuadratureThm
import Verif.Lab.InterpChebyshev
import Verif.Lab.ChebyshevSeries
import Verif.Lab.InterpChebyshevProp
import Verif.Lab.InterpChebyshevThm
import Verif.Lab.RootFinder
import Verif.Lab.RootFinderProp
import Verif.Lab.RootFinderThm
import Verif.Lab.MatInverse
import Verif.Pde.Metrics
import Verif.Pde.Transfinite2d
import Verif.Pde.Transfinite3d
import Verif.Pde.Spc
import Verif.Pde.Spc1d
import Verif.Pde.Spc2
import Verif.Pde.Spc2d
import Verif.Pde.SpcEnergy
import Verif.Pde.MapCalc
import Verif.Pde.SpcMap2d
import Verif.Pde.SpcMap2dRows
import Verif.Pde.SpcMap2dProps
import Verif.Ode.Samples
import Verif.Ode.SamplesProps
import Verif.Ode.SamplesPde
import Verif.Pde.TransfiniteSamples
import Verif.Pde.MaxPrinciple
import Verif.Pde.ProblemSamples
import Verif.Pde.ProblemSamples1d
import Verif.Pde.ProblemSamples2d
import Verif.Pde.ProblemSamples2dProps
import Verif.Pde.ProblemSamples04
import Verif.Pde.ProblemSamplesMap
import Verif.Lab.BsplineDeriv
import Verif.Nonlin.Samples
import Verif.Nonlin.SamplesProps
import Verif.Lab.BlasOps
import Verif.Lab.DenseNorms
import Verif.Lab.Lapack
import Verif.Lab.LapackEigen
import Verif.Lab.LapackMore
import Verif.Lab.PseudoInverse
import Verif.Lab.LapackExamples
import Verif.Lab.Ieee
import Verif.Lab.FloatBits
import Verif.Lab.FloatMod
import Verif.Lab.FloatExamples
import Verif.Lab.Checks
import Verif.Lab.Durations
import Verif.Lab.CodeText
import Verif.Sparse.Options
import Verif.Sparse.LinSolver
import Verif.Lab.Stopwatch
import Verif.Nonlin.Logger
import Verif.Sparse.Stats
import Verif.Sparse.ComplexCoo
import Verif.Lab.CarlsonDup
import Verif.Lab.CarlsonSeries
import Verif.Lab.CarlsonLoop
import Verif.Lab.CarlsonConv
import Verif.Lab.Elliptic
import Verif.Lab.CarlsonRJ
import Verif.Lab.EllipticPi
import Verif.Lab.Bessel
import Verif.Lab.BesselMod
import Verif.Lab.BesselK
import Verif.Lab.BesselPos
import Verif.Lab.BesselJn
import Verif.Lab.Stirling
import Verif.Lab.Bernstein
import Verif.Lab.GammaCore
import Verif.Lab.GammaTv
import Verif.Lab.GammaStir
import Verif.Lab.Gamma
import Verif.Lab.LnGammaCore
import Verif.Lab.LnGamma
import Verif.Lab.BetaAsy
import Verif.Lab.Beta
import Verif.Lab.SolveLinSys
import Verif.Lab.ErfBasic
import Verif.Lab.ErfTail
import Verif.Lab.ErfcTail
import Verif.Lab.ErfCore
import Verif.Lab.Erf
import Verif.Lab.ErfInvCore
import Verif.Lab.ErfInvAcc
import Verif.Lab.ErfInv
import Verif.Lab.BesselOde
import Verif.Lab.BesselAsy
import Verif.Lab.BesselAcc
import Verif.Lab.Bessel01
import Verif.Lab.EulerGamma
import Verif.Lab.BesselYOde
import Verif.Lab.BesselYSer
import Verif.Lab.BesselY01
import Verif.Lab.BesselNAcc
import Verif.Lab.BesselIOde
import Verif.Lab.BesselI01
import Verif.Lab.BesselKOde
import Verif.Lab.BesselKLarge
import Verif.Lab.BesselKSmall
import Verif.Lab.BesselK01
import Verif.Lab.VecDeriv
