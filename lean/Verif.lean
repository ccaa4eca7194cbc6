import Verif.Core.Machine
import Verif.Core.Mdspan
import Verif.Core.Scalar
import Verif.Spec.Memory
import Verif.Spec.LinAlg
import Verif.Lemmas.Loops
import Verif.Lemmas.Blas1
import Verif.Lemmas.Norms
import Verif.Model.Views
import Verif.Model.Blas1
import Verif.Model.Blas2
import Verif.Lemmas.State
import Verif.Lemmas.Blas2
import Verif.Lemmas.Trsv
import Verif.Lemmas.Rank
import Verif.Props.Witness
import Verif.Props.Blas1Elementwise
import Verif.Props.Blas1Reductions
import Verif.Props.Blas2Products
import Verif.Props.Blas2Solve
import Verif.Props.RankUpdates
import Verif.Props.Hermitian
import Verif.Model.Givens
import Verif.Lemmas.Givens
import Verif.Props.Givens
import Verif.Model.Blas3
import Verif.Lemmas.Blas3
import Verif.Lemmas.Blas3Cols
import Verif.Props.Blas3Products
import Verif.Props.Blas3Solve
import Verif.Core.IntTypes
import Verif.Model.IndexTypes
import Verif.Lemmas.IndexTypes
import Verif.Lemmas.IndexRefine
import Verif.Props.IndexTypes
import Verif.Model.IndexTypesAll
import Verif.Lemmas.IndexRefineAll
import Verif.Props.IndexTypesAll
import Verif.Model.Layouts
import Verif.Lemmas.Layouts
import Verif.Props.Layouts
import Verif.Model.Accessors
import Verif.Props.Views
import Verif.Props.ViewAlgorithms
import Verif.Model.Proxy
import Verif.Props.Proxy
import Verif.Model.Dispatch
import Verif.Props.Dispatch
import Verif.Props.Consistency
import Verif.Spec.Rounding
import Verif.Lemmas.Rounding
import Verif.Props.Rounding
import Verif.Core.Parallel
import Verif.Spec.Parallel
import Verif.Lemmas.Parallel
import Verif.Model.Kokkos
import Verif.Lemmas.Kokkos
import Verif.Spec.KokkosOrder
import Verif.Lemmas.KokkosProducts
import Verif.Props.KokkosWitness
import Verif.Props.KokkosLoops
import Verif.Props.KokkosUpdates
import Verif.Props.KokkosProducts
import Verif.Lemmas.KokkosReductions
import Verif.Lemmas.KokkosNative
import Verif.Props.KokkosReductions
import Verif.Props.KokkosNative
import Verif.Props.KokkosDiffer
import Verif.Lemmas.KokkosChecks
import Verif.Props.KokkosChecks
import Verif.Model.KokkosKernels
import Verif.Spec.KokkosLib
import Verif.Lemmas.KokkosLib
import Verif.Props.KokkosKernels
import Verif.Spec.Order
import Verif.Lemmas.Ordered
import Verif.Props.EvaluationOrder
import Verif.Props.Levels
import Verif.Lemmas.RoundingSeq
import Verif.Props.RoundingMore
import Verif.Core.FloatOps
import Verif.Model.FloatReductions
import Verif.Spec.Ieee
import Verif.Spec.BinaryFormat
import Verif.Spec.Absorb
import Verif.Lemmas.Absorb
import Verif.Lemmas.FloatReductions
import Verif.Lemmas.Ieee
import Verif.Props.SpecialValues
import Verif.Props.NanReductions
import Verif.Props.Overflow
import Verif.Spec.RoundingReal
import Verif.Lemmas.RoundingNorms
import Verif.Props.RoundingNorms
import Verif.Core.MixedTypes
import Verif.Model.Mixed
import Verif.Spec.Mixed
import Verif.Lemmas.Mixed
import Verif.Lemmas.MixedTri
import Verif.Lemmas.MixedSolve
import Verif.Lemmas.MixedExact
import Verif.Props.MixedTypes
import Verif.Props.MixedExact
import Verif.Props.MixedReductions
import Verif.Model.Steps
import Verif.Model.Calls
import Verif.Spec.Calls
import Verif.Spec.Steps
import Verif.Lemmas.Steps
import Verif.Lemmas.Footprint
import Verif.Lemmas.Inits
import Verif.Lemmas.Calls
import Verif.Props.Calls
import Verif.Model.GivensFloat
import Verif.Spec.Scaling
import Verif.Lemmas.GivensFloat
import Verif.Lemmas.GivensSpecial
import Verif.Lemmas.GivensExact
import Verif.Props.GivensFloat
import Verif.Spec.GivensComplex
import Verif.Spec.Hypot
import Verif.Lemmas.GivensComplex
import Verif.Lemmas.GivensComplexScale
import Verif.Lemmas.GivensComplexTiny
import Verif.Lemmas.GivensComplexTail
import Verif.Props.GivensComplex
import Verif.Spec.Accurate
import Verif.Lemmas.Accurate
import Verif.Props.Accurate
import Verif.Props.AccurateNorms
import Verif.Spec.AccurateComplex
import Verif.Lemmas.AccurateComplex
import Verif.Props.AccurateComplex
import Verif.Spec.StaticExtents
import Verif.Model.StaticExtents
import Verif.Lemmas.StaticExtents
import Verif.Props.StaticExtents
import Verif.Core.Overloads
import Verif.Model.OverloadTable
import Verif.Spec.CallForms
import Verif.Lemmas.KernelRfl
import Verif.Lemmas.Overloads
import Verif.Lemmas.OverloadCalls
import Verif.Lemmas.OverloadReach
import Verif.Props.Overloads
import Verif.Props.KokkosOrdered
import Verif.Model.KokkosFloat
import Verif.Spec.KokkosLargest
import Verif.Lemmas.KokkosFloat
import Verif.Lemmas.KokkosAccurate
import Verif.Props.KokkosAccurate
import Verif.Props.KokkosAccurateComplex
import Verif.Props.KokkosAccurateReductions
import Verif.Props.KokkosAccurateDiffer
import Verif.Lemmas.KokkosAccurateNorms
import Verif.Props.KokkosAccurateNorms
import Verif.Props.KokkosFallback
import Verif.Props.KokkosSameBits
import Verif.Props.KokkosDifferentBits
import Verif.Props.Complexity
import Verif.Spec.IntElements
import Verif.Lemmas.IntElements
import Verif.Lemmas.IntSolve
import Verif.Props.IntElements
import Verif.Props.IntExact
import Verif.Spec.FloatExact
import Verif.Lemmas.FloatExact
import Verif.Lemmas.KokkosFloatExact
import Verif.Props.FloatExact
import Verif.Props.KokkosFloatExact
import Verif.Spec.ComplexExact
import Verif.Lemmas.ComplexExact
import Verif.Props.ComplexExact
import Verif.Lemmas.KokkosComplexExact
import Verif.Props.KokkosComplexExact
import Verif.Props.Compositions
import Verif.Props.Factored
import Verif.Spec.Blocks
import Verif.Lemmas.Blocks
import Verif.Props.Blocks
import Verif.Props.BlocksMemory
import Verif.Props.BlocksProducts
import Verif.Props.BlocksSolve
import Verif.Props.BlocksSolveRight
import Verif.Props.BlocksInPlace
import Verif.Props.BlocksRankK
import Verif.Props.BlocksTriangular
import Verif.Props.BlocksSymmetric
import Verif.Props.BlocksStructured
import Verif.Props.NormLaws
import Verif.Spec.Clients
import Verif.Props.Solver
import Verif.Props.Cholesky
import Verif.Props.BlockedCholesky
import Verif.Props.BlockedLU
import Verif.Props.LeastSquares
import Verif.Lemmas.ConjugateGradients
import Verif.Props.ConjugateGradients
import Verif.Props.GaussSeidel
import Verif.Spec.Modulus
import Verif.Lemmas.Modulus
import Verif.Props.Modulus
import Verif.Spec.Transfer
import Verif.Spec.TransferTypes
import Verif.Lemmas.Transfer
import Verif.Lemmas.TransferNorms
import Verif.Lemmas.TransferCalls
import Verif.Props.Transfer
import Verif.Spec.Moved
import Verif.Lemmas.Moved
import Verif.Lemmas.MovedCalls
import Verif.Props.Moved
import Verif.Props.CholeskyQR
import Verif.Props.GramSchmidt
import Verif.Spec.KokkosTransfer
import Verif.Lemmas.KokkosTransfer
import Verif.Lemmas.KokkosTransferCalls
import Verif.Props.KokkosTransfer
import Verif.Lemmas.LuRounding
import Verif.Lemmas.CholeskyRounding
import Verif.Props.BackwardStable
import Verif.Props.BackwardStableChol
import Verif.Core.Async
import Verif.Model.KokkosHost
import Verif.Spec.KokkosHost
import Verif.Lemmas.Async
import Verif.Lemmas.KokkosHost
import Verif.Props.KokkosAsync
import Verif.Spec.Sizes
import Verif.Lemmas.Sizes
import Verif.Props.Sizes
import Verif.Lemmas.Overlap
import Verif.Lemmas.Races
import Verif.Props.Overlap
import Verif.Props.OverlapKokkos
