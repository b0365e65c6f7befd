import Verif.Analysis.Poly
import Verif.Base
import Verif.Exact
import Verif.Examples
import Verif.Float.Arith
import Verif.Float.Bits
import Verif.Float.Convert
import Verif.Float.Error
import Verif.Float.Format
import Verif.Float.Grid
import Verif.Float.Mono
import Verif.Float.Near
import Verif.Float.Nearest
import Verif.Float.Prod
import Verif.Float.Round
import Verif.Float.RoundInt
import Verif.Float.Scale
import Verif.Float.Sqrt
import Verif.Float.SqrtScale
import Verif.Float.Sum
import Verif.Float.Track
import Verif.Float.Value
import Verif.Laws
import Verif.Lemmas.Accesses
import Verif.Lemmas.AccessesMore
import Verif.Lemmas.AcosFinal
import Verif.Lemmas.Alike
import Verif.Lemmas.AsinFinal
import Verif.Lemmas.AsinPoly
import Verif.Lemmas.AtanFinal
import Verif.Lemmas.AtanPoly
import Verif.Lemmas.Backends
import Verif.Lemmas.BasicFinal
import Verif.Lemmas.Best
import Verif.Lemmas.BitLanes
import Verif.Lemmas.BitMath
import Verif.Lemmas.Blocks
import Verif.Lemmas.Buffers
import Verif.Lemmas.Bundle
import Verif.Lemmas.Cacheline
import Verif.Lemmas.CachelineFaults
import Verif.Lemmas.Contract
import Verif.Lemmas.ContractExp
import Verif.Lemmas.ContractInv
import Verif.Lemmas.ContractLog
import Verif.Lemmas.ContractMeters
import Verif.Lemmas.ContractMix
import Verif.Lemmas.ContractNaN
import Verif.Lemmas.ContractOdd
import Verif.Lemmas.ContractOff
import Verif.Lemmas.ContractPoly
import Verif.Lemmas.ContractReduce
import Verif.Lemmas.ContractSymmetry
import Verif.Lemmas.ContractTan
import Verif.Lemmas.ContractUnits
import Verif.Lemmas.ExactRamps
import Verif.Lemmas.Exactly
import Verif.Lemmas.Exchange
import Verif.Lemmas.ExpError
import Verif.Lemmas.ExpFinal
import Verif.Lemmas.ExpHalf
import Verif.Lemmas.ExpReduce
import Verif.Lemmas.Exponent
import Verif.Lemmas.Fades
import Verif.Lemmas.Faults
import Verif.Lemmas.FloatExtrema
import Verif.Lemmas.FloatFills
import Verif.Lemmas.FloatRamps
import Verif.Lemmas.FloatSums
import Verif.Lemmas.Flush
import Verif.Lemmas.Folds
import Verif.Lemmas.FullScale
import Verif.Lemmas.IeeeClass
import Verif.Lemmas.LogFinal
import Verif.Lemmas.LogPoly
import Verif.Lemmas.LogRange
import Verif.Lemmas.LogTail
import Verif.Lemmas.LogZero
import Verif.Lemmas.Loops
import Verif.Lemmas.Masks
import Verif.Lemmas.Meaning
import Verif.Lemmas.MinMax
import Verif.Lemmas.NaNs
import Verif.Lemmas.Newton
import Verif.Lemmas.NumberLanes
import Verif.Lemmas.Numbers
import Verif.Lemmas.OddPoly
import Verif.Lemmas.Order
import Verif.Lemmas.OrderLanes
import Verif.Lemmas.Polarity
import Verif.Lemmas.PolarityLanes
import Verif.Lemmas.PowFinal
import Verif.Lemmas.PowNumbers
import Verif.Lemmas.Quiet
import Verif.Lemmas.Ranges
import Verif.Lemmas.Reference
import Verif.Lemmas.RootFinal
import Verif.Lemmas.RootNewton
import Verif.Lemmas.RootScale
import Verif.Lemmas.RoundLanes
import Verif.Lemmas.RoundTrip
import Verif.Lemmas.RoundVec
import Verif.Lemmas.Rounded
import Verif.Lemmas.Scale
import Verif.Lemmas.SimdMath
import Verif.Lemmas.Softclip
import Verif.Lemmas.TanFinal
import Verif.Lemmas.TanPoly
import Verif.Lemmas.TanhFinal
import Verif.Lemmas.TanhPoly
import Verif.Lemmas.Threads
import Verif.Lemmas.TrigFinal
import Verif.Lemmas.TrigGap
import Verif.Lemmas.TrigLarge
import Verif.Lemmas.TrigNumbers
import Verif.Lemmas.TrigPoly
import Verif.Lemmas.TrigReduce
import Verif.Lemmas.TrigRelFinal
import Verif.Lemmas.TrigRelReduce
import Verif.Lemmas.TrigRelative
import Verif.Lemmas.UnitFinal
import Verif.Lemmas.Witness
import Verif.Model.Align
import Verif.Model.AlignedAlloc
import Verif.Model.AlignedArray
import Verif.Model.AllocPlatforms
import Verif.Model.Args
import Verif.Model.Backends
import Verif.Model.Builds
import Verif.Model.Contract
import Verif.Model.ContractMeters
import Verif.Model.Cxx98
import Verif.Model.Flush
import Verif.Model.Functors
import Verif.Model.Hw
import Verif.Model.IntArm
import Verif.Model.IntAvx
import Verif.Model.Lanes
import Verif.Model.Meters
import Verif.Model.Pan
import Verif.Model.Scalar
import Verif.Model.SimdMemory
import Verif.Model.Unroll
import Verif.Model.Vec
import Verif.Model.VecMath
import Verif.Ordered
import Verif.Props.C01_Elementwise
import Verif.Props.C05_Sizes
import Verif.Props.C06_Footprint
import Verif.Props.C07_ScalarInPlace
import Verif.Props.C100_Quiet
import Verif.Props.C101_Roots
import Verif.Props.C102_Identities
import Verif.Props.C103_Mix
import Verif.Props.C104_Ranges
import Verif.Props.C105_Fused
import Verif.Props.C106_Reference
import Verif.Props.C107_Rounded
import Verif.Props.C10_Faults
import Verif.Props.C10_Small
import Verif.Props.C11_Placement
import Verif.Props.C13_Ramps
import Verif.Props.C13_Supplies
import Verif.Props.C14_DoubleRamps
import Verif.Props.C15_Memory
import Verif.Props.C18_Variants
import Verif.Props.C21_Pan
import Verif.Props.C22_AnyArithmetic
import Verif.Props.C23_Meters
import Verif.Props.C27_Horizontal
import Verif.Props.C30_InRegister
import Verif.Props.C33_Bits
import Verif.Props.C37_MinMax
import Verif.Props.C41_Rounding
import Verif.Props.C43_Math
import Verif.Props.C44_Exponent
import Verif.Props.C46_Exp
import Verif.Props.C50_Alignment
import Verif.Props.C52_Reciprocal
import Verif.Props.C53_Polynomials
import Verif.Props.C54_Alloc
import Verif.Props.C55_IntAvx
import Verif.Props.C56_Calls
import Verif.Props.C56_Meaning
import Verif.Props.C61_Trig
import Verif.Props.C63_Log
import Verif.Props.C64_FullScale
import Verif.Props.C66_Documented
import Verif.Props.C66_Trig
import Verif.Props.C69_Array
import Verif.Props.C70_Atan
import Verif.Props.C71_Asin
import Verif.Props.C73_Tanh
import Verif.Props.C74_All
import Verif.Props.C74_Pow
import Verif.Props.C75_IntArm
import Verif.Props.C76_Accuracy
import Verif.Props.C77_Units
import Verif.Props.C78_Same
import Verif.Props.C79_Sums
import Verif.Props.C80_Fills
import Verif.Props.C81_Extrema
import Verif.Props.C82_Blocks
import Verif.Props.C82_OtherCalls
import Verif.Props.C82_PanMeters
import Verif.Props.C83_OtherCalls
import Verif.Props.C83_Pan
import Verif.Props.C83_Threads
import Verif.Props.C84_AllocPlatforms
import Verif.Props.C85_NaN
import Verif.Props.C86_Fades
import Verif.Props.C87_Doubles
import Verif.Props.C87_ExactRamps
import Verif.Props.C88_Polarity
import Verif.Props.C89_Flush
import Verif.Props.C90_Order
import Verif.Props.C91_Builds
import Verif.Props.C92_Exact
import Verif.Props.C93_Neutral
import Verif.Props.C94_Log2
import Verif.Props.C95_Exchange
import Verif.Props.C96_RoundTrip
import Verif.Props.C97_Meters
import Verif.Props.C97_Roots
import Verif.Props.C97_Scale
import Verif.Props.C98_Numbers
import Verif.Props.C98_Reciprocal
import Verif.Props.C98_Sums
import Verif.Props.C99_Contract
import Verif.RealArith
import Verif.Spec
import Verif.SpecAccuracy
import Verif.SpecAlloc
import Verif.SpecBlocks
import Verif.SpecBuilds
import Verif.SpecExact
import Verif.SpecExchange
import Verif.SpecExtrema
import Verif.SpecFades
import Verif.SpecFloat
import Verif.SpecFlush
import Verif.SpecIdentities
import Verif.SpecMix
import Verif.SpecNaN
import Verif.SpecNeutral
import Verif.SpecNumbers
import Verif.SpecOps
import Verif.SpecOrder
import Verif.SpecPolarity
import Verif.SpecQuiet
import Verif.SpecRange
import Verif.SpecReference
import Verif.SpecRoot
import Verif.SpecRoundTrip
import Verif.SpecRounded
import Verif.SpecSame
import Verif.SpecScale
import Verif.SpecSpecial
import Verif.SpecSums
import Verif.SpecThreads
