import Verif.Model.Algorithms
import Verif.Model.Assign
import Verif.Model.Chrono
import Verif.Model.ChronoEval
import Verif.Model.ChronoNames
import Verif.Model.ChronoProgram
import Verif.Model.ChronoSyntax
import Verif.Model.ChronoText
import Verif.Model.Config
import Verif.Model.Containers
import Verif.Model.Directed
import Verif.Model.Duration
import Verif.Model.DurationAlg
import Verif.Model.Expr
import Verif.Model.FloatFlags
import Verif.Model.FloatProgram
import Verif.Model.FloatingPoint
import Verif.Model.Fraction
import Verif.Model.FractionMath
import Verif.Model.Hash
import Verif.Model.HeaderEval
import Verif.Model.HeaderNames
import Verif.Model.HeaderProgram
import Verif.Model.HeaderSyntax
import Verif.Model.HeaderText
import Verif.Model.Ieee
import Verif.Model.Init
import Verif.Model.LeafEval
import Verif.Model.LeafNames
import Verif.Model.LeafProgram
import Verif.Model.LeafSyntax
import Verif.Model.LeafText
import Verif.Model.Limits
import Verif.Model.LimitsTraits
import Verif.Model.Literals
import Verif.Model.Machine
import Verif.Model.MixedNumber
import Verif.Model.Narrow
import Verif.Model.NarrowMore
import Verif.Model.Numeric
import Verif.Model.Ops
import Verif.Model.Order
import Verif.Model.Overload
import Verif.Model.Parse
import Verif.Model.Policy
import Verif.Model.PolicyState
import Verif.Model.PowCost
import Verif.Model.Program
import Verif.Model.Raw
import Verif.Model.ReadLoop
import Verif.Model.ReduceAny
import Verif.Model.Reference
import Verif.Model.ScanEval
import Verif.Model.ScanNames
import Verif.Model.ScanProgram
import Verif.Model.ScanSyntax
import Verif.Model.ScanText
import Verif.Model.Source
import Verif.Model.StaticAssert
import Verif.Model.Stopwatch
import Verif.Model.Stream
import Verif.Model.StreamChar
import Verif.Model.StreamExcept
import Verif.Model.StreamFmt
import Verif.Model.StreamIn
import Verif.Model.StreamLocale
import Verif.Model.StreamOut
import Verif.Model.StreamText
import Verif.Model.TimeExpr
import Verif.Model.TimeProgram
import Verif.Model.TypedExpr
import Verif.Model.TypedProgram
import Verif.Spec.Algorithms
import Verif.Spec.Answers
import Verif.Spec.Assign
import Verif.Spec.BigEndian
import Verif.Spec.Bounds
import Verif.Spec.Chrono
import Verif.Spec.ChronoText
import Verif.Spec.CommonDen
import Verif.Spec.Containers
import Verif.Spec.Defaults
import Verif.Spec.Directed
import Verif.Spec.Dyadic
import Verif.Spec.EnoughBits
import Verif.Spec.Expr
import Verif.Spec.Faults
import Verif.Spec.FloatFlags
import Verif.Spec.FloatRounding
import Verif.Spec.FloatText
import Verif.Spec.HeaderText
import Verif.Spec.Ieee
import Verif.Spec.Init
import Verif.Spec.LeafText
import Verif.Spec.LimitsTraits
import Verif.Spec.MixedLimits
import Verif.Spec.MixedNumber
import Verif.Spec.Modular
import Verif.Spec.Narrow
import Verif.Spec.NarrowMore
import Verif.Spec.Numeric
import Verif.Spec.Order
import Verif.Spec.Overload
import Verif.Spec.Parse
import Verif.Spec.Policy
import Verif.Spec.PolicyState
import Verif.Spec.Program
import Verif.Spec.ProgramBounds
import Verif.Spec.ProgramSign
import Verif.Spec.Rational
import Verif.Spec.ReadLoop
import Verif.Spec.ScanText
import Verif.Spec.Silent
import Verif.Spec.Source
import Verif.Spec.StaticAssert
import Verif.Spec.Stopwatch
import Verif.Spec.Stream
import Verif.Spec.StreamFmt
import Verif.Spec.StreamLocale
import Verif.Spec.StreamOut
import Verif.Spec.StreamProgram
import Verif.Spec.StreamRead
import Verif.Spec.StreamText
import Verif.Spec.TimeBounds
import Verif.Spec.TimeExpr
import Verif.Spec.TimeProgram
import Verif.Spec.TypedBounds
import Verif.Spec.TypedProgram
import Verif.Spec.TypedSign
import Verif.Spec.TypedWiden
import Verif.Spec.UserCode
import Verif.Spec.UserFit
import Verif.Spec.UserProgram
import Verif.Spec.UserTypes
import Verif.Spec.Widen
import Verif.Lemmas.BigEndian
import Verif.Lemmas.Bounds
import Verif.Lemmas.Chrono
import Verif.Lemmas.ChronoText
import Verif.Lemmas.Closure
import Verif.Lemmas.CommonDen
import Verif.Lemmas.Compare
import Verif.Lemmas.CompareArgs
import Verif.Lemmas.Containers
import Verif.Lemmas.Convert
import Verif.Lemmas.Defaults
import Verif.Lemmas.Digits
import Verif.Lemmas.Directed
import Verif.Lemmas.DirectedMore
import Verif.Lemmas.Duration
import Verif.Lemmas.DurationSign
import Verif.Lemmas.Dyadic
import Verif.Lemmas.EndToEnd
import Verif.Lemmas.EnoughBits
import Verif.Lemmas.Exact
import Verif.Lemmas.Faults
import Verif.Lemmas.FaultsApps
import Verif.Lemmas.FaultsMath
import Verif.Lemmas.FloatConvert
import Verif.Lemmas.FloatField
import Verif.Lemmas.FloatFlags
import Verif.Lemmas.FloatMonotone
import Verif.Lemmas.FloatParts
import Verif.Lemmas.FloatRounding
import Verif.Lemmas.FloatSplit
import Verif.Lemmas.FloatText
import Verif.Lemmas.Fraction
import Verif.Lemmas.Hash
import Verif.Lemmas.HashInj
import Verif.Lemmas.HeaderAttr
import Verif.Lemmas.HeaderEval
import Verif.Lemmas.HeaderFast
import Verif.Lemmas.HeaderFind
import Verif.Lemmas.HeaderFraction
import Verif.Lemmas.HeaderMath
import Verif.Lemmas.HeaderMixed
import Verif.Lemmas.HeaderParse
import Verif.Lemmas.HeaderPolicy
import Verif.Lemmas.HeaderRaw
import Verif.Lemmas.HeaderSafe
import Verif.Lemmas.Init
import Verif.Lemmas.Laws
import Verif.Lemmas.LeafText
import Verif.Lemmas.Limits
import Verif.Lemmas.LimitsTraits
import Verif.Lemmas.Machine
import Verif.Lemmas.MixedNumber
import Verif.Lemmas.MixedProgress
import Verif.Lemmas.Modular
import Verif.Lemmas.Narrow
import Verif.Lemmas.NarrowMin
import Verif.Lemmas.NarrowMore
import Verif.Lemmas.NoThrow
import Verif.Lemmas.Numeric
import Verif.Lemmas.Order
import Verif.Lemmas.Overload
import Verif.Lemmas.Parse
import Verif.Lemmas.ParseCase
import Verif.Lemmas.ParseValue
import Verif.Lemmas.Policies
import Verif.Lemmas.Policy
import Verif.Lemmas.PolicyState
import Verif.Lemmas.PosDen
import Verif.Lemmas.Pow
import Verif.Lemmas.PowCost
import Verif.Lemmas.ProgramBounds
import Verif.Lemmas.Progress
import Verif.Lemmas.Range
import Verif.Lemmas.Raw
import Verif.Lemmas.ReadLoop
import Verif.Lemmas.Reduce
import Verif.Lemmas.ReduceAny
import Verif.Lemmas.Reference
import Verif.Lemmas.RoundProgress
import Verif.Lemmas.Rounding
import Verif.Lemmas.SafeFast
import Verif.Lemmas.Scale
import Verif.Lemmas.ScanAttr
import Verif.Lemmas.ScanConvert
import Verif.Lemmas.ScanDigits
import Verif.Lemmas.ScanEval
import Verif.Lemmas.ScanScan
import Verif.Lemmas.Signs
import Verif.Lemmas.Silent
import Verif.Lemmas.Source
import Verif.Lemmas.SourceValue
import Verif.Lemmas.StaticAssert
import Verif.Lemmas.Stopwatch
import Verif.Lemmas.Stream
import Verif.Lemmas.StreamChar
import Verif.Lemmas.StreamExact
import Verif.Lemmas.StreamExcept
import Verif.Lemmas.StreamFmt
import Verif.Lemmas.StreamIn
import Verif.Lemmas.StreamLocale
import Verif.Lemmas.StreamOut
import Verif.Lemmas.StreamProgram
import Verif.Lemmas.StreamRead
import Verif.Lemmas.Table
import Verif.Lemmas.TextVerdicts
import Verif.Lemmas.TimeBounds
import Verif.Lemmas.TimeExpr
import Verif.Lemmas.TimeProgram
import Verif.Lemmas.ToSafe
import Verif.Lemmas.TypedBounds
import Verif.Lemmas.TypedExpr
import Verif.Lemmas.TypedProgram
import Verif.Lemmas.TypedSettles
import Verif.Lemmas.TypedSign
import Verif.Lemmas.TypedWiden
import Verif.Lemmas.Undefined
import Verif.Lemmas.UserCode
import Verif.Lemmas.UserFit
import Verif.Lemmas.UserProgram
import Verif.Lemmas.UserTypes
import Verif.Lemmas.Widen
import Verif.Props.Algorithms
import Verif.Props.Arith
import Verif.Props.Bounds
import Verif.Props.Chrono
import Verif.Props.ChronoText
import Verif.Props.CommonDen
import Verif.Props.Compare
import Verif.Props.Config
import Verif.Props.Containers
import Verif.Props.ContainersExact
import Verif.Props.Convert
import Verif.Props.Defaults
import Verif.Props.Directed
import Verif.Props.DirectedExact
import Verif.Props.Duration
import Verif.Props.DurationAlg
import Verif.Props.Dyadic
import Verif.Props.EndToEnd
import Verif.Props.EnoughBits
import Verif.Props.Epsilon
import Verif.Props.ExactMore
import Verif.Props.ExactParts
import Verif.Props.ExactThird
import Verif.Props.Faults
import Verif.Props.Finish
import Verif.Props.FloatExact
import Verif.Props.FloatFlags
import Verif.Props.FloatMonotone
import Verif.Props.FloatRounding
import Verif.Props.FloatText
import Verif.Props.FloatingPoint
import Verif.Props.Hash
import Verif.Props.HeaderText
import Verif.Props.Init
import Verif.Props.Laws
import Verif.Props.LeafText
import Verif.Props.Limits
import Verif.Props.LimitsTraits
import Verif.Props.LiteralExact
import Verif.Props.Literals
import Verif.Props.MixedExact
import Verif.Props.MixedLimits
import Verif.Props.MixedNumber
import Verif.Props.Modular
import Verif.Props.Narrow
import Verif.Props.NarrowMore
import Verif.Props.Numeric
import Verif.Props.Order
import Verif.Props.Overload
import Verif.Props.Parse
import Verif.Props.ParseMore
import Verif.Props.Parts
import Verif.Props.Policies
import Verif.Props.Policy
import Verif.Props.PolicyState
import Verif.Props.Pow
import Verif.Props.PowCost
import Verif.Props.Program
import Verif.Props.ProgramBounds
import Verif.Props.ProgramSign
import Verif.Props.Range
import Verif.Props.ReadLoop
import Verif.Props.Reduce
import Verif.Props.ReduceAny
import Verif.Props.Reference
import Verif.Props.Resist
import Verif.Props.RoundExact
import Verif.Props.Rounding
import Verif.Props.ScanText
import Verif.Props.Silent
import Verif.Props.Source
import Verif.Props.StaticAssert
import Verif.Props.Stopwatch
import Verif.Props.Stream
import Verif.Props.StreamChar
import Verif.Props.StreamExcept
import Verif.Props.StreamFmt
import Verif.Props.StreamIn
import Verif.Props.StreamLocale
import Verif.Props.StreamMore
import Verif.Props.StreamOut
import Verif.Props.StreamProgram
import Verif.Props.StreamRead
import Verif.Props.StreamText
import Verif.Props.TextVerdicts
import Verif.Props.TimeBounds
import Verif.Props.TimeExpr
import Verif.Props.TimeProgram
import Verif.Props.TypedBounds
import Verif.Props.TypedProgram
import Verif.Props.TypedSign
import Verif.Props.TypedWiden
import Verif.Props.UndefinedExact
import Verif.Props.UserCode
import Verif.Props.UserFit
import Verif.Props.UserProgram
import Verif.Props.UserTypes
import Verif.Props.Widen
import Verif.Tests.Basic
import Verif.Tests.Chrono
import Verif.Tests.FloatingPoint
import Verif.Tests.Fraction
import Verif.Tests.FractionLiterals
import Verif.Tests.FractionMath
import Verif.Tests.FractionQueries
import Verif.Tests.Machine
import Verif.Tests.MathUtilities
import Verif.Tests.MixedNumber
import Verif.Tests.Ops
import Verif.Tests.RawFractionMath
import Verif.Tests.RawFractionQueries
import Verif.Tests.Readme
