import Verif.Rust
import Verif.Spec.Calendar
import Verif.Spec.Clock
import Verif.Model.Calendar
import Verif.Model.PgTime
import Verif.Model.Types
import Verif.Lemmas.Calendar
import Verif.Lemmas.Julian
import Verif.Lemmas.DayNumber
import Verif.Lemmas.Timestamp
import Verif.Lemmas.Date
import Verif.Props.Dates
import Verif.Props.Timestamps
import Verif.Spec.Interval
import Verif.Lemmas.JulianWide
import Verif.Lemmas.TsArith
import Verif.Props.Intervals
import Verif.Props.TimestampArith
import Verif.Props.Times
import Verif.Spec.Units
import Verif.Lemmas.Trunc
import Verif.Spec.IsoWeek
import Verif.Lemmas.IsoWeek
import Verif.Props.Truncate
import Verif.Lemmas.IntervalFields
import Verif.Props.TruncateTypes
import Verif.Lemmas.Age
import Verif.Props.Age
import Verif.Model.F64
import Verif.Lemmas.F64
import Verif.Model.DatePart
import Verif.Spec.Fields
import Verif.Props.DateParts
import Verif.Model.Construct
import Verif.Lemmas.F64Micro
import Verif.Spec.Seconds
import Verif.Props.Construct
import Verif.Props.IntervalParts
import Verif.Lemmas.Scale
import Verif.Props.Scale
import Verif.Model.Bytes
import Verif.Model.Styles
import Verif.Model.Format
import Verif.Spec.Text
import Verif.Spec.DateText
import Verif.Lemmas.Format
import Verif.Lemmas.FormatTypes
import Verif.Props.Format
import Verif.Spec.IntervalText
import Verif.Lemmas.FormatInterval
import Verif.Props.IntervalText
import Verif.Model.Token
import Verif.Model.Scan
import Verif.Model.Decode
import Verif.Model.DecodeInterval
import Verif.Model.Parse
import Verif.Lemmas.Token
import Verif.Lemmas.St
import Verif.Lemmas.CacheSim
import Verif.Spec.Keywords
import Verif.Props.Keywords
import Verif.Lemmas.Lists
import Verif.Lemmas.Scan
import Verif.Props.Scan
import Verif.Lemmas.Number
import Verif.Lemmas.ClockParse
import Verif.Lemmas.ParseRun
import Verif.Spec.ClockInput
import Verif.Lemmas.TimeOnly
import Verif.Props.ClockInput
import Verif.Lemmas.ScanText
import Verif.Spec.DateInput
import Verif.Lemmas.DateParse
import Verif.Lemmas.DateFields
import Verif.Lemmas.DateInput
import Verif.Lemmas.DateBack
import Verif.Props.DateInput
import Verif.Lemmas.StampBack
import Verif.Props.StampInput
import Verif.Props.Infinity
import Verif.Lemmas.IntervalRead
import Verif.Lemmas.IntervalPieces
import Verif.Lemmas.IntervalPg
import Verif.Lemmas.IntervalSql
import Verif.Lemmas.IntervalVerbose
import Verif.Lemmas.IntervalIso
import Verif.Props.IntervalInput
import Verif.Model.Serde
import Verif.Props.Serde
import Verif.Props.SerdeText
import Verif.Props.ParsedRange
import Verif.Lemmas.NoPanic
import Verif.Lemmas.NoPanicInterval
import Verif.Props.NoPanic
import Verif.Lemmas.F64Parts
import Verif.Props.MoreParts
import Verif.Props.MixedArith
import Verif.Props.Texts
import Verif.Props.Meridiem
import Verif.Props.Forms
import Verif.Props.Quantities
import Verif.Props.PrecisionInput
import Verif.Props.FieldRange
import Verif.Props.MonthNames
import Verif.Props.Labels
import Verif.Props.YearDay
import Verif.Props.Fractions
import Verif.Props.Parts
import Verif.Props.IsoInterval
import Verif.Props.Twice
import Verif.Props.Vocabulary
import Verif.Props.OneSign
import Verif.Props.LabelClock
import Verif.Props.JulianFrac
import Verif.Props.Special
import Verif.Props.Sorted
import Verif.Props.Steps
import Verif.Props.TimeDay
import Verif.Props.SpanOrder
import Verif.Props.StampParts
import Verif.Props.Agree
import Verif.Props.InputStyle
import Verif.Props.Orders
import Verif.Props.InputRange
import Verif.Props.NoPanicDebug
import Verif.Props.NoPanicInterval
import Verif.Props.NoPanicCalc
import Verif.Props.NoPanicExact
import Verif.Props.TruncShift
import Verif.Props.Reach
import Verif.Props.SqlLiteral
import Verif.Props.TruncFields
import Verif.Props.TruncWeek
import Verif.Props.NoPanicScale
import Verif.Props.ErrKinds
import Verif.Props.Builds
import Verif.Props.AgeBack
import Verif.Props.SerdeRange
import Verif.Props.ExactWraps
import Verif.Props.FieldOrder
import Verif.Props.Pair
import Verif.Props.BadClock
import Verif.Props.FirstDate
import Verif.Props.Shuffle
import Verif.Props.Unambiguous
import Verif.Props.Replace
import Verif.Props.Redate
import Verif.Props.Infinite
import Verif.Props.Concat
import Verif.Props.Rounds
import Verif.Props.Ago
import Verif.Props.ClockValue
import Verif.Props.Ornament
import Verif.Props.ScaleSigns
import Verif.Props.Opposite
import Verif.Props.DayClock
import Verif.Props.OneNumber
import Verif.Props.Synonym
import Verif.Props.MonthSteps
import Verif.Props.Junk
import Verif.Props.Conversion
import Verif.Props.IsoYear
import Verif.Props.CutOff
import Verif.Props.Filled
import Verif.Props.OtherDay
import Verif.Props.NoClock
import Verif.Props.NoNumber
import Verif.Props.ZeroSpan
import Verif.Tests.RepoVectors
