import Verif.Spec.Accepted
import Verif.Spec.AddRight
import Verif.Spec.Amount
import Verif.Spec.Calendar
import Verif.Spec.Chain
import Verif.Spec.ChronoRange
import Verif.Spec.Context
import Verif.Spec.Cursor
import Verif.Spec.Cycle
import Verif.Spec.Ending
import Verif.Spec.Errors
import Verif.Spec.EveryKth
import Verif.Spec.Fits
import Verif.Spec.Forms
import Verif.Spec.Fraction
import Verif.Spec.FromSource
import Verif.Spec.Grammar
import Verif.Spec.Joined
import Verif.Spec.Kind
import Verif.Spec.LateBack
import Verif.Spec.LateBy
import Verif.Spec.Length
import Verif.Spec.Meaning
import Verif.Spec.MonthDays
import Verif.Spec.MovedPipeline
import Verif.Spec.Moves
import Verif.Spec.NegRight
import Verif.Spec.OwnTests
import Verif.Spec.Part
import Verif.Spec.Pipeline
import Verif.Spec.PipelineText
import Verif.Spec.Program
import Verif.Spec.Reader
import Verif.Spec.Reference
import Verif.Spec.Respaced
import Verif.Spec.Resumed
import Verif.Spec.Sequence
import Verif.Spec.Shape
import Verif.Spec.Simplify
import Verif.Spec.Steps
import Verif.Spec.SubRight
import Verif.Spec.Text
import Verif.Spec.Tick
import Verif.Spec.Total
import Verif.Spec.Tree
import Verif.Spec.Utf8
import Verif.Spec.Valid
import Verif.Spec.Walk
import Verif.Spec.WorkDays
import Verif.Spec.Yields
import Verif.Model.Api
import Verif.Model.Base
import Verif.Model.Calls
import Verif.Model.Chrono
import Verif.Model.Display
import Verif.Model.Indicator
import Verif.Model.Iter
import Verif.Model.IterTraced
import Verif.Model.Main
import Verif.Model.Nom
import Verif.Model.NomCounted
import Verif.Model.ParserCounted
import Verif.Model.ParserIterator
import Verif.Model.ParserTimeType
import Verif.Model.Rounds
import Verif.Model.TimeType
import Verif.Model.Traced
import Verif.Model.Util
import Verif.Lemmas.AdaptorOrder
import Verif.Lemmas.Adaptors
import Verif.Lemmas.AdjustAdd
import Verif.Lemmas.AllYears
import Verif.Lemmas.Amount
import Verif.Lemmas.AmountExact
import Verif.Lemmas.AmountIff
import Verif.Lemmas.Arith
import Verif.Lemmas.Birthday
import Verif.Lemmas.CalExists
import Verif.Lemmas.Calendar
import Verif.Lemmas.Calls
import Verif.Lemmas.ChronoRange
import Verif.Lemmas.CodeDate
import Verif.Lemmas.Conv
import Verif.Lemmas.Cycle
import Verif.Lemmas.Display
import Verif.Lemmas.EndOf
import Verif.Lemmas.ErrorOperands
import Verif.Lemmas.ErrorText
import Verif.Lemmas.Errors
import Verif.Lemmas.Eval
import Verif.Lemmas.EvalEqs
import Verif.Lemmas.FilterAll
import Verif.Lemmas.Fraction
import Verif.Lemmas.Friday13
import Verif.Lemmas.HowFar
import Verif.Lemmas.Iter
import Verif.Lemmas.Joined
import Verif.Lemmas.Kinds
import Verif.Lemmas.Loops
import Verif.Lemmas.Meaning
import Verif.Lemmas.MomentAdd
import Verif.Lemmas.MomentSub
import Verif.Lemmas.MonthAdd
import Verif.Lemmas.Negative
import Verif.Lemmas.NegativeFull
import Verif.Lemmas.NegativeIff
import Verif.Lemmas.NoPanic
import Verif.Lemmas.Operands
import Verif.Lemmas.Order
import Verif.Lemmas.PanicIff
import Verif.Lemmas.ParseDepth
import Verif.Lemmas.Parser
import Verif.Lemmas.ParserCounted
import Verif.Lemmas.ParserIter
import Verif.Lemmas.ParserParse
import Verif.Lemmas.ParserSafe
import Verif.Lemmas.ParserSound
import Verif.Lemmas.ParserValue
import Verif.Lemmas.Periodic
import Verif.Lemmas.Pipeline
import Verif.Lemmas.Printed
import Verif.Lemmas.Profile
import Verif.Lemmas.ProfileIter
import Verif.Lemmas.Reader
import Verif.Lemmas.Reference
import Verif.Lemmas.Respaced
import Verif.Lemmas.RespacedSample
import Verif.Lemmas.ResumeChain
import Verif.Lemmas.Rounds
import Verif.Lemmas.Safe
import Verif.Lemmas.Samples
import Verif.Lemmas.ShortNumbers
import Verif.Lemmas.Simplify
import Verif.Lemmas.SourceChain
import Verif.Lemmas.SubExact
import Verif.Lemmas.SubFar
import Verif.Lemmas.SubRight
import Verif.Lemmas.SubSteps
import Verif.Lemmas.Traced
import Verif.Lemmas.Utf8
import Verif.Lemmas.Valid
import Verif.Lemmas.WorkDays
import Verif.Props.Acceptance
import Verif.Props.AdaptorOrder
import Verif.Props.Adaptors
import Verif.Props.Adding
import Verif.Props.AllAmounts
import Verif.Props.AllYears
import Verif.Props.AmountEdge
import Verif.Props.Api
import Verif.Props.BackAgain
import Verif.Props.BackMonths
import Verif.Props.Backwards
import Verif.Props.Birthday
import Verif.Props.Bytes
import Verif.Props.ChronoRange
import Verif.Props.Clock
import Verif.Props.Commute
import Verif.Props.Comparing
import Verif.Props.Cost
import Verif.Props.Counts
import Verif.Props.Cursor
import Verif.Props.CursorExact
import Verif.Props.Cycle
import Verif.Props.DateForms
import Verif.Props.DayOrder
import Verif.Props.DaysOfMonth
import Verif.Props.Difference
import Verif.Props.DocumentedUnits
import Verif.Props.Drift
import Verif.Props.Edge
import Verif.Props.EdgeBack
import Verif.Props.Effort
import Verif.Props.EndOf
import Verif.Props.EndToEnd
import Verif.Props.Ended
import Verif.Props.Ending
import Verif.Props.Equivalent
import Verif.Props.Errors
import Verif.Props.Evaluation
import Verif.Props.EveryKth
import Verif.Props.EveryKthLate
import Verif.Props.FilterOrStep
import Verif.Props.Filtered
import Verif.Props.FindAll
import Verif.Props.FindBetween
import Verif.Props.FirstError
import Verif.Props.Forever
import Verif.Props.Forms
import Verif.Props.Fraction
import Verif.Props.Friday13
import Verif.Props.FromSource
import Verif.Props.Grouping
import Verif.Props.GroupingExact
import Verif.Props.HowFar
import Verif.Props.HowOften
import Verif.Props.IterOps
import Verif.Props.IterOverflow
import Verif.Props.Iterators
import Verif.Props.JoinedTexts
import Verif.Props.KeepOrder
import Verif.Props.KeepOrderBack
import Verif.Props.Kinds
import Verif.Props.LanguageDoc
import Verif.Props.LastWeekday
import Verif.Props.Latching
import Verif.Props.LateBack
import Verif.Props.LateBy
import Verif.Props.LateDays
import Verif.Props.LateMonths
import Verif.Props.Laws
import Verif.Props.LeadingBlanks
import Verif.Props.LongSteps
import Verif.Props.Loops
import Verif.Props.Monotone
import Verif.Props.MonthDays
import Verif.Props.MonthEnds
import Verif.Props.MonthsAgain
import Verif.Props.MonthsGrouping
import Verif.Props.MovedPipeline
import Verif.Props.Moves
import Verif.Props.NegEvery
import Verif.Props.NextPeriod
import Verif.Props.NextPeriodIff
import Verif.Props.NoCarry
import Verif.Props.NthWeekday
import Verif.Props.OneReading
import Verif.Props.Order
import Verif.Props.Overflow
import Verif.Props.OwnTests
import Verif.Props.ParseDepth
import Verif.Props.Parsed
import Verif.Props.ParserAmounts
import Verif.Props.ParserDates
import Verif.Props.Parts
import Verif.Props.Periods
import Verif.Props.Pipeline
import Verif.Props.PipelineText
import Verif.Props.Printed
import Verif.Props.Profiles
import Verif.Props.ProfilesAll
import Verif.Props.Program
import Verif.Props.ProgramLines
import Verif.Props.Ranges
import Verif.Props.Reach
import Verif.Props.ReadBack
import Verif.Props.Reading
import Verif.Props.ReadingTime
import Verif.Props.Readme
import Verif.Props.Reference
import Verif.Props.ReferenceItems
import Verif.Props.Respaced
import Verif.Props.Resume
import Verif.Props.ResumeChain
import Verif.Props.Rollback
import Verif.Props.RoundTrip
import Verif.Props.Rounds
import Verif.Props.Safety
import Verif.Props.SameLength
import Verif.Props.SamePeriod
import Verif.Props.SameSteps
import Verif.Props.SameStepsIff
import Verif.Props.SideBySide
import Verif.Props.Signs
import Verif.Props.Simplify
import Verif.Props.SmallerUnits
import Verif.Props.Stacking
import Verif.Props.SubGrouping
import Verif.Props.Subtracting
import Verif.Props.TextBuilt
import Verif.Props.TextMonths
import Verif.Props.Texts
import Verif.Props.TimesOfWeekday
import Verif.Props.Unread
import Verif.Props.Values
import Verif.Props.Walk
import Verif.Props.Weekdays
import Verif.Props.Weeks
import Verif.Props.WeeksAll
import Verif.Props.WholeProgram
import Verif.Props.Work
import Verif.Props.WorkCount
import Verif.Props.WorkDays
import Verif.Props.WorkDaysBack
import Verif.Props.Wrapping
import Verif.Props.YearsAgain
import Verif.Source.Adaptors
import Verif.Source.AgreeIter
import Verif.Source.AgreeIterBuild
import Verif.Source.AgreeMain
import Verif.Source.AgreeParser
import Verif.Source.AgreeText
import Verif.Source.AgreeTimeType
import Verif.Source.AgreeUtil
import Verif.Source.Filter
import Verif.Source.Indicator
import Verif.Source.Iter
import Verif.Source.IterBuild
import Verif.Source.Main
import Verif.Source.Matcher
import Verif.Source.Parser
import Verif.Source.Rust
import Verif.Source.RustIter
import Verif.Source.RustMain
import Verif.Source.RustParser
import Verif.Source.Text
import Verif.Source.TimeType
import Verif.Source.Util
import Verif.Tests.Iter
import Verif.Tests.Parser
import Verif.Tests.TimeType
import Verif.Tests.Util
