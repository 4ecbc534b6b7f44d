import Verif.Go.Civil
import Verif.Go.Time
import Verif.Go.TimeParse
import Verif.Go.Strings
import Verif.Model.Setting
import Verif.Model.DateUtil
import Verif.Model.Tokenizer
import Verif.Model.Common
import Verif.Model.Strutil
import Verif.Model.Absolute
import Verif.Lemmas.Calendar
import Verif.Lemmas.Tokenizer
import Verif.Lemmas.Spaces
import Verif.Lemmas.PartValue
import Verif.Lemmas.Phrase
import Verif.Lemmas.Absolute
import Verif.Lemmas.Text
import Verif.Lemmas.Steps
import Verif.Lemmas.Names
import Verif.Spec.Calendar
import Verif.Spec.Text
import Verif.Props.Calendar
import Verif.Props.Text
import Verif.Props.Numeric
import Verif.Props.MonthName
import Verif.Props.Weekday
import Verif.Lemmas.Invariant
import Verif.Lemmas.Frames
import Verif.Lemmas.ClockText
import Verif.Spec.Clock
import Verif.Props.Frames
import Verif.Props.MonthDay
import Verif.Props.TwoDigitYear
import Verif.Props.TimeOfDay
import Verif.Lemmas.WithTime
import Verif.Props.TimeOnly
import Verif.Props.DateTime
import Verif.Props.Missing
import Verif.Props.MonthOnly
import Verif.Props.Strict
import Verif.Go.Regexp
import Verif.Model.Timestamp
import Verif.Props.Timestamp
import Verif.Model.Nospace
import Verif.Spec.Nospace
import Verif.Lemmas.Nospace
import Verif.Props.Nospace
import Verif.Go.Float
import Verif.Model.Relative
import Verif.Spec.Relative
import Verif.Lemmas.Rx
import Verif.Lemmas.Relative
import Verif.Lemmas.RelWords
import Verif.Lemmas.Float
import Verif.Lemmas.RelPhrase
import Verif.Lemmas.RelMap
import Verif.Lemmas.RelMove
import Verif.Props.Relative
import Verif.Props.RelativeTime
import Verif.Data.Locales
import Verif.Model.Loader
import Verif.Spec.Loader
import Verif.Props.LocaleTables
import Verif.Props.Loader
import Verif.Props.LocaleOrder
import Verif.Model.Parser
import Verif.Spec.Parser
import Verif.Lemmas.Parser
import Verif.Props.Parser
import Verif.Props.Config
import Verif.Model.Memory
import Verif.Props.Memory
import Verif.Model.Concurrent
import Verif.Spec.Concurrent
import Verif.Props.Concurrent
import Verif.Props.Timezone
import Verif.Model.Digit
import Verif.Spec.Digit
import Verif.Props.Digit
import Verif.Model.Permutation
import Verif.Spec.Permutation
import Verif.Props.Permutation
import Verif.Model.Search
import Verif.Spec.Search
import Verif.Lemmas.Search
import Verif.Props.SharedChain
import Verif.Props.Search
import Verif.Props.SearchExact
import Verif.Props.KnownWords
import Verif.Props.SearchText
import Verif.Lemmas.Related
import Verif.Lemmas.RelLanguage
import Verif.Lemmas.NoZone
import Verif.Model.Whole
import Verif.Spec.Whole
import Verif.Lemmas.Whole
import Verif.Lemmas.WholeParse
import Verif.Lemmas.Tags
import Verif.Lemmas.EnNumeric
import Verif.Lemmas.EnMonth
import Verif.Lemmas.EnMonthDayFirst
import Verif.Lemmas.EnMonthComma
import Verif.Lemmas.EnMonthPlain
import Verif.Spec.Demo
import Verif.Props.English
import Verif.Lemmas.EnRel
import Verif.Lemmas.EnRelAgo
import Verif.Lemmas.EnRelIn
import Verif.Lemmas.EnRelLater
import Verif.Lemmas.EnRelWords
import Verif.Props.EnglishRelative
import Verif.Props.EnglishIncomplete
import Verif.Spec.Iso
import Verif.Lemmas.IsoText
import Verif.Lemmas.IsoOffset
import Verif.Props.Iso
import Verif.Lemmas.Refuse
import Verif.Spec.Regional
import Verif.Props.Regional
import Verif.Model.Calendars
import Verif.Spec.Calendars
import Verif.Spec.DemoCalendars
import Verif.Lemmas.CalParse
import Verif.Lemmas.CalText
import Verif.Lemmas.CalDate
import Verif.Lemmas.CalWhole
import Verif.Props.Calendars
import Verif.Props.Formatted
import Verif.Props.FormattedCases
import Verif.Lemmas.Fraction
import Verif.Lemmas.Fraction2
import Verif.Lemmas.Fraction3
import Verif.Lemmas.Fraction4
import Verif.Lemmas.Fraction5
import Verif.Spec.Fraction
import Verif.Props.Fraction
import Verif.Model.Detector
import Verif.Data.Charsets
import Verif.Spec.Detect
import Verif.Lemmas.Detect
import Verif.Props.Detect
import Verif.Props.DetectCases
import Verif.Model.SearchWhole
import Verif.Spec.SearchEnglish
import Verif.Lemmas.Runs
import Verif.Lemmas.SearchSentences
import Verif.Lemmas.SearchChunks
import Verif.Lemmas.SearchWords
import Verif.Lemmas.SearchPieces
import Verif.Lemmas.SearchFound
import Verif.Lemmas.SearchParse
import Verif.Lemmas.SearchZone
import Verif.Props.SearchEnglish
import Verif.Props.SearchEnglishCases
import Verif.Data.Pats
import Verif.Model.Checked
import Verif.Lemmas.Total
import Verif.Lemmas.Checked
import Verif.Spec.Total
import Verif.Props.Total
import Verif.Spec.SearchSettings
import Verif.Props.SearchSettings
import Verif.Spec.Locales
import Verif.Spec.Merge
import Verif.Lemmas.Reduce
import Verif.Lemmas.OrderOnly
import Verif.Lemmas.LocaleLoad
import Verif.Lemmas.Everywhere
import Verif.Lemmas.NumericClasses
import Verif.Props.Locales
import Verif.Props.Merge
import Verif.Props.SearchSpaces
import Verif.Spec.Words
import Verif.Lemmas.WordClean
import Verif.Lemmas.WordFrame
import Verif.Lemmas.WordMonths
import Verif.Lemmas.WordMonths1
import Verif.Lemmas.WordMonths10
import Verif.Lemmas.WordMonths11
import Verif.Lemmas.WordMonths12
import Verif.Lemmas.WordMonths2
import Verif.Lemmas.WordMonths3
import Verif.Lemmas.WordMonths4
import Verif.Lemmas.WordMonths5
import Verif.Lemmas.WordMonths6
import Verif.Lemmas.WordMonths7
import Verif.Lemmas.WordMonths8
import Verif.Lemmas.WordMonths9
import Verif.Lemmas.WordOut
import Verif.Lemmas.WordPass
import Verif.Lemmas.WordReach
import Verif.Lemmas.WordSplit
import Verif.Lemmas.WordTables
import Verif.Lemmas.WordTokens
import Verif.Props.Words
import Verif.Props.WordCases
import Verif.Props.CalendarLeap
import Verif.Props.CalendarYears
import Verif.Lemmas.CalTime
import Verif.Lemmas.CalTimePass
import Verif.Lemmas.CalZonePass
import Verif.Props.CalendarTimes
import Verif.Props.CalendarZones
import Verif.Props.CalendarWords
import Verif.Props.CalendarClock
import Verif.Lemmas.Tags2
import Verif.Lemmas.NumericTimes
import Verif.Lemmas.NumericTimesSlash0
import Verif.Lemmas.NumericTimesSlash1
import Verif.Lemmas.NumericTimesSlash2
import Verif.Lemmas.NumericTimesDot0
import Verif.Lemmas.NumericTimesDot1
import Verif.Lemmas.NumericTimesDot2
import Verif.Lemmas.NumericTimesDash0
import Verif.Lemmas.IsoClasses
import Verif.Props.LocaleTimes
import Verif.Props.LocaleIso
import Verif.Props.RelativeWords
import Verif.Model.Api
import Verif.Spec.Api
import Verif.Lemmas.SearchSim
import Verif.Props.Api
import Verif.Lemmas.WordTimed
import Verif.Props.WordTimes
import Verif.Spec.OneByOne
import Verif.Props.OneByOne
import Verif.Spec.Sound
import Verif.Lemmas.Sound
import Verif.Props.Sound
import Verif.Spec.ClockWords
import Verif.Lemmas.ClockSound
import Verif.Props.ClockSound
import Verif.Spec.RelativeSound
import Verif.Lemmas.RelSound
import Verif.Props.RelativeSound
import Verif.Spec.EveryWord
import Verif.Lemmas.EveryWord
import Verif.Props.EveryWord
import Verif.Spec.Sources
import Verif.Props.Sources
import Verif.Spec.ResultZone
import Verif.Props.ResultZone
import Verif.Spec.SearchSources
import Verif.Props.SearchSources
