# go-dateparser in Lean 4: design

The code of /repo (markusmobius/go-dateparser, pinned commit) is modelled function by function as total, computable
Lean functions, and the properties of `properties.jsonl` are proved about this model for all inputs.  Nothing of /repo
is run.  This file says what is modelled and how, what is trusted, how each property is proved and what is missing.

## Layout

- `lean/Verif/Go/*` – the parts of Go's standard library the code leans on: proleptic Gregorian calendar (`Civil`),
  `time.Time`, `time.Date`, `Add`, `AddDate`, locations with arbitrary offset changes (`Time`), `time.Parse`
  (`TimeParse`), `Time.Format` (`TimeFormat`), functions of `strings` (`Strings`), regular expressions with Go's
  leftmost-first semantics as a backtracking matcher (`Regexp`), `float64` arithmetic with round-to-nearest-even
  (`Float`).
- `lean/Verif/Model/*` – the model of /repo.  Every definition cites file and lines and states simplifications.
- `lean/Verif/Spec/*` – small specifications that do not mention the model: what a numeric date, a time of day, a
  relative phrase, a zone in a text, a linearisation of calls, ... is.  `Spec/Demo*` are concrete environments used to
  show that hypotheses can be met.
- `lean/Verif/Lemmas/*` – proofs.
- `lean/Verif/Props/*` – the theorems of the properties, named `Cnn_...`, and beside each an `example` meeting its
  hypotheses.  Theorems with suffix `_partial` prove only part of a property.
- `lean/Verif/Data/*` – tables generated from /repo by `tools/gen_*.py`.
- `tools/manifest.py` writes `MANIFEST.json` from the theorem names and `tools/notes.json`; `tools/design.py` writes
  this file.

## Modelling conventions

- A Go string is the list of its characters (`List Char`): inputs are valid UTF-8.  Byte offsets become character
  positions, which keep their order; where the code cuts inside a character (PopTzOffset) the model says so explicitly.
- Maps with fixed keys are structures of `Option`s; tables are association lists; random map iteration order is an
  explicit parameter (any permutation), so a theorem holds for every order Go may choose.
- Loops are structural recursion, or recursion with fuel where the fuel is proved never to run out.
- A panic (index out of range, nil dereference, division by zero) is an explicit `none`, or a `Fault` in
  `Model/Checked`, which also has faults for endless loops.
- `int` is unbounded, except for durations, where Go's int64 wrap-around is modelled, because it can be reached.
- `float64` is exact rational arithmetic followed by rounding (Relative), or, for comparing two quotients of small
  integers in `chooseBestSplit`, comparison of fractions.
- A pointer is its value; where aliasing matters (C25) there is a separate memory model (`Model/Memory`), and where
  concurrency matters (C34) a small-step model (`Model/Concurrent`).
- `time.Now()` and `time.Local` are parameters; time zones are arbitrary functions from instants to offsets (`Loc`).

## What is modelled

| /repo | model |
|---|---|
| root.go, parser.go, config.go, date/date.go | `Model/Parser`, `Model/Whole`, `Model/Setting`, `Model/Memory`, `Model/Concurrent` |
| search.go | `Model/Search`, `Model/Language` (`searchWithLanguage`), `Model/Detector` |
| jalali-parser.go, hijri-parser.go | `Model/Calendars` |
| internal/dateutil, internal/digit, internal/strutil, internal/setting | `Model/DateUtil`, `Model/Digit`, `Model/Strutil`, `Model/Setting` |
| internal/parser/absolute, common, tokenizer | `Model/Absolute`, `Model/Common`, `Model/Tokenizer` |
| internal/parser/relative, nospace, timestamp, formatted | `Model/Relative`, `Model/Nospace`, `Model/Timestamp`, `Model/Formatted` |
| internal/parser/jalali, hijri | `Model/Calendars` |
| internal/timezone | `Model/Timezone`, `Data/Timezones` |
| internal/language | `Model/Loader`, `Model/Language`, `Model/Pattern`, `Model/Permutation`, `Model/Detector`, `Model/Checked` |
| internal/data (merge, locale order, language order, date orders, and words, patterns and dictionaries of all 504 locales) | `Data/*`, `Model/Language` |

## What is not modelled

- internal/regexp (a choice between Go's `regexp` and a re2 binding): both are taken to match as Go's documentation says.
- The calendar libraries go-jalaali and go-hijri: parameters of `Model/Calendars`.
- golang.org/x/text/transform: as a function (`Uni.nfkc`), but for C54, where its chain object is modelled from its published
  source.
- Unicode: case mapping, NFKD decomposition and classification are the parameter `Uni` (with the facts that are needed
  about ASCII as hypotheses, all satisfied by `Spec/Demo`).
- `time.LoadLocation` (the IANA data base on the machine): a parameter.
- scripts/* and data-supplementary (they generate internal/data) and all test files.
- Memory exhaustion and running time.

## Trusted base

- Lean 4.33.0's kernel.  Axioms: only `propext`, `Classical.choice`, `Quot.sound` (checked with `#print axioms` over all
  theorems of `Props`); none of our own, no compiled evaluation: tables are checked with `decide +kernel`.
- That the model mirrors the code: read by hand, function by function, with line citations.
- That `Verif/Go/*` mirrors Go 1.24's standard library (including that time.Parse's special path for RFC 3339 gives what
  its general path gives).
- That `tools/gen_*.py` copy the tables of /repo correctly.
- That the specifications say what the English says.

## How the theorems are tested

Wrong programs: each entry of `seeded/LOG.jsonl` is one edit of the model in a scratch copy (wrong boundary, missed
case, swapped argument, dropped update), the claim it breaks and the theorems that then fail.

## The properties

**C01 Calendar arithmetic is exact** – proved, 7 theorems in Props/{Calendar}.  
Model and proof: civil calendar (days from civil and back), dateutil; closed forms with omega, round trip both ways, successor-date specification.  
Calendar arithmetic of the model of Go's time package and of dateutil, all years, all fixed-offset zones (zones with jumps: at wall clocks without a jump).

**C02 Nearest leap year is found and the search stops** – proved, 4 theorems in Props/{Calendar}.  
Model and proof: GetLeapYear's loop with fuel; a lemma that leap years are at most 8 years apart shows that the fuel never runs out.  
For every year; the loop is shown to stop within 8 steps.

**C03 A complete numeric date means exactly that date** – proved, 8 theorems in Props/{Numeric}.  
Model and proof: tokenizer, absolute Init/Parse and time.Parse run symbolically on a token list with arbitrary digits; digit-value lemmas.  
All six orders, all separators, all configurations; years from 2 on. C03_year_zero/one and C03_mixed_period show the bounds are needed (findings).

**C04 A named month is never taken for anything else** – proved, 2 theorems in Props/{MonthName}.  
Model and proof: the same with month names; the order of the letter directives is an arbitrary permutation; finite case analysis over the name table, lifted over letter case.  
All six written orders against all six configured orders, any letter case, any separators.

**C05 Weekday-only strings pick the right neighbouring day** – proved, 2 theorems in Props/{Weekday}.  
Model and proof: weekday block of correctForTimeFrame; modular arithmetic on day numbers.  
Non-strict, no RequiredParts (a lone weekday has no day, month, year).

**C06 Month without year follows PreferredDateSource** – proved, 5 theorems in Props/{MonthDay}.  
Model and proof: correctForTimeFrame; order of civil dates against instants in fixed-offset zones.  
Year choice and sides proved for strings with day and month (any now, any fixed zone). C06_month_only_wrong_side is a finding: with the day filled in from PreferredDayOfMonth after the year was chosen, the result can be on the wrong side; C06_two_digits_taken_as_year another one.

**C07 Two digit years follow PreferredDateSource** – proved, 5 theorems in Props/{TwoDigitYear}.  
Model and proof: two digit years of time.Parse and correctForTimeFrame; same method.  
All six orders. C07_exception: 29/02/00 is the only date that moves out of its day (C07_only_exception).

**C08 Time-only strings follow PreferredDateSource** – partial, 4 theorems in Props/{TimeOnly}.  
Model and proof: time-only branch of correctForTimeFrame.  
Proved while the one-day move stays in the current month and PreferredMonthOfYear is the current month; the full statement is false of the code across a month end and with first/last month (C08_month_boundary, C08_first_month). Fractions are cut to six digits.

**C09 Missing day and month are filled as configured** – proved, 8 theorems in Props/{Missing, MonthOnly}.  
Model and proof: ApplyDayFromConfig, ApplyMonthFromConfig; calendar lemmas.  
For every string where the parts are found, and for the written forms (month+year, year, month). Exceptions are findings: C09_february_on_the_29th, C09_february_future, C09_time_hides_preference.

**C10 Period tells the finest given date part** – proved, 1 theorems in Props/{Strict}.  
Model and proof: absolute Parse; invariant over the token loop of Init (each part set has a token).  
Every string that is understood; every part found has a word of the text that stands for it (stated over the words of the text).

**C11 StrictParsing and RequiredParts are honoured** – partial, 7 theorems in Props/{Strict}.  
Model and proof: strict check of absolute Parse on top of the invariant of C10.  
Every asked-for part has a word of the text that stands for it; incomplete dates of the usual forms are refused. That the words are three different ones is false of the code (C11_two_words, C59_one_word); C59_words gives the exact cases.

**C12 Tokenizing loses nothing** – proved, 3 theorems in Props/{Text}.  
Model and proof: tokenizer loop; list induction.  
All strings.

**C13 Timestamps are exact** – proved, 5 theorems in Props/{Timestamp}.  
Model and proof: timestamp parser; digit list lemmas, regular expressions as predicates.  
All strings, both parsers, any local zone. C13_only / C13_negative_only: nothing else is accepted. C13_negative_millis is a finding: the fraction of a negative timestamp is added instead of subtracted.

**C14 No-space dates use all digits once and are real dates** – proved, 3 theorems in Props/{Nospace}.  
Model and proof: no-space parser; the candidate formats as mixed-radix enumeration; invariant of the loop.  
All strings with a DateOrder; computer clock between 2001 and 2999. C14_strict is a finding: under StrictParsing nothing is found.

**C15 Eight digit dates in the configured order** – proved, 4 theorems in Props/{Nospace}.  
Model and proof: no-space parser on eight digits; format table by kernel computation, digits symbolic.  
All orders but MDY in full; for MDY C15_mdy says when it holds and C15_mdy_misread (finding) what happens otherwise: 12251999 is taken as 1225-01-09 09:09. C15_no_order: without a DateOrder.

**C16 Relative dates: direction and amount** – proved, 4 theorems in Props/{Relative, RelativeTime}.  
Model and proof: relative parser with its regular expressions; matcher lemmas on phrases with arbitrary digits, arithmetic.  
Relative date phrases ([in] N unit {sep N unit} [ago] with any separators) with whole amounts: exact moment, direction and period. C16_exact: exact number of seconds in a fixed zone. C16_with_time: with a time of day behind the phrase (all notations of C37) the day reached at that time, period the finer of both; C16_comma: a comma between amounts makes the time behind be ignored. Time zone splitting is a parameter (popTz leaves the phrase unchanged); repeated units are outside these theorems.

**C17 Relative dates: end of month** – proved, 2 theorems in Props/{Relative}.  
Model and proof: AddDate and the end-of-month correction; calendar arithmetic.  
Month arithmetic exact; day cut (PreserveEndOfMonth) or run on (without).

**C18 Relative durations do not wrap around** – partial, 4 theorems in Props/{Fraction, Relative}.  
Model and proof: int64 durations with wrap-around made explicit.  
The claim as stated is false (C18_overflow, C18_overflow_past: int64 overflow). Proved within range: never on the wrong side.

**C19 Fractional durations** – proved, 4 theorems in Props/{Fraction}.  
Model and proof: the float64 computation as rational arithmetic with an error bound for every operation.  
C19_fraction: the whole computation in float64 (parsing, decade/week merge, cascaded splitting, additions) with its rounding errors, for every phrase with amounts < 100000; C19_length: exact number of seconds in a zone of one offset; C19_whole; finding: 2.3 hours ago is 2:17:59 (C19_second_lost).

**C20 Time zone abbreviations** – proved, 7 theorems in Props/{Timezone}.  
Model and proof: PopTzOffset over the generated table in every iteration order; matcher lemmas for the zone patterns.  
For every table Go's random map iteration can produce: what is taken is a zone that can be seen in the text (specification: Spec/Timezone), with its offset and leaving the text without it; if none can be seen the text is unchanged; a plain offset, or a known abbreviation in any letter case, at the end of a text without other letters is always taken. Findings proved: what is left ('10:00 UTC+0530') and even the offset (two offsets in one text) depend on the random map order; the year of '15-10-1200' is taken for a zone; one byte of a multi-byte character before the zone is kept (U+FFFD).

**C21 Results keep the wall clock when a time zone is attached** – proved, 4 theorems in Props/{Config}.  
Model and proof: applyTimezone over arbitrary locations.  
Named zones and DefaultTimezone of fixed offset, every instant. C21_wrong_offset (finding): with a DefaultTimezone whose offset changes, the offset is looked up at the wrong instant.

**C22 Parsers are tried in the configured order and the first success wins** – proved, 2 theorems in Props/{Parser}.  
Model and proof: parser state machine with the individual parsers as parameters; case analysis of the tries.  
Whatever the individual parsers, the translation and the language check do; every history of calls.

**C23 The result's locale is one that was asked for** – proved, 1 theorems in Props/{Parser}.  
Model and proof: the same; invariant over histories of calls.  
Every history. A result read with the caller's formats has an empty Locale.

**C24 Parse without TryPreviousLocales does not depend on earlier calls** – proved, 2 theorems in Props/{Parser}.  
Model and proof: the same; equality of two histories.  
Every history; the example beside it shows that TryPreviousLocales does depend on history.

**C25 Caller's configuration is not modified** – proved, 3 theorems in Props/{Memory}.  
Model and proof: memory model with slices, capacities and in-place append; frame invariant.  
Heap model with slices, capacities and append in place; the caller's configuration and all arrays it points to have the same contents afterwards; the copy equals the original but for the defaults.

**C26 Configuration validation** – partial, 6 theorems in Props/{Config}.  
Model and proof: validate and validateDateOrder; decision logic.  
Preference ranges and DateOrder proved. The RequiredParts check is inverted in the code (C26_required_parts_refused, C26_required_parts_useless): part of the property is false of the code.

**C27 Languages and locales are loaded exactly as asked** – proved, 4 theorems in Props/{Loader}.  
Model and proof: GetLocales over the generated tables; list induction and kernel computation.  
GetLocales modelled over the full generated tables (504 locales, 205 languages).

**C28 Language order table is a ranking** – proved, 3 theorems in Props/{LocaleTables}.  
Model and proof: kernel computation over the whole generated tables.  
Over the full generated tables.

**C29 Digits of every script are normalised** – partial, 3 theorems in Props/{Digit}.  
Model and proof: digit ranges as a generated table; list induction and kernel computation per range.  
Proved for every string without the 50 characters the code gets wrong (all Unicode 15 and 16 digits); idempotence proved for every string. Finding proved: the mathematical digits other than the bold ones become characters that are not digits (the double-struck zero becomes a colon), because the generated range covers five blocks of ten. Missing: the property itself for those characters, of which it is false.

**C30 White space clean-up** – proved, 4 theorems in Props/{Text}.  
Model and proof: SanitizeSpaces; list induction over runs of white space.  
All strings. Non-breaking spaces are deleted rather than turned into spaces (C30_nbsp_glues).

**C31 Translating alternatives: all combinations in order** – proved, 4 theorems in Props/{Permutation}.  
Model and proof: createPermutation; induction over the words.  
The alternatives are exactly all combinations in order, each once when the alternatives of a word differ; a word without alternatives would be a division by zero.

**C32 Search: substrings and splitting** – proved, 7 theorems in Props/{Search, SearchExact, SearchSpaces, SearchText}.  
Model and proof: sentence splitting and splitBy; list induction.  
Sentences (in Spanish for the texts that do not panic, see C33), candidate pieces (C32_cuts: exactly which), and dates found with their texts. C32_exact: with a given current time, exactly what is found, for every parser whose answers at that time are a function of the text (an invariant of its state may be assumed).

**C33 Search never panics** – partial, 5 theorems in Props/{SearchText}.  
Model and proof: TranslateSearch and search.go with panics as results; invariants, the generated dictionaries for the exceptions.  
C33_supported_partial: 496 of the 504 supported locales, for every parser behaviour and text (468 without condition, Japanese and Chinese among them; the 28 Spanish ones for texts without an opening question or exclamation mark). The full claim is false of the code: C33_spanish_panics (group 1 unset for a leading question mark) and C33_unspaced_panics (one dictionary word in yue, zh-Hans, zh-Hant) prove the panics. Language detection in Search: C47, C52.

**C34 Concurrent use of one Parser** – proved, 4 theorems in Props/{Concurrent}.  
Model and proof: small-step model of calls with a mutex; simulation by atomic calls (linearisability), progress, invariant.  
Any number of calls, every interleaving of steps that each access one field or element of the object; mutual exclusion is derived from the mutex, not assumed. Sequentially consistent memory; panics inside Parse are not modelled.

**C35 Jalali and Hijri dates** – partial, 21 theorems in Props/{CalendarClock, CalendarLeap, CalendarTimes, CalendarWords, CalendarYears, CalendarZones, Calendars}.  
Model and proof: Jalali and Hijri parsers over the calendar libraries as parameters; symbolic execution as in C03.  
Complete dates with four- and two-digit years, leap-year stand-ins, numeric dates with a time of day, Arabic half-day words and offsets; Persian weekdays, days in words, month names, and after them a time of day in figures or in Persian words; the calendar libraries are parameters. Not proved: incomplete dates. Findings proved: day 31 refused, even Hijri months clipped to 29, two-digit day before a month name read as a year with YMD/YDM orders.

**C36 Formats given by the caller** – proved, 17 theorems in Props/{Formatted, FormattedCases}.  
Model and proof: formatted parser over the models of time.Parse and Time.Format; a layout is a list of pieces, induction over it.  
Every time of the years 2-9999, every layout of Go's package time whose text is unambiguous (a syntactic criterion clearLayout is proved sufficient; standard layouts covered): read back with the same fields (C36_read_back), the same instant with a numeric zone (C36_instant) or a known abbreviation (C36_zone_name), first fitting layout wins (C36_first_that_fits), unfitting layouts change nothing (C36_none_fits), missing year/month/day filled from the configuration. Not true of the code, proved with witnesses: day-of-year layouts, day without month, 29 Feb without a year, literal Mar, year 0000, StrictParsing ignored.

**C37 Time of day** – proved, 9 theorems in Props/{TimeOfDay}.  
Model and proof: ParseTime over the model of time.Parse; case analysis over the notations.  
Full characterisation of ParseTime on every notation; 13:00 PM is accepted and 13:00:00 PM refused, as the code does (Notation.meaning).

**C38 A complete date followed by a time of day** – proved, 3 theorems in Props/{DateTime}.  
Model and proof: absolute parser with date and time; symbolic execution as in C03.  
All orders, separators (the one before the time without a full stop), all written time notations; fractions are cut to six digits as the code does.

**C39 Each locale's built-in date order is understood** – partial, 3 theorems in Props/{LocaleOrder}.  
Model and proof: date orders of all locales (generated); C03 and C15 per order.  
False for the no-separator parser: C39_unseparated proves that with the built-in order of bg, bs*, hr*, hu, ko*, sr* no string at all is parsed; C39_*_partial prove the claim for all other locales (Tagalog has no order; then MDY is assumed).

**C40 Search returns pieces of the searched text** – proved, 1 theorems in Props/{SearchText}.  
Model and proof: TranslateSearch and splitting; every piece is a contiguous piece of its text but for white space.  
For every language written with spaces (and so for all locales of C33_supported_partial but ja and zh), Spanish included when the search does not panic.

**C41 Relative dates in a searched text follow the last absolute date** – proved, 4 theorems in Props/{Search, SearchExact}.  
Model and proof: getRelativeBase in parseFoundObjects; induction over the chunks.  
Every parser (a parameter of the model) and every list of dates found before. C41_given_time: the search depends on the parser only at the given time. C41_relative_words: which dates count as relative. C41_rejected_date_stays (finding): a date in a rejected cut stays the current time.

**C42 The best way to split a chunk is chosen** – proved, 2 theorems in Props/{Search}.  
Model and proof: chooseBestSplit; minimum under a lexicographic order, stable sort.  
Ratios compared as fractions (Go: float64 quotients). The first of the best is chosen. C42_empty_split_wins: a split leaving only pieces of at most two characters wins over any other (finding).

**C43 A regional locale understands what its language understands** – partial, 4 theorems in Props/{Merge, Regional, RelativeWords}.  
Model and proof: merge of locale data, English end to end.  
False of the code: C43_regional_english_fails proves that Parse refuses every month-name date for 101 regional English locales (known words are not inherited by merge), although C44_month_name holds for English. What does hold: numeric dates and times in every regional locale (C43_regional_numeric_partial, C45, C52), relative words and phrases (C43_regional_relative_partial: what a language reads, each of its regional locales reads as the same time), and C43_merge: for any parent and child data, everything else is inherited, each word with the translations of both.

**C44 English dates are read end to end** – proved, 6 theorems in Props/{English, EnglishRelative, LocaleTimes}.  
Model and proof: the whole of Parse composed (Model/Whole): sanitising, zone, language check, translation, parsers; kernel evaluation on texts with symbolic digits lifted by relational lemmas to all digits and letter cases.  
Whole call of Parse in the model (Env.parse), for all complete numeric dates with / or . (or - with the year first), alone or followed by a time of day (C44_date_time), all dates with a month name, amounts of at most three digits of any unit (ago, in, later) and 28 relative words. Translation and zone search are evaluated by the kernel on texts with symbolic digits and lifted to all digits and letter cases by relational lemmas. C44_ambiguous_hour (finding): in the hour a zone's clock shows twice, '10 minutes ago' is 50 minutes in the future.

**C45 ISO 8601 and RFC 3339 texts are read exactly, and round-trip** – proved, 10 theorems in Props/{Iso, LocaleIso}.  
Model and proof: the same for ISO 8601 texts; round trip with Time.Format; for the other locales by the reduction of their data to the alphabet of these texts (9 classes, Lemmas/IsoClasses), Finnish apart.  
End to end: C45_local, C45_utc, C45_offset, C45_roundtrip_utc, C45_roundtrip_offset for English; C45_local_everywhere, C45_utc_everywhere, C45_offset_everywhere for each of the 503 supported locales other than Finnish. C45_finnish (finding): in Finnish 2015-03-05T10:11:12 is five hours before now. C45_gap_hour is the finding that the no-gap hypothesis is needed. Offsets with milliseconds are not covered.

**C46 Search uses a language that was asked for** – proved, 3 theorems in Props/{Detect}.  
Model and proof: Search, initSearchConfig, GetLanguages and the detector modelled (Model/Detector); case analysis on the modelled call.  
C46_language, C46_same_as_with_language, C46_unknown_refused: for every configuration, text, parser state, language data and detector.

**C47 How Search chooses the language of a text** – proved, 6 theorems in Props/{Detect, DetectCases}.  
Model and proof: detector with distinctive characters, candidates and scores; specification by Distinctive and Better; findings on the real character sets (Data/Charsets).  
C47_common(_default), C47_distinctive, C47_best, C47_none: the whole choice; finding: a hyphen makes an English text French with languages [en, fr] on the real character sets (C47_hyphen).

**C48 Search does not depend on earlier searches** – proved, 3 theorems in Props/{Detect, DetectCases}.  
Model and proof: induction on the history of searches: invariant of the cache of distinctive characters.  
C48_history for configurations without repeated languages; findings: repeated languages (C48_repeated_language), concurrent searches reading the cache without lock (C48_concurrent).

**C49 Search finds exactly the dates of an English text** – proved, 9 theorems in Props/{Api, SearchEnglish, SearchEnglishCases}.  
Model and proof: Model.SearchWhole joins the models of Search, TranslateSearch, WordIsTz and Parse; specification of texts by pieces (Spec.SearchEnglish); induction on sentences, words (chunk loop) and chunks (found loop) with an invariant on parser state and relative base; each chunk parsed by C44.  
Whole search for English modelled end to end; link words and other words are specified from the English dictionary; the dictionary is the generated data. Findings proved for the demo surroundings (bracketed, dotted, undetected) and in general (order ignored).

**C50 Parse always returns** – proved, 3 theorems in Props/{Total}.  
Model and proof: Model.Checked repeats the functions of Parse with the places where Go can panic or loop as explicit faults; the theorem is that the checked Parse equals the model of Parse used everywhere else. The conditions on data (patterns match no empty text and always capture the groups read, known words and translations not empty) are checked in the kernel for the 504 locales (Data.Pats).  
For Parse: the detector callback DetectLanguagesFunction and a DateOrder callback of the user are assumed to return, and the libraries (regexp, Unicode, time) to be total. Search can panic (C33).

**C51 Search reads dates with the caller's settings** – proved, 3 theorems in Props/{SearchSettings}.  
Model and proof: Invariant of the loops of the search (Model.Search) over the times used, with the parser of Model.SearchWhole; Spec.SearchSettings says which settings are the same.  
For every text and language for which the search does not panic (C33).

**C52 Numeric dates are read in every supported locale** – proved, 4 theorems in Props/{LocaleTimes, Locales}.  
Model and proof: Model: the data of all 504 locales (Data/Pats*, generated), Model/Whole. Proof: Lemmas/Reduce shows that for texts over an alphabet the data of a locale may be replaced by its restriction to that alphabet (patterns pruned, words filtered); the kernel computes the restriction of all 504 locales to digits and separators: 7 classes; in each the templates pass, and by the relational lemmas of Lemmas/Whole all digits do. With a time of day: two texts with digits standing for others at once (Lemmas/Tags2), all forms of the time evaluated in each class (Lemmas/NumericTimes*)..  
All 504 locales, end to end (Parse), under Surroundings (nfkc/lower/classes on ASCII, timezone table, clock) and HasLocaleData (the generated data). C52_date_time: the same dates followed by a time of day h:mm or h:mm:ss, in all 504 locales.

**C53 Month names of each language are understood** – proved, 5 theorems in Props/{WordCases, WordTimes, Words}.  
Model and proof: Model: the data of all 504 locales (Data/Pats*), Model/Whole, Unicode tables abstract (Uni). Proof: Lemmas/WordFrame-WordReach follow a text of digits, separators and one word through sanitizing, simplification, splitting and translation symbolically, given decidable facts about the locale and the word; the kernel checks those facts for every month name of every locale (WordMonths1-12); translation result is read by C04_month_name, or C38_month_name_time when a time of day follows (Lemmas/WordTimed, Props/WordTimes)..  
End to end (Parse) under Surroundings and HasLocaleData; excluded locales (unreadLocales) and names (unreadMonths) are listed in Spec/Words; C53_sept proves that one of the excluded names is misread.

**C54 Calls in different goroutines do not influence each other** – partial, 3 theorems in Props/{SharedChain}.  
Model and proof: the package-level transform.Chain as an object with links and buffers, calls of transform.String as small steps with arbitrary schedules (Model/SharedChain); invariant over the links for an undisturbed call, a constructed schedule for the failure.  
False of the code: C54_other_text proves, for any two texts of equal length, that two calls of ParseJalali at the same time have an interleaving in which one returns the result for the other's text, because strutil's transform.Chain is a package variable used without a lock. Proved: whatever state other calls (finished or not) left in the shared object, a call that is not disturbed while it uses it is right (C54_undisturbed_partial, C54_own_text_partial). golang.org/x/text/transform is modelled from its published source (not in the repository), for texts shorter than its buffers; the same object is used by Parse and Search.

**C55 Relative words and phrases of every locale** – proved, 4 theorems in Props/{RelativeWords}.  
Model and proof: Model: the data of all 504 locales (Data/Pats*), Model/Whole, Unicode tables abstract (Uni). Proof: Lemmas/PhraseRx decides, by what characters a text has and how it begins and ends, that a pattern of a locale cannot match it whatever the Unicode tables; Lemmas/PhraseReach follows a phrase through sanitizing, simplification, splitting and translation; the kernel checks the facts for every phrase of every locale (PhraseTables1-4); the translated text is read by C16..  
C55_relative_phrase: all locales, all phrases of the data but five that a simplification rule rewrites first (Spec rewrittenPhrases; listed, e.g. Polish jutro); C55_ascii: any letter case without Unicode assumptions; C55_meanings: the 27 meanings are all there are, but for bare amounts (Arabic, Indonesian) and 'in 2 days'. The units of the clock assume that the clock of the zone does not show the base time twice (see C44). Finding C55_pozajtra: a phrase whose translation has a plural is not read.

**C56 Incomplete English dates are read end to end and filled in as configured** – proved, 7 theorems in Props/{EnglishIncomplete}.  
Model and proof: the composed Parse of C44 on incomplete dates: texts with symbolic digits evaluated by the kernel and lifted; the results at the level of the absolute parser are C05–C09.  
Whole call of Parse in the model (Env.parse). Day+month, month+year, month, year, two digit years, weekdays and times of day. The misreadings the statement leaves out are proved as findings: C06_two_digits_taken_as_year, C09_february_on_the_29th, C09_february_future, C07_exception, C08_month_boundary, C08_first_month. Base times from year 10 on (the zero time is Go's 'no date').

**C57 A Parser object can be reused; what Search reports** – proved, 4 theorems in Props/{Api}.  
Model and proof: Model/Api: the exported methods on one Parser object (state: parser types, remembered locales, distinctive characters), results of a search with their Locale. Invariant of the object over all calls, simulation between two searches with parsers in different states (Lemmas/SearchSim)..  
The detection function is taken to be a pure function; a call that panics ends the history. C49_results gives the final results for English texts.

**C58 Several locales are tried one by one** – proved, 7 theorems in Props/{OneByOne}.  
Model and proof: Model: Model/Parser (Parse over abstract parts), Model/Loader, Model/Whole. Proof: from C22_first (the first offer wins) and C27 (which locales are loaded): the offers of a list of locales are the concatenation of the offers of each, and the configuration asking for one locale hands the same settings to the parsers..  
For the whole Parse of the model (any Env); DefaultLanguages and TryPreviousLocales are excluded (C22_first covers them).

**C59 A complete date is made of words of the text** – proved, 3 theorems in Props/{Sound}.  
Model and proof: Model: Model/Absolute (Init, Parse and the Gregorian functions), Model/Tokenizer. Proof: an invariant of the loop over the tokens with a ghost position for every part (each part found has its own token, a number taken for the month is a day if a month name follows, a year of four digits blocks further years, at most one two digit year is left over), inverse lemmas for time.Parse with the layouts 2, 1, 2006, 06, January and Jan, and C02 for leap years..  
At the level of the absolute (Gregorian) parser, i.e. after translation to English; the zone of the current time has a fixed offset.

**C60 The time of day comes from the text** – proved, 4 theorems in Props/{ClockSound}.  
Model and proof: the absolute parser (Init, Parse), ParseTime and Go's time.Parse; an invariant of the loop over the words (the captured time is made of words), an inversion of every time layout, and preservation of the clock by every correction step (Lemmas/ClockSound, Props/ClockSound, Spec/ClockWords)..  
At the level of the absolute (Gregorian) parser, i.e. after translation to English; the zone of the current time has a fixed offset. C60_dotted and C60_inside_word show two surprising readings.

**C61 A relative date is made of the amounts in the text** – proved, 5 theorems in Props/{RelativeSound}.  
Model and proof: relative/parser.go with the regular expressions as syntax; an inversion of the matcher (whatever the pattern matches is an amount with its unit, and every such amount is matched), FindAll as the inductive relation of the amounts from left to right, words as maximal runs, and the map of last amounts (Lemmas/RelSound, Props/RelativeSound, Spec/RelativeSound)..  
At the level of the relative parser, i.e. after translation to English and removal of the time zone. The exact value is proved for whole amounts in range (fractions: C19). C61_beginnings shows that only the beginnings of words are looked at.

**C62 Every word of the text is used, once** – proved, 5 theorems in Props/{EveryWord}.  
Model and proof: the absolute parser (Init, Parse); an invariant of the loop over the words that says for every word already read what it has been used for, on top of the invariant of C59 and the words of a captured time of C60 (Lemmas/EveryWord, Props/EveryWord, Spec/EveryWord)..  
At the level of the absolute (Gregorian) parser, i.e. after translation to English; the zone of the current time has a fixed offset. C62_words accounts for every word; C62_refuses and C62_twice are the refusals; C62_nothing and C62_former_day show the exceptions (findings 65, 66).

**C63 A locale reads only texts made of its words** – proved, 4 theorems in Props/{KnownWords}.  
Model and proof: the language check (applicable-check.go, split.go) on the data of all 504 locales: the tokens and the pieces that are not captured make up the text, by induction over the cuts at known words, numerals and relative phrases; the groups of the patterns are checked in the data by the kernel; then through getApplicableLocales to Parse (Spec/KnownWords, Lemmas/KnownWords, Lemmas/KnownData, Props/KnownWords)..  
C63_known_words: pieces as in the statement, for every text, history and locale of the library; C63_each_word: every run of letters is inside one dictionary word, relative phrase or skipped word (languages with word spacing); C63_own_letters: no foreign letters; C63_english: for English only ASCII letters (and U+212A, U+017F). Stated on the text as the locale reads it (normalised, simplified by the locale's rules): what Unicode normalisation does is a parameter. Left open: texts with '|' (the library's own separator), and, for letters, read texts with a line feed.

**C64 Every date comes from the text** – proved, 7 theorems in Props/{SearchSources, Sources}.  
Model and proof: the loops of parser.go over locales, kinds and translations lead to one call of one parser, for which C13, C61, C60 with C62, C14, or the eligibility check of nospace apply, or one layout that time.ParseInLocation reads; the zone is exchanged without changing date and clock (C21) (Spec/Sources, Props/Sources)..  
C64_any_formats: every successful Parse, any formats, any configuration with a fixed zone for the current time, any parser state; by way of C13, C61, C60_clock, C62_words, C14_readings. C64_sources: without formats. C64_timestamps_only: a parser of timestamps. C64_refuses, C64_refuses_all: a text no locale has a use for is an error; shown of a text and the English data. C64_search: every date SearchWithLanguage finds with a current time given is accounted for by the chunk or piece it is reported with; C64_search_any_time: without one, by the text of a question to the parser (fixed zones). The digits' value is said for system years 2001 to 2999, without StrictParsing and with the locale's data known (KnownState, as every reachable Parser).

**C65 The time zone of a result** – proved, 4 theorems in Props/{ResultZone}.  
Model and proof: the Parse of Model/Whole; the zone is followed through each kind of parser (relativeParse, absoluteParse with its corrections, nospaceParse and its layouts, timestampParse) and applyTimezone; C65_zone for every successful call, with the zones named, absent and fixed as corollaries..  
C65_zone: every successful Parse without formats, any configuration, any parser state, any zone (fixed or not). C65_named, C65_utc: one zone named, none named. C65_fixed: fixed zones stay fixed. Formats: see C16.

## Properties that are false of the code

Where the code does not do what a user relies on, the failure is proved of the model on a concrete input, and what does
hold is proved in general.  In short:

- RequiredParts: `validate` accepts only names that are *not* day, month, year (C26).
- StrictParsing makes the no-separator parser refuse everything (C14); it is ignored by formats given by the caller (C36).
- Mathematical digits (U+1D7D8 ...) become other characters (C29).
- A year written 0000 or 0001 is lost (C03); with a year-first order an unpadded date is read differently from a padded
  one, with DMY order `2015-03-05` is 3 May (C03).
- Dates without year, day or month chosen from preferences can end up on the wrong side of now (C06, C08, C09).
- Relative amounts overflow int64 (C18); decimals can lose a second (C19); in an hour shown twice by the clock
  "10 minutes ago" can lie in the future (C44).
- `1 day, 2 hour ago 10:30`: the comma makes the time of day be ignored (C16).
- Zones: result of PopTzOffset depends on Go's random map order; `15-10-1200` has "a zone" (C20); DefaultTimezone with
  changing offset is looked up at the wrong instant (C21); an hour skipped by the local clock is lost (C45).
- The no-separator parser reads 12251999 (MDY) as the year 1225 (C15), and never succeeds with the built-in order of
  Bulgarian, Bosnian, Croatian, Hungarian, Korean, Serbian (C39).
- Search panics on Spanish texts with a leading `¿` and on single dictionary words of Cantonese and Chinese (C33); a split
  without any usable piece wins over a split with dates (C42).
- Search ignores DateOrder, cuts dates with dots, does not find "(March 5, 2015)" (it asks the parser for "marchh 5, 2015)"), and reports no
  language for "3/5/2015!" with English as the only language (C49).
- In Finnish the "T" of `2015-03-05T10:11:12` is "hour", and the text means five hours ago (C45).
- Slovak "pozajtra" and Chinese "后天" (the day after tomorrow) become "in 2 days", which the relative parser does not read: it knows "day"
  (C55, proved for Slovak).
- Regional English locales refuse dates with month names (C43).
- Jalali day 31 is refused, the 30th of an even Hijri month is clipped, a Jalali day before the month name may be taken as
  a year (C35).
- Negative timestamps: the fraction is added (C13).
- Layouts with the day of the year, or a day without month, or 29 February without a year are not read back (C36).
- French "5 sept 2015" is 5 July 2015 (C53); in Bambara, Lower and Upper Sorbian and Hawaiian the abbreviation "now" of November is
  taken for "now" (not proved).
- The Unicode transformer is a package variable with mutable state, used without a lock: two calls of ParseJalali at the same time (or of
  Parse on two Parser objects) can mix up their texts, so that one returns the date of the other (C54).
- Even under StrictParsing a date that does not exist becomes another one: "31 April 2015" is 30 April, "29 February 2015" is 29 February
  2016 (C59).
- "5.12 2015" is read as the time 5:12 of a day of 2015, and "am" or "pm" counts inside any word: "May 2015 10 Hampton" is 10 o'clock (C60).
- The relative parser only looks at how words begin ("income 2 day" is two days ago), and of two amounts for a unit only the last counts:
  "1 week, 2 day 3 day ago" is ten days ago (C61).
- A text that says nothing is not refused: "year" or "hour, minute" gives the beginning of today; and a number taken for the day is dropped
  when another one turns out to be the day: "5 6 May 2015" is 6 May (C62).
- In a search without a current time, a date in a cut of a chunk that is not chosen is not found, yet it becomes the current time of all that
  is read after it (C41, `C41_rejected_date_stays`).
