{"id": "C01", "title": "Calendar arithmetic is exact", "statement": "Dates produced from year/month/day components and read back give the same components; month lengths and leap years are those of the Gregorian calendar; consecutive days have consecutive day numbers and weekdays.", "quantifier": "every integer year (negative and beyond four digits too), every month and every day", "why_tests_cant": "infinitely many years; tests sample a few around 2000", "anchors": ["internal/dateutil/dateutil.go: IsLeapYear, GetLastDayOfMonth", "internal/parser/absolute/root.go: createDateTime"]}
{"id": "C02", "title": "Nearest leap year is found and the search stops", "statement": "When 29 February is given with a non-leap year, the search for a replacement leap year always stops; for Past it is the latest earlier leap year, for Future the earliest later one, for CurrentPeriod the closer of the two (the earlier one on a tie); never more than 8 years away.", "quantifier": "every year and every PreferredDateSource", "why_tests_cant": "loop without a bound in the code (`for {}`); centuries such as 1900/2100 stretch the gap", "anchors": ["internal/dateutil/dateutil.go: GetLeapYear", "internal/parser/absolute/parser.go: getCorrectLeapYear"]}
{"id": "C03", "title": "A complete numeric date means exactly that date", "statement": "Parsing `a<sep>b<sep>c` where a, b, c are the day, month and four digit year, the day and month in the same order as in the configured DateOrder and the year in its place or earlier, gives exactly this calendar day at 00:00:00 with Period Day, whatever the current time and preferences are. The years 0000 and 0001, a year later in the text than in the order, and texts with a period beside another separator are read differently.", "quantifier": "every valid calendar date with a four digit year from 2 on, every DateOrder, every separator text without letters, digits and periods or a period twice, padded and unpadded numbers, every configuration, every current time", "why_tests_cant": "3.3 million dates times 6 orders times configurations times current times", "anchors": ["internal/parser/absolute/root.go: Parse", "internal/parser/absolute/parser.go: Init, Parse, parseDigitToken"]}
{"id": "C04", "title": "A named month is never taken for anything else", "statement": "Parsing `<day> <month name> <year>` or `<month name> <day> <year>` (full or three letter English names, any letter case) gives exactly that day, for every DateOrder.", "quantifier": "every valid date with year 1000..9999, all names, all letter cases, every DateOrder, configuration and current time", "why_tests_cant": "letter tokens are tried by ranging over a Go map, so order differs between runs; tests see one order", "anchors": ["internal/parser/absolute/parser.go: parseLetterToken, alphaDirectives"]}
{"id": "C05", "title": "Weekday-only strings pick the right neighbouring day", "statement": "For a string that is only a weekday name the result is a day with this weekday: with Future strictly after the current day and within 7 days, with Past strictly before it and within 7 days, with CurrentPeriod at most 6 days back (the current day included). The loops stop.", "quantifier": "every weekday name, every current day, every preference", "why_tests_cant": "loop termination and modular arithmetic over all days", "anchors": ["internal/parser/absolute/parser.go: correctForTimeFrame"]}
{"id": "C06", "title": "Month without year follows PreferredDateSource", "statement": "For a string with a day and a month but without a year, the year is the current one, except that with Past a date later than now moves one year back and with Future a date not later than now moves one year ahead; so with Past the result is never after now and with Future it is always after now. (29 February is moved to a leap year on the same side.) Two known exceptions: in date orders with the year before the day, two digits beside a month name are taken for a year; and without a day the side is decided before the day is filled in (see C09).", "quantifier": "every month and day, every written form, every date order, every current time in a fixed-offset zone, all preferences", "why_tests_cant": "boundary cases (same day, 29 February, leap years) over all current times", "anchors": ["internal/parser/absolute/parser.go: correctForTimeFrame"]}
{"id": "C07", "title": "Two digit years follow PreferredDateSource", "statement": "A two digit year gives a year 1969..2068 with the same last two digits; with Past a date after now is moved exactly 100 years back, with Future a date not after now exactly 100 years ahead. The only date that does not stay on its day is 29 February 2000, moved to 1900 or 2100, which become 1 March.", "quantifier": "every two digit year, month, day, every current time, all preferences", "why_tests_cant": "needs all combinations with the current time; 29 February breaks for century shifts", "anchors": ["internal/parser/absolute/parser.go: correctForTimeFrame"]}
{"id": "C08", "title": "Time-only strings follow PreferredDateSource", "statement": "A string with only a time of day gives that time on the current day, moved exactly one day back (Past, when later than now) or ahead (Future, when earlier than now).", "quantifier": "every time of day, time zone offset, current time and preference", "why_tests_cant": "all combinations of offset and current time", "anchors": ["internal/parser/absolute/parser.go: correctForTimeFrame"]}
{"id": "C09", "title": "Missing day and month are filled as configured", "statement": "When the day is missing it becomes 1, the last day of the month, or the current day clamped to the month length, as PreferredDayOfMonth says; when the month is missing it becomes January, December or the current month as PreferredMonthOfYear says; parts that were given are not changed by this step. Known exceptions: February when today is the 29th to 31st, and strings with a time of day, where the day is taken from today.", "quantifier": "every date, month length, current time and preference", "why_tests_cant": "month lengths and leap years over all years; clamp order", "anchors": ["internal/parser/common/apply-day.go: ApplyDayFromConfig", "internal/parser/common/apply-month.go: ApplyMonthFromConfig"]}
{"id": "C10", "title": "Period tells the finest given date part", "statement": "The Period of an absolute date is Day when the day (or only weekday/time) was given, else Month when the month was given, else Year; with ReturnTimeAsPeriod and a time given it is the time's own granularity.", "quantifier": "every token sequence accepted by the absolute parser", "why_tests_cant": "all token sequences", "anchors": ["internal/parser/absolute/parser.go: getPeriod, Parse"]}
{"id": "C11", "title": "StrictParsing and RequiredParts are honoured", "statement": "With StrictParsing an absolute date is returned only if day, month and year were all present in the string; with RequiredParts only if all the required parts were present.", "quantifier": "every string and configuration", "why_tests_cant": "negative property over all strings", "anchors": ["internal/parser/common/strict-check.go: CheckStrictParsing", "internal/parser/absolute/parser.go: Parse", "config.go: validate"]}
{"id": "C12", "title": "Tokenizing loses nothing", "statement": "The tokens of a string joined together are the string; every token is a non-empty maximal run of digits/colons, of ASCII letters, or of other characters.", "quantifier": "every string", "why_tests_cant": "all strings", "anchors": ["internal/parser/tokenizer/tokenizer.go: Tokenize, compareChars"]}
{"id": "C13", "title": "Timestamps are exact", "statement": "A string of 10, 13 or 16 digits (optionally followed by a period or white space and anything) denotes exactly that many seconds, milliseconds or microseconds since 1970; with the negative-timestamp parser a leading minus and ten digits give that many seconds before 1970 (further digits are a fraction counted forward from that second); nothing else is taken for a timestamp.", "quantifier": "every string, both parser variants", "why_tests_cant": "10^16 inputs; anchoring and optional groups of the regular expression", "anchors": ["internal/parser/timestamp/parser.go: Parse"]}
{"id": "C14", "title": "No-space dates use all digits once and are real dates", "statement": "A date found in a run of digits without separators comes from splitting the run, in the order of the format tried, into parts that concatenated give the run back; the parts are a valid calendar date and time; every such valid split is considered.", "quantifier": "every digit run, every DateOrder", "why_tests_cant": "number of splits and formats times all digit runs; index arithmetic with float64 ceilings", "anchors": ["internal/parser/nospace/constants.go: createParseCandidates, candidateIsValid", "internal/parser/nospace/parser.go: Parse"]}
{"id": "C15", "title": "Eight digit dates in the configured order", "statement": "With DateOrder D, M, Y in any order, an eight digit string that is a valid date in that order (two digit day, two digit month, four digit year from 1000) is parsed by the no-space parser as exactly this date (with MDY only if the month is below 10 or the hundreds digit of the year is 0: else the format YYYYmdHM comes first); without a DateOrder the first order of MDY, DMY, YMD, YDM, MYD, DYM in which it is a valid date counts.", "quantifier": "every valid date with year 1000..9999 and every DateOrder", "why_tests_cant": "3.3 million dates times 6 orders", "anchors": ["internal/parser/nospace/parser.go: Parse", "internal/parser/nospace/constants.go: dateTimeFormats"]}
{"id": "C16", "title": "Relative dates: direction and amount", "statement": "`N unit ago` is now minus N units, `in N unit` now plus N units; a string with neither word goes to the past unless PreferredDateSource is Future; `ago` wins over `in`; weeks are 7 days and decades 10 years; hours, minutes, seconds shift the instant by exactly that many; a time of day written behind the phrase replaces the time of day of the result.", "quantifier": "every N within the representable range, every unit combination, every current time", "why_tests_cant": "unbounded N, all combinations of units", "anchors": ["internal/parser/relative/parser.go: Parse, parseDate, getRelativeDurations"]}
{"id": "C17", "title": "Relative dates: end of month", "statement": "With PreserveEndOfMonth, adding months and years keeps the month arithmetic exact and clamps the day to the length of the target month; without it the excess days run into the next month.", "quantifier": "every start date and every number of years, months, days", "why_tests_cant": "all dates and month lengths", "anchors": ["internal/parser/relative/parser.go: addDate"]}
{"id": "C18", "title": "Relative durations do not wrap around", "statement": "`N unit ago` never lies in the future and `in N unit` never in the past, however large N is. (False of the code for more than 2562047 hours or 153722867 minutes: 64-bit overflow, proved by C18_overflow; proved within range.)", "quantifier": "every N", "why_tests_cant": "fails only for huge N (64-bit overflow)", "anchors": ["internal/parser/relative/parser.go: parseDate"]}
{"id": "C19", "title": "Fractional durations", "statement": "A relative date whose amounts may have decimals (`1.5 hours ago`, amounts below 100000) moves the current time by whole calendar and clock units whose total length (month = 30 days, year = 12 months) differs from the exact length by less than one second per amount above seconds that is not whole, by at most half a second for seconds that are not whole, and by at most 1/50 second of float imprecision; whole amounts, also written `3.0`, are left alone.", "quantifier": "every well-written relative phrase, configuration, current time and zone", "why_tests_cant": "all float values", "anchors": ["internal/parser/relative/parser.go: getRelativeDurations, splitFraction"]}
{"id": "C20", "title": "Time zone abbreviations", "statement": "PopTzOffset takes only a zone that is written in the string (a known abbreviation between non-letters, or a UTC offset at the end) with the offset of the time zone table, leaving the string without it; a string in which no zone can be seen is left unchanged; and a known abbreviation or a plain offset at the end of a string without other letters is always taken - in whatever order Go iterates over its tables.", "quantifier": "every string, every table entry and every iteration order of Go's maps", "why_tests_cant": "table of hundreds of entries whose order depends on Go's random map iteration", "anchors": ["internal/timezone/parser.go: PopTzOffset", "internal/timezone/tz-offsets.go", "internal/timezone/timezones.go"]}
{"id": "C21", "title": "Results keep the wall clock when a time zone is attached", "statement": "When the string names a time zone the returned time has the wall clock given in the string and the offset of that zone; else with a DefaultTimezone of fixed offset the same holds with this zone.", "quantifier": "every date, time, zone with fixed offset", "why_tests_cant": "all instants and offsets", "anchors": ["parser.go: applyTimezone"]}
{"id": "C22", "title": "Parsers are tried in the configured order and the first success wins", "statement": "A date read with one of the caller's formats on the string as given is returned first (with empty Locale); else locales are tried in order (with TryPreviousLocales the first remembered one that applies, the loaded ones that apply, those of DefaultLanguages) and for each the parser types in the order listed (default list if empty); the result is the first non-zero date, and an error if there is none.", "quantifier": "every list of parser types, every locale list, every behaviour of the individual parsers", "why_tests_cant": "exponentially many combinations", "anchors": ["parser.go: Parse, getApplicableLocales, tryRelativeTime, tryCustomFormat, tryAbsoluteTime, tryNoSpacesTime"]}
{"id": "C23", "title": "The result's locale is one that was asked for", "statement": "Date.Locale of a successful Parse is the name of a locale selected by Languages, Locales, Region, DefaultLanguages or a locale this Parser used before (TryPreviousLocales).", "quantifier": "every configuration and every history of calls on one Parser", "why_tests_cant": "history dependent", "anchors": ["parser.go: Parse", "internal/language/loader.go: GetLocales"]}
{"id": "C24", "title": "Parse without TryPreviousLocales does not depend on earlier calls", "statement": "On one Parser, with TryPreviousLocales false, the result of Parse depends only on its arguments, not on previous calls.", "quantifier": "every history of Parse calls", "why_tests_cant": "unbounded histories", "anchors": ["parser.go: Parse"]}
{"id": "C25", "title": "Caller's configuration is not modified", "statement": "Parse and Search leave the Configuration passed by the caller, and the one stored by ParseWithFormats, unchanged.", "quantifier": "every configuration and input", "why_tests_cant": "aliasing of slices", "anchors": ["config.go: initiate, toInternalConfig", "internal/setting/config.go: Clone"]}
{"id": "C26", "title": "Configuration validation", "statement": "A configuration is accepted iff its preferences are in range and RequiredParts only contains day, month, year in any letter case; a DateOrder function's answer is used iff it is a permutation of D, M, Y in any letter case, else the locale's own order.", "quantifier": "every configuration, every string", "why_tests_cant": "all strings", "anchors": ["config.go: validate, validateDateOrder"]}
{"id": "C27", "title": "Languages and locales are loaded exactly as asked", "statement": "The locale list is duplicate free, contains only known locales, is sorted by language popularity unless UseGivenOrder, fails for unknown names, and Region is appended only where such a locale exists.", "quantifier": "every list of languages, locales and region", "why_tests_cant": "all subsets of 200 languages and 500 locales", "anchors": ["internal/language/loader.go: GetLocales", "internal/data/01-language-order.go", "internal/data/03-language-locales-map.go"]}
{"id": "C28", "title": "Language order table is a ranking", "statement": "Every language has exactly one rank, no two languages share one, and ranks are contiguous from 0; every locale in the locale order table belongs to a known language.", "quantifier": "the whole table", "why_tests_cant": "table consistency needs a full check, not a sample; done here by kernel computation over the whole table", "anchors": ["internal/data/01-language-order.go: LanguageOrder", "internal/data/04-locale-order.go"]}
{"id": "C29", "title": "Digits of every script are normalised", "statement": "Normalising digits replaces each decimal digit character of another script by the ASCII digit of the same value, leaves all other characters alone, and is idempotent.", "quantifier": "every string", "why_tests_cant": "all Unicode characters", "anchors": ["internal/digit/digit.go: NormalizeString"]}
{"id": "C30", "title": "White space clean-up", "statement": "Space sanitising leaves the words of a string and their order unchanged, with single spaces between and none at the ends; doing it twice changes nothing more.", "quantifier": "every string", "why_tests_cant": "all strings", "anchors": ["internal/strutil/strutil.go: SanitizeSpaces"]}
{"id": "C31", "title": "Translating alternatives: all combinations in order", "statement": "When words have several possible translations the alternatives tried are exactly all combinations, each once.", "quantifier": "every list of alternatives", "why_tests_cant": "exponential number of combinations; index arithmetic", "anchors": ["internal/language/translate.go: createPermutation"]}
{"id": "C32", "title": "Search: substrings and splitting", "statement": "Splitting a text into sentences and a chunk into candidate pieces loses nothing: the sentences, in order, make up the text but for white space and sentence-ending punctuation; joined pieces give back the chunk; original and translated pieces have equal counts; every date found was given by the parser for a chunk or a piece, with the corresponding original text.", "quantifier": "every text", "why_tests_cant": "all strings", "anchors": ["search.go", "internal/language/split.go"]}
{"id": "C33", "title": "Search never panics", "statement": "SearchWithLanguage returns a value or an error, it does not panic, for every text and every supported language. (False for Spanish texts with an opening question or exclamation mark and for Cantonese and zh-Hans/zh-Hant: proved for all the others, the exceptions proved with their texts.)", "quantifier": "every text, every language", "why_tests_cant": "an index expression may only fail for rare languages and rare texts", "anchors": ["internal/language/translate-search.go: TranslateSearch"]}
{"id": "C34", "title": "Concurrent use of one Parser", "statement": "Under any interleaving of concurrent Parse calls on one Parser each call's result equals its result in one sequential order of the calls that respects real time, no call is blocked for ever, and the remembered locales never hold duplicates.", "quantifier": "every interleaving of any number of calls", "why_tests_cant": "schedules", "anchors": ["parser.go: Parser, usedLocales", "search.go: uniqueCharsets"]}
{"id": "C35", "title": "Jalali and Hijri dates", "statement": "ParseJalali and ParseHijri on a complete numeric date that agrees with the date order, or (Jalali) a day (in digits, or spelled out as a Persian number or ordinal), Persian month name and year, perhaps after the name of a weekday, in ASCII, Persian or Arabic digits, give the Gregorian day the calendar library names, in the zone of the base time, with Period Day: at midnight, or at the time of day written after it (with colons; after a Jalali month name also after the word for hour, or in words, hours and minutes and seconds; in Hijri dates also with the Arabic words for morning and evening), and with the offset after it, if there is one. Two-digit years are in 1361-1460 (Jalali) and 1390-1489 (Hijri); 30 Esfand (or 30 Dhu al-Hijja) of a common year is read in the leap year the date source prefers. A weekday before a day and a month name changes nothing, and a day in words is the same as in digits, whatever follows the month and whatever the configuration. (False of the code for: day 31, always refused; the 30th of even Hijri months, always read as the 29th; Jalali month names with a date order that starts with the year.)", "quantifier": "every day, month, year, way to write the digits, separator, configuration, clock, time zone table, and calendar library", "why_tests_cant": "all dates", "anchors": ["internal/parser/jalali/parser.go", "internal/parser/hijri/parser.go"]}
{"id": "C36", "title": "Formats given by the caller", "statement": "A time written with one of the layouts given to Parse, if the text is unambiguous, is read back: the same civil fields that the layout contains, the same instant if it writes a zone that is known; what the layout lacks comes from the configuration (preferred month and day, current year) and Period says which unit is exact; the first layout that fits wins whatever the locales; layouts that fit nothing do not change the result.", "quantifier": "every time of the years 2 to 9999, every layout made of the elements of Go's package time, every configuration, parser state and list of layouts", "why_tests_cant": "all times and layouts", "anchors": ["internal/parser/formatted/parser.go: Parse"]}
{"id": "C37", "title": "Time of day", "statement": "Times written as H:M, H:M:S with optional fraction, optionally followed by AM/PM, give exactly that time of day; hours 24 and up, minutes and seconds 60 and up are refused.", "quantifier": "every time of day and notation", "why_tests_cant": "86400 times, notations and malformed variants", "anchors": ["internal/parser/common/time.go: ParseTime"]}
{"id": "C38", "title": "A complete date followed by a time of day", "statement": "A complete date (numeric in the configured order, or with a month name in any order) followed by a time of day parses to exactly that day and that time, whatever the current time and the preferences; with ReturnTimeAsPeriod the Period is that of the time, else Day.", "quantifier": "every valid date, every separator, every time notation, every configuration and current time", "why_tests_cant": "dates x times x orders x notations x separators x configurations", "anchors": ["internal/parser/absolute/parser.go: Init, Parse, captureTime", "internal/parser/common/time.go: ParseTime"]}
{"id": "C39", "title": "Each locale's built-in date order is understood", "statement": "The built-in date order of every locale is one of the six orders of day, month and year, and both the parser for separated dates and the parser for dates written without separators understand it.", "quantifier": "every built-in locale, every string, every configuration using the built-in order", "why_tests_cant": "The claim ranges over all 504 locales times all input strings; a test of a locale with some strings cannot show that no string is ever understood.", "anchors": ["internal/data/00-locale-data.go:GetLocaleData", "internal/parser/nospace/nospace.go:Parse", "internal/parser/absolute/parser.go"]}
{"id": "C40", "title": "Search returns pieces of the searched text", "statement": "For a language written with spaces, every text in the result of SearchWithLanguage is, but for the amount of white space between its words, a contiguous piece of the searched text.", "quantifier": "every text, every dictionary and patterns of a spaced language, every behaviour of the parser", "why_tests_cant": "simplification, alignment of tokens and splitting can shift the tokens for some text only", "anchors": ["search.go: SearchWithLanguage, parseFoundObjects", "internal/language/translate-search.go: TranslateSearch, simplifySplitAlign"]}
{"id": "C41", "title": "Relative dates in a searched text follow the last absolute date", "statement": "In a search without a given current time, text read after an absolute date has been found (with only relative dates found since) is read relative to that date; in a search with a given current time, everything is read relative to that time, whatever other dates are found.", "quantifier": "every text, every parser behaviour, every list of dates found before", "why_tests_cant": "It ranges over all sequences of dates found before and all answers of the parser.", "anchors": ["search.go: parseFoundObjects, parseEntry, getRelativeBase"]}
{"id": "C42", "title": "The best way to split a chunk is chosen", "statement": "When a chunk of a searched text is not a date as a whole and can be split in several ways, the way chosen has the smallest share of pieces that are not dates; of those, the smallest number of pieces; of those, the smallest number of pieces without digits.", "quantifier": "every list of candidate splits and every answers of the parser", "why_tests_cant": "It ranges over all lists of candidate splits.", "anchors": ["search.go: chooseBestSplit"]}
{"id": "C43", "title": "A regional locale understands what its language understands", "statement": "If a date text is read with a language (e.g. Languages: [\"en\"]), the same text is read with a regional locale of that language (e.g. Locales: [\"en-GB\"]), with the region's own date order. FALSE of the code for the 101 regional locales of English without data of their own: every date with a month name is refused there; only numeric dates are still read.", "quantifier": "every regional locale of English given by name and date order only, every configuration that asks for this locale only, every complete date with a month name (three forms, any letter case, any digits), every complete numeric date", "why_tests_cant": "The claim ranges over 101 locales times all dates; the suite tests regional locales only through the loader and never parses with one of these.", "anchors": ["internal/data/00-locale-data.go: merge", "internal/data/en.go: en_*_Locale", "internal/language/split.go: splitByKnownWords", "internal/language/applicable-check.go: IsApplicable", "parser.go: Parse, getApplicableLocales"]}
{"id": "C44", "title": "English dates are read end to end", "statement": "Parser.Parse (no formats), when English comes first (default configuration, or Languages = [en], with no locale remembered that would be preferred), on a complete English date as people write it (numeric in an order agreeing with the date order; or with a month name, full or abbreviated, in any letter case; relative phrases) succeeds with Locale en, the right Period and exactly the date written: the whole call, through cleaning, time zone detection, language check, tokenising, translation, the choice among individual parsers and time zone conversion.", "quantifier": "every date, every spelling of the forms, every parser state and configuration with English first, every order of Go's random map iteration of the zone table, every base time and zone without a jump at midnight of that date", "why_tests_cant": "Each stage is data driven (thousands of dictionary words, about 1500 zone patterns) and could take or rewrite part of some date; tests try a few hundred strings out of millions of dates.", "anchors": ["parser.go: Parse", "internal/language/translate.go: Translate", "internal/language/applicable-check.go: IsApplicable", "internal/timezone/parser.go: PopTzOffset", "internal/parser/absolute/parser.go", "internal/parser/relative/parser.go", "internal/data/en.go"]}
{"id": "C45", "title": "ISO 8601 and RFC 3339 texts are read exactly, and round-trip", "statement": "Parse, with English first (the default configuration or Languages [en]) or asked for any one of the 503 supported locales other than Finnish, and a date order with the month before the day (the default in English), reads every text of the form YYYY-MM-DDThh:mm:ss, with T, t or a space between, with or without milliseconds: without a zone as exactly that wall clock in the zone of the current time (or the default time zone), with Z or z at the end as that time in UTC, with an offset in use (+hh:mm or +hhmm) as that time in a zone with that offset. So formatting any time of years 2 to 9999 as RFC 3339 and parsing it gives back the same instant, for every clock reading of the surroundings and every order of the library's zone tables. The zone of the current time must have no gap at the wall clock in question: a text with Z is otherwise read an hour wrong (finding). In Finnish the T is taken for 'hour' (finding).", "quantifier": "all stamps (year 2..9999, every existing day, every time of day, every millisecond), all three separators, all offsets in use, all configurations with English first, all parser states without a preferred locale, all orders of the time zone table, all zones of the current time", "why_tests_cant": "3*10^11 seconds times offsets times zones; tests try a few", "anchors": ["parser.go:Parse", "internal/language/translate.go:Translate", "internal/timezone/parser.go:PopTzOffset", "internal/parser/absolute/parser.go:Parse", "parser.go:applyTimezone"]}
{"id": "C46", "title": "Search uses a language that was asked for", "statement": "If Search returns dates, the language it reports is one of the languages asked for by the configuration (Languages, the language of one of Locales, what the language detector gave; all languages if none is given), or the first of DefaultLanguages; and the dates are exactly those SearchWithLanguage returns for this language. Unknown languages are refused and leave the parser unchanged.", "quantifier": "every configuration (or nil), every text, every parser state (history of earlier searches), every language data, every detector", "why_tests_cant": "Ranges over all combinations of 205 languages, all texts and all histories of the parser's cache", "anchors": ["search.go: Search, SearchWithLanguage, initSearchConfig", "internal/language/languages.go: GetLanguages", "internal/language/detector.go: DetectFullTextLanguage"]}
{"id": "C47", "title": "How Search chooses the language of a text", "statement": "In a text of digits, blanks and date punctuation only, Search takes the first of the languages (English by default). Otherwise a character that exactly one of the languages has decides (first in order if several). Otherwise the language which understands most words, then most other tokens, of those sharing a character with the text; of equals the first. If no language qualifies, the first of DefaultLanguages or an error. FINDING: the hyphen is a character of French data and not of English, so with languages [en, fr] an English text with a hyphen is searched as French.", "quantifier": "every text, every list of languages without repetition, every language data, every parser history", "why_tests_cant": "All texts times all lists of languages; the outcome depends on a cache that earlier searches filled", "anchors": ["internal/language/detector.go: DetectFullTextLanguage, getLanguageCandidates", "internal/language/applicable-check.go: CountApplicability", "internal/language/languages.go: GetUniqueCharsets", "search.go: Search, initUniqueCharsets"]}
{"id": "C48", "title": "Search does not depend on earlier searches", "statement": "A Search on a parser that has made any searches before, with any configurations and texts, returns what a fresh parser returns, if no configuration repeats a language. FALSE in general: the cache of distinctive characters is recomputed only when the number of languages grows (a repeated language gives other results after a search); and a concurrent search reads the cache without the lock and can see that of other languages.", "quantifier": "every history of searches, every configuration without repeated languages, every text; for the findings one witness each", "why_tests_cant": "Ranges over all histories of calls and over schedules of concurrent calls", "anchors": ["search.go: Search, initUniqueCharsets", "internal/language/languages.go: GetUniqueCharsets"]}
{"id": "C49", "title": "Search finds exactly the dates of an English text", "statement": "In any English text made of sentences (ended by . ! ? or ;) of words that have nothing to do with dates (with punctuation around them or not), link words (on, at, of, the, by, and, about, just, ad) and complete dates (month/day/year, year-first with / or -, or with a month name in three forms), at least one other word between two dates, Search and SearchWithLanguage return one result for each date, in order: its text is the date with the link words beside it, its date that day at midnight, Period Day. FINDINGS: DateOrder is not obeyed by a search; dates with dots are cut at the dots; a bracketed date that starts with the month is not found; with English as the only language \"3/5/2015!\" is an error.", "quantifier": "every text of that form: any number of sentences, any words, any dates; every valid configuration; every state of a parser with default parser types; every order of the time zone table", "why_tests_cant": "All texts of any length; the result of one date depends on those found before (relative base, parser state)", "anchors": ["search.go: Search, SearchWithLanguage, parseFoundObjects, parseEntry, getRelativeBase", "internal/language/translate-search.go: TranslateSearch", "internal/language/split.go", "internal/timezone/parser.go: WordIsTz", "config.go: configFromInternal", "parser.go: Parse"]}
{"id": "C50", "title": "Parse always returns", "statement": "Whatever the text, the formats, the configuration and the parser types, in every supported locale and after any calls made before, Parse returns a date or an error: none of its steps panics (index out of range, empty permutation, missing submatch) and none of its loops (splitting by patterns, splitting by known words, moving a weekday day by day) runs for ever. The absolute parsers of the Jalali and Hijri calendars share this if their calendar library does.", "quantifier": "every string, formats, configuration, parser types, clock, time zone table order, every history of calls on one parser, every locale in the data", "why_tests_cant": "All strings in 504 locales; a panic or endless loop needs one odd input (fuzzing only samples)", "anchors": ["parser.go: Parse, tryAbsoluteTime, tryNoSpacesTime, tryRelativeTime", "internal/language/split.go: Split, splitWithRegex, splitByKnownWords", "internal/language/translate.go: Translate", "internal/language/utils.go: createPermutation", "internal/parser/absolute/parser.go: Parse, correctForTimeFrame", "internal/parser/nospace/parser.go: Parse", "internal/data"]}
{"id": "C51", "title": "Search reads dates with the caller's settings", "statement": "Every date Search or SearchWithLanguage reports, in any text and language, is a (non-zero) date that Parse answers for some text under the caller's own settings (default zone, preferred day and month, date source, strictness, required parts, skipped words, default languages, periods, end of month) and the caller's current time; if the caller gave no current time, without one or with the time of a date this search read before. (Locales, Languages, region and DateOrder are not passed on: C49.)", "quantifier": "every text, language, configuration, parser state, every result of the search", "why_tests_cant": "All texts, languages and configurations; the time base of one result depends on those before it", "anchors": ["search.go: SearchWithLanguage, parseFoundObjects, parseEntry, getRelativeBase", "config.go: toInternalConfig, configFromInternal"]}
{"id": "C52", "title": "Numeric dates are read in every supported locale", "statement": "Parse asked for any one of the 504 supported locales (Locales: [name], or Languages: [name] for the 205 languages), on any complete numeric date written with / or . (or - with the year first) in a way that agrees with the locale's date order - or with the configured one -, optionally followed by a time of day h:mm or h:mm:ss on a 24 hour clock, returns that locale, that day at midnight or that time, and Period Day (with ReturnTimeAsPeriod that of the time). Every locale but tl has a date order of its own (extra characters as in \"YMD.\" do not matter).", "quantifier": "all 504 locales, all configurations asking for one of them, all dates, separators, date orders and digit widths, all parser states with all parsers enabled", "why_tests_cant": "the repository's tests cover a handful of languages; the text passes through each locale's own patterns, word lists and splitting before it is read, and one pattern or word with a digit in any of the 504 data files breaks it", "anchors": ["/repo/parser.go: Parse", "/repo/internal/data/*.go", "/repo/internal/language/translate.go: Translate", "/repo/internal/language/applicable-check.go: IsApplicable", "/repo/internal/language/split.go: Split", "/repo/internal/parser/absolute/parser.go: Parse"]}
{"id": "C53", "title": "Month names of each language are understood", "statement": "Parse asked for a locale that separates words by spaces and has its own word list, on a day, a month name of that locale's data (full, abbreviated or inflected, in any letter case or Unicode form that the library's normalization maps to it) and a four-digit year, written \"5 März 2015\", \"5. März 2015\", \"März 5, 2015\", \"März 5 2015\" or \"2015 März 5\", returns that locale, exactly that day at midnight and Period Day, whatever the date order; followed by a space or a comma and a space and a time of day on the 24 hour clock (\"5. März 2015, 10:11\"), it returns that day at that time, with Period Day, or that of the time if ReturnTimeAsPeriod is set. Excepted are 34 listed (locale, name) pairs that contain or equal other dictionary words; of those, French \"sept\" (in fr, fr-CM, fr-HT, fr-MA) is read as 7, i.e. as July.", "quantifier": "every supported locale (of the 504) with its own words, except the nine without spaces between words or with words containing digits; every month name of its data except the 34 listed; any spelling; five ways of writing; all days and years; all configurations asking for that locale; all parser states with all parsers enabled", "why_tests_cant": "tests cover a handful of names per language; simplifications, word lists, splitting and translation of each locale interact, and one pattern in any data file may destroy a name (as for French \"sept\")", "anchors": ["/repo/parser.go: Parse", "/repo/internal/data/*.go", "/repo/internal/language/translate.go: Translate", "/repo/internal/language/split.go: Split", "/repo/internal/language/applicable-check.go: IsApplicable", "/repo/internal/parser/absolute/parser.go: Parse"]}
{"id": "C54", "title": "Calls in different goroutines do not influence each other", "statement": "Calls of ParseJalali and ParseHijri, and calls on different Parser objects, made at the same time return what each returns when made alone.", "quantifier": "every interleaving of any number of calls, every state earlier calls left behind", "why_tests_cant": "schedules", "anchors": ["internal/strutil/strutil.go: unicodeTransformer, nfkcTransformer, NormalizeUnicode, NormalizeCharset", "jalali-parser.go: ParseJalali", "hijri-parser.go: ParseHijri", "parser.go: Parse"]}
{"id": "C55", "title": "Relative words and phrases of every locale", "statement": "Parse with a Configuration that asks for one supported locale, on a word or phrase that the data of the locale (merged with those of its parent) list as a relative date — \"gestern\", \"вчера\", \"aujourd'hui\", \"la semaine dernière\" — in any letter case or accentuation that normalizes to it, succeeds and returns that locale, the base time (CurrentTime, or the clock, in the zone of DefaultTimezone if set) moved by exactly the number of seconds, hours, days, weeks, months, years or decades the data give, and the Period of that unit (Time-level if ReturnTimeAsPeriod).", "quantifier": "every one of the 504 locales, every such phrase of its data, every spelling that normalizes to it, every configuration of the asked locale, every current time and zone, every Unicode table that is right on ASCII", "why_tests_cant": "about 9900 phrases in 504 merged locales, times every base time, zone and setting; the splitting and translation of one phrase depends on all regular expressions and words of the locale", "anchors": ["parser.go:Parse", "internal/language/translate.go:Translate", "internal/language/split.go:Split", "internal/language/applicable-check.go:IsApplicable", "internal/data/00-locale-data.go:merge", "internal/data/*.go:RelativeType", "internal/parser/relative/parser.go:Parse"]}
{"id": "C56", "title": "Incomplete English dates are read end to end and filled in as configured", "statement": "Parser.Parse (no formats, no strictness or required parts), when English comes first, on an incomplete English date succeeds with Locale en: a day and a month (month name full or abbreviated, any letter case, either order) is that day at midnight in the year PreferredDateSource asks for, Period Day; a month and a four digit year is Period Month on the day PreferredDayOfMonth asks for; a month alone is Period Month in the first such month on the preferred side (the current month counting as past); a year alone is Period Year in the preferred month on the preferred day; a numeric date with a two digit year in the configured order is in 1969..2068, moved by a century as PreferredDateSource says; a weekday is midnight of the nearest such day on the preferred side; a time of day (with or without seconds, AM/PM, 'at') is that time today, moved by a day as PreferredDateSource says. Left out are the known misreadings: two digits beside a month name in orders with the year before the day, February on the 29th to 31st of a month, 29 February moved to a century year without it, a time of day whose move leaves the current month or with PreferredMonthOfYear other than the current one.", "quantifier": "every day, month, year, weekday and time of day in every spelling of these forms, every parser state and configuration with English first, every order of Go's random map iteration of the zone table, every base time in a zone with one offset", "why_tests_cant": "the result depends on the current time, three preferences, the date order and all digits at once, through the whole pipeline; tests fix a handful of current times", "anchors": ["parser.go: Parse", "internal/language/translate.go: Translate", "internal/parser/absolute/parser.go: Init, Parse, correctForTimeFrame, correctForMonth, correctForDay", "internal/parser/absolute/root.go: createDateTime"]}
{"id": "C57", "title": "A Parser object can be reused; what Search reports", "statement": "Any call of Parse, Search or SearchWithLanguage on a Parser that was used before for any sequence of calls (whatever they returned) returns exactly what it returns on a new Parser, unless it sets TryPreviousLocales or names a language twice. Searches leave no trace in what Parse answers, even with TryPreviousLocales. Every result of a search has the searched language as its Locale, and the time and period of a date that Parse answers with the caller's settings; Search reports what SearchWithLanguage reports for the language it names, and that language is one of those searched or the first of DefaultLanguages.", "quantifier": "every sequence of earlier calls with any configurations, texts and times, every later call, every text and language", "why_tests_cant": "it ranges over all histories of calls on one object", "anchors": ["parser.go:Parser", "parser.go:Parse", "search.go:Search", "search.go:SearchWithLanguage", "search.go:initUniqueCharsets"]}
{"id": "C58", "title": "Several locales are tried one by one", "statement": "Parse asked for several locales or languages (without TryPreviousLocales and DefaultLanguages) gives exactly what the first of them that reads the text gives when asked for alone: in the given order with UseGivenOrder, else by popularity of the language and then by name. It reports an unknown format exactly if none of them, asked alone, reads the text. Hence asking for more locales never loses a date, without UseGivenOrder the order and repetition of the request do not matter, and a result is always reproduced by asking for its own locale alone.", "quantifier": "all texts, formats, valid configurations with acceptable locales/languages/region, all parser types, any language detector, any history of earlier calls on the parser", "why_tests_cant": "it relates the outcome of one call to the outcomes of other calls for every text and every combination of the 504 locales; interference between locales (shared lists, early exits) only shows for particular combinations", "anchors": ["/repo/parser.go: Parse, getApplicableLocales", "/repo/internal/language/loader.go: GetLocales", "/repo/config.go: Configuration"]}
{"id": "C59", "title": "A complete date is made of words of the text", "statement": "Under StrictParsing every date the absolute parser returns is made of words of the text: three different words (maximal runs of digits or of letters) stand for the day (one or two digits, 1-31), the month (one or two digits, 1-12, or an English month name) and the year (four digits, or two), and the result shows exactly these, except that a two digit year follows PreferredDateSource, 29 February of a common year moves to the leap year PreferredDateSource asks for, any other day the month does not have becomes its last day, and the year 0000 means the current year. The only other possibility is that a two digit word standing before a four digit year serves as day or month (or both) for lack of another word; the result then still shows these numbers if they are a date.", "quantifier": "all texts, all settings (date order, preferences, required parts), all current times in a zone with a fixed offset, both outcomes of Go's random map iteration", "why_tests_cant": "it is a claim about every text, including garbage: no number may be invented, used twice, or dropped in favour of the current date, whatever tokens precede or follow", "anchors": ["/repo/internal/parser/absolute/parser.go: Init, Parse, parseDigitToken, parseLetterToken, setAndReturn", "/repo/internal/parser/absolute/root.go: Parse, createDateTime, getDatePartValue", "/repo/internal/parser/tokenizer/tokenizer.go: Tokenize"]}
{"id": "C60", "title": "The time of day comes from the text", "statement": "Whenever a Gregorian date string is understood, the time of day of the result (in the zone of the current time) is the meaning of a time of day spelled by words of the string (a word with colons, or two words joined by an isolated period, with the fraction and the am/pm that follow it), whatever preferences move the date; otherwise it is exactly midnight, and that only happens when no word of the string has a colon.", "quantifier": "every string, every setting, every current time in a zone with a fixed offset", "why_tests_cant": "the claim is about where the clock of every accepted string comes from; tests can only show single strings, not that no string acquires a clock from elsewhere (the current time, a date part, a correction step)", "anchors": ["internal/parser/absolute/parser.go: Init, Parse, correctForTimeFrame, correctForDay, correctForMonth", "internal/parser/common/time.go: ParseTime"]}
{"id": "C61", "title": "A relative date is made of the amounts in the text", "statement": "For every text the relative-time parser gets (lower case, as translation leaves it): if no amount with a unit stands in it, or some word begins as none of the words of a relative date does, there is no date. Otherwise the result is the current time, in the zone that applies, moved by exactly the amounts in the text - for every unit the one given last - to the future if the word \"in\" stands in the text or the future is preferred, unless the word \"ago\" does, else to the past; the period is the finest unit mentioned. Digits outside the amounts can at most replace the time of day, never the date.", "quantifier": "all texts, all settings, all current times and time zones, any amounts (whole and within Go's number ranges for the exact value)", "why_tests_cant": "the claim is about every text, however its amounts, words, punctuation and garbage are arranged; tests cannot show that no text acquires an amount, a direction or a date from elsewhere", "anchors": ["internal/parser/relative/parser.go: Parse, parseTime, parseDate, allWordsAreUnits, getRelativeDurations, rxRelativePattern, rxIn, rxAgo, rxRelativeSkipWord"]}
{"id": "C62", "title": "Every word of the text is used, once", "statement": "Whenever a Gregorian date string is understood, every word of it has been used, for exactly one purpose: it belongs to a time of day; or it is the day, the month, the year or the weekday, each given by at most one word; or it is a two-digit year given up for a later four-digit one, or a day given up when a later number before a month's name is the day; or it is one of the words t, year, hour, minute, which are skipped. A string with any other word, with two month names, two weekdays or two four-digit numbers is refused. When day, month and year have words, the result is that date (StrictParsing or not). Known exception: a string that says nothing at all (separators and skipped words) gives today instead of an error.", "quantifier": "every string, every setting, every current time in a zone with a fixed offset", "why_tests_cant": "no finite set of strings shows that no word can be ignored silently in any combination of words and settings", "anchors": ["internal/parser/absolute/parser.go: Init, parseDigitToken, parseLetterToken, setAndReturn, Parse", "internal/parser/absolute/root.go: Parse, getDatePartValue", "internal/parser/tokenizer/tokenizer.go"]}
{"id": "C63", "title": "A locale reads only texts made of its words", "statement": "Whenever Parse gives a date in some locale, the text it was given (cleaned, perhaps without a time zone, and as that locale reads it) is from end to end made of numbers, words of that locale's dictionary, its relative phrases, words to skip (SkipTokens), and characters that are neither letters nor digits, and is not punctuation only. In languages with spaces between words no word is cut in two for this: every run of letters lies inside one dictionary word, relative phrase or skipped word. So a locale reads no text with a letter foreign to it; English reads no letters beyond ASCII. (Locales of DefaultLanguages are tried without this check; a text with a vertical bar is left open.)", "quantifier": "every text, configuration without default languages, list of formats, history of the parser, and every one of the 504 locales", "why_tests_cant": "tests try a few foreign words per language; that no unknown word is ever ignored has to hold for every text and every locale", "anchors": ["internal/language/applicable-check.go: IsApplicable", "internal/language/split.go: Split, splitByKnownWords, findMatchingKnownWord, checkKnownWordNeighbor, splitByNumerals", "parser.go: getApplicableLocales, checkPreviousLocales", "internal/data"]}
{"id": "C64", "title": "Every date comes from the text", "statement": "Whenever Parse gives a date, the text accounts for it. Either one of the caller's formats reads the text, or (if the user lists this kind of parser) a translation of it; or the cleaned text begins with a Unix timestamp (perhaps negative) of 10, 13 or 16 digits, ending there or at a period or blank, and the result is that moment; or one of the texts the result's locale translates it to, without braces and time zone, is entirely made of words of a relative date with at least one amount and unit (said of lower case texts), and the result is the current time moved by these amounts (or that day, with another time of day); or every word of it is used for the day, month, year, weekday or time of day, with the result showing the time of day that is in the text, or midnight, and a complete date as the words give it; or it is a run of digits with at most a colon, and the result is what the first format of the locale's order that can read them gives. Only the kinds of parsers the user listed count: a Parser of timestamps only gives a date for timestamps only. So a text with a word that is of no use in any locale of the library is an error.", "quantifier": "every text, list of formats, configuration whose time has a fixed zone, Parser with any list of kinds and any history, locale data, time zone table and system clock", "why_tests_cant": "tests show that some texts are read and some refused; that no text whatever gives a date out of nothing is a statement about all texts, languages and histories", "anchors": ["parser.go: Parse, tryRelativeTime, tryAbsoluteTime, tryNoSpacesTime, applyTimezone", "internal/parser/timestamp/parser.go: Parse", "internal/parser/relative/parser.go: Parse", "internal/parser/absolute/parser.go: Parse", "internal/parser/nospace/parser.go: Parse, isEligible"]}
{"id": "C65", "title": "The time zone of a result", "statement": "A date read without formats is in the time zone named in the text the locale makes of it; if none is named there, in DefaultTimezone or a fixed offset with its name; if the caller set none, in the zone of CurrentTime or in UTC. Only a timestamp is in the computer's own zone.", "quantifier": "every text, configuration (any CurrentTime, DefaultTimezone, locales, order), parser state and locale", "why_tests_cant": "each kind of parser makes its times in its own way and later code moves them (day and month corrections, AddDate, wall clock kept in another zone): one branch that falls back to UTC or to the computer's zone shows on few texts and only away from UTC", "anchors": ["parser.go: Parse, applyTimezone, stripBracesAndTimezones", "internal/parser/absolute/parser.go: Parse", "internal/parser/relative/parser.go: Parse", "internal/parser/nospace/parser.go: Parse", "internal/parser/timestamp/parser.go: Parse"]}
