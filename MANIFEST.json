{
 "claims": [
  {
   "property": "C01",
   "status": "proved",
   "theorems": [
    "Verif.Props.C01_fields_roundtrip",
    "Verif.Props.C01_shows_date",
    "Verif.Props.C01_leap",
    "Verif.Props.C01_month_length",
    "Verif.Props.C01_month_length_normalised",
    "Verif.Props.C01_next_day",
    "Verif.Props.C01_epoch_thursday"
   ],
   "note": "Calendar arithmetic of the model of Go's time package and of dateutil, all years, all fixed-offset zones (zones with jumps: at wall clocks without a jump)."
  },
  {
   "property": "C02",
   "status": "proved",
   "theorems": [
    "Verif.Props.C02_terminates",
    "Verif.Props.C02_future",
    "Verif.Props.C02_past",
    "Verif.Props.C02_current"
   ],
   "note": "For every year; the loop is shown to stop within 8 steps."
  },
  {
   "property": "C03",
   "status": "proved",
   "theorems": [
    "Verif.Props.C03_numeric_date_order",
    "Verif.Props.C03_numeric_date",
    "Verif.Props.C03_numeric_date_shows",
    "Verif.Props.C03_year_one",
    "Verif.Props.C03_year_zero",
    "Verif.Props.C03_mixed_period",
    "Verif.Props.C03_year_first_swapped",
    "Verif.Props.C03_padding_matters"
   ],
   "note": "All six orders, all separators, all configurations; years from 2 on. C03_year_zero/one and C03_mixed_period show the bounds are needed (findings)."
  },
  {
   "property": "C04",
   "status": "proved",
   "theorems": [
    "Verif.Props.C04_month_name",
    "Verif.Props.C04_month_name_shows"
   ],
   "note": "All six written orders against all six configured orders, any letter case, any separators."
  },
  {
   "property": "C05",
   "status": "proved",
   "theorems": [
    "Verif.Props.C05_weekday",
    "Verif.Props.C05_weekday_shows"
   ],
   "note": "Non-strict, no RequiredParts (a lone weekday has no day, month, year)."
  },
  {
   "property": "C06",
   "status": "proved",
   "theorems": [
    "Verif.Props.C06_year_follows_preference",
    "Verif.Props.C06_day_month",
    "Verif.Props.C06_side",
    "Verif.Props.C06_two_digits_taken_as_year",
    "Verif.Props.C06_month_only_wrong_side"
   ],
   "note": "Year choice and sides proved for strings with day and month (any now, any fixed zone). C06_month_only_wrong_side is a finding: with the day filled in from PreferredDayOfMonth after the year was chosen, the result can be on the wrong side; C06_two_digits_taken_as_year another one."
  },
  {
   "property": "C07",
   "status": "proved",
   "theorems": [
    "Verif.Props.C07_pivot",
    "Verif.Props.C07_century_follows_preference",
    "Verif.Props.C07_two_digit_year",
    "Verif.Props.C07_only_exception",
    "Verif.Props.C07_exception"
   ],
   "note": "All six orders. C07_exception: 29/02/00 is the only date that moves out of its day (C07_only_exception)."
  },
  {
   "property": "C08",
   "status": "partial",
   "theorems": [
    "Verif.Props.C08_time_only_partial",
    "Verif.Props.C08_side_partial",
    "Verif.Props.C08_month_boundary",
    "Verif.Props.C08_first_month"
   ],
   "note": "Proved while the one-day move stays in the current month and PreferredMonthOfYear is the current month; the full statement is false of the code across a month end and with first/last month (C08_month_boundary, C08_first_month). Fractions are cut to six digits."
  },
  {
   "property": "C09",
   "status": "proved",
   "theorems": [
    "Verif.Props.C09_day_filled",
    "Verif.Props.C09_month_and_day_filled",
    "Verif.Props.C09_month_year",
    "Verif.Props.C09_year",
    "Verif.Props.C09_february_on_the_29th",
    "Verif.Props.C09_time_hides_preference",
    "Verif.Props.C09_month_only",
    "Verif.Props.C09_february_future"
   ],
   "note": "For every string where the parts are found, and for the written forms (month+year, year, month). Exceptions are findings: C09_february_on_the_29th, C09_february_future, C09_time_hides_preference."
  },
  {
   "property": "C10",
   "status": "proved",
   "theorems": [
    "Verif.Props.C10_period"
   ],
   "note": "Every string that is understood; every part found has a word of the text that stands for it (stated over the words of the text)."
  },
  {
   "property": "C11",
   "status": "partial",
   "theorems": [
    "Verif.Props.C11_strict_partial",
    "Verif.Props.C11_required_partial",
    "Verif.Props.C11_month_year_refused",
    "Verif.Props.C11_year_refused",
    "Verif.Props.C11_day_month_refused",
    "Verif.Props.C11_time_refused",
    "Verif.Props.C11_two_words"
   ],
   "note": "Every asked-for part has a word of the text that stands for it; incomplete dates of the usual forms are refused. That the words are three different ones is false of the code (C11_two_words, C59_one_word); C59_words gives the exact cases."
  },
  {
   "property": "C12",
   "status": "proved",
   "theorems": [
    "Verif.Props.C12_lossless",
    "Verif.Props.C12_runs",
    "Verif.Props.C12_maximal"
   ],
   "note": "All strings."
  },
  {
   "property": "C13",
   "status": "proved",
   "theorems": [
    "Verif.Props.C13_exact",
    "Verif.Props.C13_only",
    "Verif.Props.C13_negative",
    "Verif.Props.C13_negative_only",
    "Verif.Props.C13_negative_millis"
   ],
   "note": "All strings, both parsers, any local zone. C13_only / C13_negative_only: nothing else is accepted. C13_negative_millis is a finding: the fraction of a negative timestamp is added instead of subtracted."
  },
  {
   "property": "C14",
   "status": "proved",
   "theorems": [
    "Verif.Props.C14_readings",
    "Verif.Props.C14_digits",
    "Verif.Props.C14_strict"
   ],
   "note": "All strings with a DateOrder; computer clock between 2001 and 2999. C14_strict is a finding: under StrictParsing nothing is found."
  },
  {
   "property": "C15",
   "status": "proved",
   "theorems": [
    "Verif.Props.C15_eight_digits",
    "Verif.Props.C15_mdy",
    "Verif.Props.C15_mdy_misread",
    "Verif.Props.C15_no_order"
   ],
   "note": "All orders but MDY in full; for MDY C15_mdy says when it holds and C15_mdy_misread (finding) what happens otherwise: 12251999 is taken as 1225-01-09 09:09. C15_no_order: without a DateOrder."
  },
  {
   "property": "C16",
   "status": "proved",
   "theorems": [
    "Verif.Props.C16_relative",
    "Verif.Props.C16_exact",
    "Verif.Props.C16_with_time",
    "Verif.Props.C16_comma"
   ],
   "note": "Relative date phrases ([in] N unit {sep N unit} [ago] with any separators) with whole amounts: exact moment, direction and period. C16_exact: exact number of seconds in a fixed zone. C16_with_time: with a time of day behind the phrase (all notations of C37) the day reached at that time, period the finer of both; C16_comma: a comma between amounts makes the time behind be ignored. Time zone splitting is a parameter (popTz leaves the phrase unchanged); repeated units are outside these theorems."
  },
  {
   "property": "C17",
   "status": "proved",
   "theorems": [
    "Verif.Props.C17_preserve",
    "Verif.Props.C17_surplus"
   ],
   "note": "Month arithmetic exact; day cut (PreserveEndOfMonth) or run on (without)."
  },
  {
   "property": "C18",
   "status": "partial",
   "theorems": [
    "Verif.Props.C18_fraction_partial",
    "Verif.Props.C18_side_partial",
    "Verif.Props.C18_overflow",
    "Verif.Props.C18_overflow_past"
   ],
   "note": "The claim as stated is false (C18_overflow, C18_overflow_past: int64 overflow). Proved within range: never on the wrong side."
  },
  {
   "property": "C19",
   "status": "proved",
   "theorems": [
    "Verif.Props.C19_fraction",
    "Verif.Props.C19_length",
    "Verif.Props.C19_second_lost",
    "Verif.Props.C19_whole"
   ],
   "note": "C19_fraction: the whole computation in float64 (parsing, decade/week merge, cascaded splitting, additions) with its rounding errors, for every phrase with amounts < 100000; C19_length: exact number of seconds in a zone of one offset; C19_whole; finding: 2.3 hours ago is 2:17:59 (C19_second_lost)."
  },
  {
   "property": "C20",
   "status": "proved",
   "theorems": [
    "Verif.Props.C20_pop",
    "Verif.Props.C20_only",
    "Verif.Props.C20_offset_at_end",
    "Verif.Props.C20_name_at_end",
    "Verif.Props.C20_left_depends_on_order",
    "Verif.Props.C20_offset_depends_on_order",
    "Verif.Props.C20_year_taken"
   ],
   "note": "For every table Go's random map iteration can produce: what is taken is a zone that can be seen in the text (specification: Spec/Timezone), with its offset and leaving the text without it; if none can be seen the text is unchanged; a plain offset, or a known abbreviation in any letter case, at the end of a text without other letters is always taken. Findings proved: what is left ('10:00 UTC+0530') and even the offset (two offsets in one text) depend on the random map order; the year of '15-10-1200' is taken for a zone; one byte of a multi-byte character before the zone is kept (U+FFFD)."
  },
  {
   "property": "C21",
   "status": "proved",
   "theorems": [
    "Verif.Props.C21_named_zone",
    "Verif.Props.C21_default_zone",
    "Verif.Props.C21_no_zone",
    "Verif.Props.C21_wrong_offset"
   ],
   "note": "Named zones and DefaultTimezone of fixed offset, every instant. C21_wrong_offset (finding): with a DefaultTimezone whose offset changes, the offset is looked up at the wrong instant."
  },
  {
   "property": "C22",
   "status": "proved",
   "theorems": [
    "Verif.Props.C22_first",
    "Verif.Props.C22_formats"
   ],
   "note": "Whatever the individual parsers, the translation and the language check do; every history of calls."
  },
  {
   "property": "C23",
   "status": "proved",
   "theorems": [
    "Verif.Props.C23_locale"
   ],
   "note": "Every history. A result read with the caller's formats has an empty Locale."
  },
  {
   "property": "C24",
   "status": "proved",
   "theorems": [
    "Verif.Props.C24_history",
    "Verif.Props.C24_nil"
   ],
   "note": "Every history; the example beside it shows that TryPreviousLocales does depend on history."
  },
  {
   "property": "C25",
   "status": "proved",
   "theorems": [
    "Verif.Props.C25_parse",
    "Verif.Props.C25_search",
    "Verif.Props.C25_copy"
   ],
   "note": "Heap model with slices, capacities and append in place; the caller's configuration and all arrays it points to have the same contents afterwards; the copy equals the original but for the defaults."
  },
  {
   "property": "C26",
   "status": "partial",
   "theorems": [
    "Verif.Props.C26_accepted",
    "Verif.Props.C26_required_parts_refused",
    "Verif.Props.C26_required_parts_useless",
    "Verif.Props.C26_ranges_partial",
    "Verif.Props.C26_date_order",
    "Verif.Props.C26_rest_of_config"
   ],
   "note": "Preference ranges and DateOrder proved. The RequiredParts check is inverted in the code (C26_required_parts_refused, C26_required_parts_useless): part of the property is false of the code."
  },
  {
   "property": "C27",
   "status": "proved",
   "theorems": [
    "Verif.Props.C27_loaded",
    "Verif.Props.C27_given_order",
    "Verif.Props.C27_locales_accepted",
    "Verif.Props.C27_languages_accepted"
   ],
   "note": "GetLocales modelled over the full generated tables (504 locales, 205 languages)."
  },
  {
   "property": "C28",
   "status": "proved",
   "theorems": [
    "Verif.Props.C28_ranking",
    "Verif.Props.C28_locales",
    "Verif.Props.C28_locale_language"
   ],
   "note": "Over the full generated tables."
  },
  {
   "property": "C29",
   "status": "partial",
   "theorems": [
    "Verif.Props.C29_digits_partial",
    "Verif.Props.C29_idempotent",
    "Verif.Props.C29_misread"
   ],
   "note": "Proved for every string without the 50 characters the code gets wrong (all Unicode 15 and 16 digits); idempotence proved for every string. Finding proved: the mathematical digits other than the bold ones become characters that are not digits (the double-struck zero becomes a colon), because the generated range covers five blocks of ten. Missing: the property itself for those characters, of which it is false."
  },
  {
   "property": "C30",
   "status": "proved",
   "theorems": [
    "Verif.Props.C30_words",
    "Verif.Props.C30_words_kept",
    "Verif.Props.C30_idempotent",
    "Verif.Props.C30_nbsp_glues"
   ],
   "note": "All strings. Non-breaking spaces are deleted rather than turned into spaces (C30_nbsp_glues)."
  },
  {
   "property": "C31",
   "status": "proved",
   "theorems": [
    "Verif.Props.C31_all_combinations",
    "Verif.Props.C31_mem",
    "Verif.Props.C31_once",
    "Verif.Props.C31_empty_panics"
   ],
   "note": "The alternatives are exactly all combinations in order, each once when the alternatives of a word differ; a word without alternatives would be a division by zero."
  },
  {
   "property": "C32",
   "status": "proved",
   "theorems": [
    "Verif.Props.C32_split_lossless",
    "Verif.Props.C32_cuts",
    "Verif.Props.C32_found",
    "Verif.Props.C32_exact",
    "Verif.Props.C32_single_spaces",
    "Verif.Props.C32_sentences",
    "Verif.Props.C32_sentences_spanish"
   ],
   "note": "Sentences (in Spanish for the texts that do not panic, see C33), candidate pieces (C32_cuts: exactly which), and dates found with their texts. C32_exact: with a given current time, exactly what is found, for every parser whose answers at that time are a function of the text (an invariant of its state may be assumed)."
  },
  {
   "property": "C33",
   "status": "partial",
   "theorems": [
    "Verif.Props.C33_no_panic_partial",
    "Verif.Props.C33_unspaced",
    "Verif.Props.C33_spanish_panics",
    "Verif.Props.C33_unspaced_panics",
    "Verif.Props.C33_supported_partial"
   ],
   "note": "C33_supported_partial: 496 of the 504 supported locales, for every parser behaviour and text (468 without condition, Japanese and Chinese among them; the 28 Spanish ones for texts without an opening question or exclamation mark). The full claim is false of the code: C33_spanish_panics (group 1 unset for a leading question mark) and C33_unspaced_panics (one dictionary word in yue, zh-Hans, zh-Hant) prove the panics. Language detection in Search: C47, C52."
  },
  {
   "property": "C34",
   "status": "proved",
   "theorems": [
    "Verif.Props.C34_linearizable",
    "Verif.Props.C34_exclusive",
    "Verif.Props.C34_no_deadlock",
    "Verif.Props.C34_no_duplicates"
   ],
   "note": "Any number of calls, every interleaving of steps that each access one field or element of the object; mutual exclusion is derived from the mutex, not assumed. Sequentially consistent memory; panics inside Parse are not modelled."
  },
  {
   "property": "C35",
   "status": "partial",
   "theorems": [
    "Verif.Props.C35_jalali_month_name_time",
    "Verif.Props.C35_jalali_leap_year",
    "Verif.Props.C35_hijri_leap_year",
    "Verif.Props.C35_jalali_date_time",
    "Verif.Props.C35_hijri_date_time",
    "Verif.Props.C35_jalali_day_words",
    "Verif.Props.C35_jalali_weekday",
    "Verif.Props.C35_jalali_words",
    "Verif.Props.C35_jalali_two_digit_year",
    "Verif.Props.C35_hijri_two_digit_year",
    "Verif.Props.C35_jalali_offset",
    "Verif.Props.C35_hijri_offset",
    "Verif.Props.C35_jalali_numeric",
    "Verif.Props.C35_jalali_next_leap_year",
    "Verif.Props.C35_jalali_day31_refused",
    "Verif.Props.C35_jalali_month_name",
    "Verif.Props.C35_jalali_month_name_day31_refused",
    "Verif.Props.C35_jalali_year_first_refused",
    "Verif.Props.C35_hijri_numeric",
    "Verif.Props.C35_hijri_even_month_clipped",
    "Verif.Props.C35_hijri_late_day_refused"
   ],
   "note": "Complete dates with four- and two-digit years, leap-year stand-ins, numeric dates with a time of day, Arabic half-day words and offsets; Persian weekdays, days in words, month names, and after them a time of day in figures or in Persian words; the calendar libraries are parameters. Not proved: incomplete dates. Findings proved: day 31 refused, even Hijri months clipped to 29, two-digit day before a month name read as a year with YMD/YDM orders."
  },
  {
   "property": "C36",
   "status": "proved",
   "theorems": [
    "Verif.Props.C36_first_that_fits",
    "Verif.Props.C36_none_fits",
    "Verif.Props.C36_read_back",
    "Verif.Props.C36_instant",
    "Verif.Props.C36_zone_name",
    "Verif.Props.C36_unknown_zone_name",
    "Verif.Props.C36_current_year",
    "Verif.Props.C36_month_period",
    "Verif.Props.C36_year_period",
    "Verif.Props.C36_standard_offset",
    "Verif.Props.C36_standard_plain",
    "Verif.Props.C36_day_of_year",
    "Verif.Props.C36_day_without_month",
    "Verif.Props.C36_leap_day",
    "Verif.Props.C36_literal_mar",
    "Verif.Props.C36_year_zero",
    "Verif.Props.C36_strict_ignored"
   ],
   "note": "Every time of the years 2-9999, every layout of Go's package time whose text is unambiguous (a syntactic criterion clearLayout is proved sufficient; standard layouts covered): read back with the same fields (C36_read_back), the same instant with a numeric zone (C36_instant) or a known abbreviation (C36_zone_name), first fitting layout wins (C36_first_that_fits), unfitting layouts change nothing (C36_none_fits), missing year/month/day filled from the configuration. Not true of the code, proved with witnesses: day-of-year layouts, day without month, 29 Feb without a year, literal Mar, year 0000, StrictParsing ignored."
  },
  {
   "property": "C37",
   "status": "proved",
   "theorems": [
    "Verif.Props.C37_hm",
    "Verif.Props.C37_hour",
    "Verif.Props.C37_hmMer",
    "Verif.Props.C37_hms",
    "Verif.Props.C37_hmsFrac",
    "Verif.Props.C37_hmsMer",
    "Verif.Props.C37_hmsFracMer",
    "Verif.Props.C37_time_of_day",
    "Verif.Props.C37_fraction"
   ],
   "note": "Full characterisation of ParseTime on every notation; 13:00 PM is accepted and 13:00:00 PM refused, as the code does (Notation.meaning)."
  },
  {
   "property": "C38",
   "status": "proved",
   "theorems": [
    "Verif.Props.C38_numeric_date_time_order",
    "Verif.Props.C38_numeric_date_time",
    "Verif.Props.C38_month_name_time"
   ],
   "note": "All orders, separators (the one before the time without a full stop), all written time notations; fractions are cut to six digits as the code does."
  },
  {
   "property": "C39",
   "status": "partial",
   "theorems": [
    "Verif.Props.C39_separated_partial",
    "Verif.Props.C39_unseparated",
    "Verif.Props.C39_unseparated_partial"
   ],
   "note": "False for the no-separator parser: C39_unseparated proves that with the built-in order of bg, bs*, hr*, hu, ko*, sr* no string at all is parsed; C39_*_partial prove the claim for all other locales (Tagalog has no order; then MDY is assumed)."
  },
  {
   "property": "C40",
   "status": "proved",
   "theorems": [
    "Verif.Props.C40_found_text"
   ],
   "note": "For every language written with spaces (and so for all locales of C33_supported_partial but ja and zh), Spanish included when the search does not panic."
  },
  {
   "property": "C41",
   "status": "proved",
   "theorems": [
    "Verif.Props.C41_relative_base",
    "Verif.Props.C41_given_time",
    "Verif.Props.C41_relative_words",
    "Verif.Props.C41_rejected_date_stays"
   ],
   "note": "Every parser (a parameter of the model) and every list of dates found before. C41_given_time: the search depends on the parser only at the given time. C41_relative_words: which dates count as relative. C41_rejected_date_stays (finding): a date in a rejected cut stays the current time."
  },
  {
   "property": "C42",
   "status": "proved",
   "theorems": [
    "Verif.Props.C42_best_split",
    "Verif.Props.C42_empty_split_wins"
   ],
   "note": "Ratios compared as fractions (Go: float64 quotients). The first of the best is chosen. C42_empty_split_wins: a split leaving only pieces of at most two characters wins over any other (finding)."
  },
  {
   "property": "C43",
   "status": "partial",
   "theorems": [
    "Verif.Props.C43_merge",
    "Verif.Props.C43_regional_english_fails",
    "Verif.Props.C43_regional_numeric_partial",
    "Verif.Props.C43_regional_relative_partial"
   ],
   "note": "False of the code: C43_regional_english_fails proves that Parse refuses every month-name date for 101 regional English locales (known words are not inherited by merge), although C44_month_name holds for English. What does hold: numeric dates and times in every regional locale (C43_regional_numeric_partial, C45, C52), relative words and phrases (C43_regional_relative_partial: what a language reads, each of its regional locales reads as the same time), and C43_merge: for any parent and child data, everything else is inherited, each word with the translations of both."
  },
  {
   "property": "C44",
   "status": "proved",
   "theorems": [
    "Verif.Props.C44_numeric_date",
    "Verif.Props.C44_month_name",
    "Verif.Props.C44_relative",
    "Verif.Props.C44_words",
    "Verif.Props.C44_ambiguous_hour",
    "Verif.Props.C44_date_time"
   ],
   "note": "Whole call of Parse in the model (Env.parse), for all complete numeric dates with / or . (or - with the year first), alone or followed by a time of day (C44_date_time), all dates with a month name, amounts of at most three digits of any unit (ago, in, later) and 28 relative words. Translation and zone search are evaluated by the kernel on texts with symbolic digits and lifted to all digits and letter cases by relational lemmas. C44_ambiguous_hour (finding): in the hour a zone's clock shows twice, '10 minutes ago' is 50 minutes in the future."
  },
  {
   "property": "C45",
   "status": "proved",
   "theorems": [
    "Verif.Props.C45_local",
    "Verif.Props.C45_utc",
    "Verif.Props.C45_offset",
    "Verif.Props.C45_roundtrip_utc",
    "Verif.Props.C45_roundtrip_offset",
    "Verif.Props.C45_gap_hour",
    "Verif.Props.C45_local_everywhere",
    "Verif.Props.C45_utc_everywhere",
    "Verif.Props.C45_offset_everywhere",
    "Verif.Props.C45_finnish"
   ],
   "note": "End to end: C45_local, C45_utc, C45_offset, C45_roundtrip_utc, C45_roundtrip_offset for English; C45_local_everywhere, C45_utc_everywhere, C45_offset_everywhere for each of the 503 supported locales other than Finnish. C45_finnish (finding): in Finnish 2015-03-05T10:11:12 is five hours before now. C45_gap_hour is the finding that the no-gap hypothesis is needed. Offsets with milliseconds are not covered."
  },
  {
   "property": "C46",
   "status": "proved",
   "theorems": [
    "Verif.Props.C46_language",
    "Verif.Props.C46_same_as_with_language",
    "Verif.Props.C46_unknown_refused"
   ],
   "note": "C46_language, C46_same_as_with_language, C46_unknown_refused: for every configuration, text, parser state, language data and detector."
  },
  {
   "property": "C47",
   "status": "proved",
   "theorems": [
    "Verif.Props.C47_common",
    "Verif.Props.C47_common_default",
    "Verif.Props.C47_distinctive",
    "Verif.Props.C47_best",
    "Verif.Props.C47_none",
    "Verif.Props.C47_hyphen"
   ],
   "note": "C47_common(_default), C47_distinctive, C47_best, C47_none: the whole choice; finding: a hyphen makes an English text French with languages [en, fr] on the real character sets (C47_hyphen)."
  },
  {
   "property": "C48",
   "status": "proved",
   "theorems": [
    "Verif.Props.C48_history",
    "Verif.Props.C48_repeated_language",
    "Verif.Props.C48_concurrent"
   ],
   "note": "C48_history for configurations without repeated languages; findings: repeated languages (C48_repeated_language), concurrent searches reading the cache without lock (C48_concurrent)."
  },
  {
   "property": "C49",
   "status": "proved",
   "theorems": [
    "Verif.Props.C49_results",
    "Verif.Props.C49_search_with_language",
    "Verif.Props.C49_search",
    "Verif.Props.C49_english_only",
    "Verif.Props.C49_lower_case_words",
    "Verif.Props.C49_order_ignored",
    "Verif.Props.C49_bracketed",
    "Verif.Props.C49_dotted",
    "Verif.Props.C49_undetected"
   ],
   "note": "Whole search for English modelled end to end; link words and other words are specified from the English dictionary; the dictionary is the generated data. Findings proved for the demo surroundings (bracketed, dotted, undetected) and in general (order ignored)."
  },
  {
   "property": "C50",
   "status": "proved",
   "theorems": [
    "Verif.Props.C50_parse_returns",
    "Verif.Props.C50_calls_return",
    "Verif.Props.C50_absolute"
   ],
   "note": "For Parse: the detector callback DetectLanguagesFunction and a DateOrder callback of the user are assumed to return, and the libraries (regexp, Unicode, time) to be total. Search can panic (C33)."
  },
  {
   "property": "C51",
   "status": "proved",
   "theorems": [
    "Verif.Props.C51_search_with_language",
    "Verif.Props.C51_search",
    "Verif.Props.C51_given_time"
   ],
   "note": "For every text and language for which the search does not panic (C33)."
  },
  {
   "property": "C52",
   "status": "proved",
   "theorems": [
    "Verif.Props.C52_date_time",
    "Verif.Props.C52_numeric_date",
    "Verif.Props.C52_orders",
    "Verif.Props.C52_own_order"
   ],
   "note": "All 504 locales, end to end (Parse), under Surroundings (nfkc/lower/classes on ASCII, timezone table, clock) and HasLocaleData (the generated data). C52_date_time: the same dates followed by a time of day h:mm or h:mm:ss, in all 504 locales."
  },
  {
   "property": "C53",
   "status": "proved",
   "theorems": [
    "Verif.Props.C53_sept",
    "Verif.Props.C53_month_name_time",
    "Verif.Props.C53_ascii_time",
    "Verif.Props.C53_month_name",
    "Verif.Props.C53_ascii"
   ],
   "note": "End to end (Parse) under Surroundings and HasLocaleData; excluded locales (unreadLocales) and names (unreadMonths) are listed in Spec/Words; C53_sept proves that one of the excluded names is misread."
  },
  {
   "property": "C54",
   "status": "partial",
   "theorems": [
    "Verif.Props.C54_undisturbed_partial",
    "Verif.Props.C54_other_text",
    "Verif.Props.C54_own_text_partial"
   ],
   "note": "False of the code: C54_other_text proves, for any two texts of equal length, that two calls of ParseJalali at the same time have an interleaving in which one returns the result for the other's text, because strutil's transform.Chain is a package variable used without a lock. Proved: whatever state other calls (finished or not) left in the shared object, a call that is not disturbed while it uses it is right (C54_undisturbed_partial, C54_own_text_partial). golang.org/x/text/transform is modelled from its published source (not in the repository), for texts shorter than its buffers; the same object is used by Parse and Search."
  },
  {
   "property": "C55",
   "status": "proved",
   "theorems": [
    "Verif.Props.C55_relative_phrase",
    "Verif.Props.C55_meanings",
    "Verif.Props.C55_ascii",
    "Verif.Props.C55_pozajtra"
   ],
   "note": "C55_relative_phrase: all locales, all phrases of the data but five that a simplification rule rewrites first (Spec rewrittenPhrases; listed, e.g. Polish jutro); C55_ascii: any letter case without Unicode assumptions; C55_meanings: the 27 meanings are all there are, but for bare amounts (Arabic, Indonesian) and 'in 2 days'. The units of the clock assume that the clock of the zone does not show the base time twice (see C44). Finding C55_pozajtra: a phrase whose translation has a plural is not read."
  },
  {
   "property": "C56",
   "status": "proved",
   "theorems": [
    "Verif.Props.C56_day_month",
    "Verif.Props.C56_month_year",
    "Verif.Props.C56_month",
    "Verif.Props.C56_year",
    "Verif.Props.C56_two_digit_year",
    "Verif.Props.C56_weekday",
    "Verif.Props.C56_time"
   ],
   "note": "Whole call of Parse in the model (Env.parse). Day+month, month+year, month, year, two digit years, weekdays and times of day. The misreadings the statement leaves out are proved as findings: C06_two_digits_taken_as_year, C09_february_on_the_29th, C09_february_future, C07_exception, C08_month_boundary, C08_first_month. Base times from year 10 on (the zero time is Go's 'no date')."
  },
  {
   "property": "C57",
   "status": "proved",
   "theorems": [
    "Verif.Props.C57_history",
    "Verif.Props.C57_search_no_trace",
    "Verif.Props.C57_reported",
    "Verif.Props.C57_search"
   ],
   "note": "The detection function is taken to be a pure function; a call that panics ends the history. C49_results gives the final results for English texts."
  },
  {
   "property": "C58",
   "status": "proved",
   "theorems": [
    "Verif.Props.C58_in_order",
    "Verif.Props.C58_one_by_one",
    "Verif.Props.C58_given_order",
    "Verif.Props.C58_more",
    "Verif.Props.C58_order_irrelevant",
    "Verif.Props.C58_alone",
    "Verif.Props.C58_no_date"
   ],
   "note": "For the whole Parse of the model (any Env); DefaultLanguages and TryPreviousLocales are excluded (C22_first covers them)."
  },
  {
   "property": "C59",
   "status": "proved",
   "theorems": [
    "Verif.Props.C59_words",
    "Verif.Props.C59_changed",
    "Verif.Props.C59_one_word"
   ],
   "note": "At the level of the absolute (Gregorian) parser, i.e. after translation to English; the zone of the current time has a fixed offset."
  },
  {
   "property": "C60",
   "status": "proved",
   "theorems": [
    "Verif.Props.C60_clock",
    "Verif.Props.C60_midnight",
    "Verif.Props.C60_dotted",
    "Verif.Props.C60_inside_word"
   ],
   "note": "At the level of the absolute (Gregorian) parser, i.e. after translation to English; the zone of the current time has a fixed offset. C60_dotted and C60_inside_word show two surprising readings."
  },
  {
   "property": "C61",
   "status": "proved",
   "theorems": [
    "Verif.Props.C61_amounts",
    "Verif.Props.C61_refuses",
    "Verif.Props.C61_exact",
    "Verif.Props.C61_date",
    "Verif.Props.C61_beginnings"
   ],
   "note": "At the level of the relative parser, i.e. after translation to English and removal of the time zone. The exact value is proved for whole amounts in range (fractions: C19). C61_beginnings shows that only the beginnings of words are looked at."
  },
  {
   "property": "C62",
   "status": "proved",
   "theorems": [
    "Verif.Props.C62_words",
    "Verif.Props.C62_refuses",
    "Verif.Props.C62_twice",
    "Verif.Props.C62_former_day",
    "Verif.Props.C62_nothing"
   ],
   "note": "At the level of the absolute (Gregorian) parser, i.e. after translation to English; the zone of the current time has a fixed offset. C62_words accounts for every word; C62_refuses and C62_twice are the refusals; C62_nothing and C62_former_day show the exceptions (findings 65, 66)."
  },
  {
   "property": "C63",
   "status": "proved",
   "theorems": [
    "Verif.Props.C63_known_words",
    "Verif.Props.C63_own_letters",
    "Verif.Props.C63_each_word",
    "Verif.Props.C63_english"
   ],
   "note": "C63_known_words: pieces as in the statement, for every text, history and locale of the library; C63_each_word: every run of letters is inside one dictionary word, relative phrase or skipped word (languages with word spacing); C63_own_letters: no foreign letters; C63_english: for English only ASCII letters (and U+212A, U+017F). Stated on the text as the locale reads it (normalised, simplified by the locale's rules): what Unicode normalisation does is a parameter. Left open: texts with '|' (the library's own separator), and, for letters, read texts with a line feed."
  },
  {
   "property": "C64",
   "status": "proved",
   "theorems": [
    "Verif.Props.C64_search",
    "Verif.Props.C64_search_any_time",
    "Verif.Props.C64_any_formats",
    "Verif.Props.C64_sources",
    "Verif.Props.C64_timestamps_only",
    "Verif.Props.C64_refuses",
    "Verif.Props.C64_refuses_all"
   ],
   "note": "C64_any_formats: every successful Parse, any formats, any configuration with a fixed zone for the current time, any parser state; by way of C13, C61, C60_clock, C62_words, C14_readings. C64_sources: without formats. C64_timestamps_only: a parser of timestamps. C64_refuses, C64_refuses_all: a text no locale has a use for is an error; shown of a text and the English data. C64_search: every date SearchWithLanguage finds with a current time given is accounted for by the chunk or piece it is reported with; C64_search_any_time: without one, by the text of a question to the parser (fixed zones). The digits' value is said for system years 2001 to 2999, without StrictParsing and with the locale's data known (KnownState, as every reachable Parser)."
  },
  {
   "property": "C65",
   "status": "proved",
   "theorems": [
    "Verif.Props.C65_zone",
    "Verif.Props.C65_named",
    "Verif.Props.C65_utc",
    "Verif.Props.C65_fixed"
   ],
   "note": "C65_zone: every successful Parse without formats, any configuration, any parser state, any zone (fixed or not). C65_named, C65_utc: one zone named, none named. C65_fixed: fixed zones stay fixed. Formats: see C16."
  }
 ]
}