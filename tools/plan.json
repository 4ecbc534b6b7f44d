{
 "C01": "civil calendar (days from civil and back), dateutil; closed forms with omega, round trip both ways, successor-date specification",
 "C02": "GetLeapYear's loop with fuel; a lemma that leap years are at most 8 years apart shows that the fuel never runs out",
 "C03": "tokenizer, absolute Init/Parse and time.Parse run symbolically on a token list with arbitrary digits; digit-value lemmas",
 "C04": "the same with month names; the order of the letter directives is an arbitrary permutation; finite case analysis over the name table, lifted over letter case",
 "C05": "weekday block of correctForTimeFrame; modular arithmetic on day numbers",
 "C06": "correctForTimeFrame; order of civil dates against instants in fixed-offset zones",
 "C07": "two digit years of time.Parse and correctForTimeFrame; same method",
 "C08": "time-only branch of correctForTimeFrame",
 "C09": "ApplyDayFromConfig, ApplyMonthFromConfig; calendar lemmas",
 "C10": "absolute Parse; invariant over the token loop of Init (each part set has a token)",
 "C11": "strict check of absolute Parse on top of the invariant of C10",
 "C12": "tokenizer loop; list induction",
 "C13": "timestamp parser; digit list lemmas, regular expressions as predicates",
 "C14": "no-space parser; the candidate formats as mixed-radix enumeration; invariant of the loop",
 "C15": "no-space parser on eight digits; format table by kernel computation, digits symbolic",
 "C16": "relative parser with its regular expressions; matcher lemmas on phrases with arbitrary digits, arithmetic",
 "C17": "AddDate and the end-of-month correction; calendar arithmetic",
 "C18": "int64 durations with wrap-around made explicit",
 "C19": "the float64 computation as rational arithmetic with an error bound for every operation",
 "C20": "PopTzOffset over the generated table in every iteration order; matcher lemmas for the zone patterns",
 "C21": "applyTimezone over arbitrary locations",
 "C22": "parser state machine with the individual parsers as parameters; case analysis of the tries",
 "C23": "the same; invariant over histories of calls",
 "C24": "the same; equality of two histories",
 "C25": "memory model with slices, capacities and in-place append; frame invariant",
 "C26": "validate and validateDateOrder; decision logic",
 "C27": "GetLocales over the generated tables; list induction and kernel computation",
 "C28": "kernel computation over the whole generated tables",
 "C29": "digit ranges as a generated table; list induction and kernel computation per range",
 "C30": "SanitizeSpaces; list induction over runs of white space",
 "C31": "createPermutation; induction over the words",
 "C32": "sentence splitting and splitBy; list induction",
 "C33": "TranslateSearch and search.go with panics as results; invariants, the generated dictionaries for the exceptions",
 "C34": "small-step model of calls with a mutex; simulation by atomic calls (linearisability), progress, invariant",
 "C35": "Jalali and Hijri parsers over the calendar libraries as parameters; symbolic execution as in C03",
 "C36": "formatted parser over the models of time.Parse and Time.Format; a layout is a list of pieces, induction over it",
 "C37": "ParseTime over the model of time.Parse; case analysis over the notations",
 "C38": "absolute parser with date and time; symbolic execution as in C03",
 "C39": "date orders of all locales (generated); C03 and C15 per order",
 "C40": "TranslateSearch and splitting; every piece is a contiguous piece of its text but for white space",
 "C41": "getRelativeBase in parseFoundObjects; induction over the chunks",
 "C42": "chooseBestSplit; minimum under a lexicographic order, stable sort",
 "C43": "merge of locale data, English end to end",
 "C44": "the whole of Parse composed (Model/Whole): sanitising, zone, language check, translation, parsers; kernel evaluation on texts with symbolic digits lifted by relational lemmas to all digits and letter cases",
 "C45": "the same for ISO 8601 texts; round trip with Time.Format; for the other locales by the reduction of their data to the alphabet of these texts (9 classes, Lemmas/IsoClasses), Finnish apart",
 "C46": "Search, initSearchConfig, GetLanguages and the detector modelled (Model/Detector); case analysis on the modelled call",
 "C47": "detector with distinctive characters, candidates and scores; specification by Distinctive and Better; findings on the real character sets (Data/Charsets)",
 "C48": "induction on the history of searches: invariant of the cache of distinctive characters",
 "C49": "Model.SearchWhole joins the models of Search, TranslateSearch, WordIsTz and Parse; specification of texts by pieces (Spec.SearchEnglish); induction on sentences, words (chunk loop) and chunks (found loop) with an invariant on parser state and relative base; each chunk parsed by C44",
 "C50": "Model.Checked repeats the functions of Parse with the places where Go can panic or loop as explicit faults; the theorem is that the checked Parse equals the model of Parse used everywhere else. The conditions on data (patterns match no empty text and always capture the groups read, known words and translations not empty) are checked in the kernel for the 504 locales (Data.Pats)",
 "C51": "Invariant of the loops of the search (Model.Search) over the times used, with the parser of Model.SearchWhole; Spec.SearchSettings says which settings are the same",
 "C52": "Model: the data of all 504 locales (Data/Pats*, generated), Model/Whole. Proof: Lemmas/Reduce shows that for texts over an alphabet the data of a locale may be replaced by its restriction to that alphabet (patterns pruned, words filtered); the kernel computes the restriction of all 504 locales to digits and separators: 7 classes; in each the templates pass, and by the relational lemmas of Lemmas/Whole all digits do. With a time of day: two texts with digits standing for others at once (Lemmas/Tags2), all forms of the time evaluated in each class (Lemmas/NumericTimes*).",
 "C53": "Model: the data of all 504 locales (Data/Pats*), Model/Whole, Unicode tables abstract (Uni). Proof: Lemmas/WordFrame-WordReach follow a text of digits, separators and one word through sanitizing, simplification, splitting and translation symbolically, given decidable facts about the locale and the word; the kernel checks those facts for every month name of every locale (WordMonths1-12); translation result is read by C04_month_name, or C38_month_name_time when a time of day follows (Lemmas/WordTimed, Props/WordTimes).",
 "C54": "the package-level transform.Chain as an object with links and buffers, calls of transform.String as small steps with arbitrary schedules (Model/SharedChain); invariant over the links for an undisturbed call, a constructed schedule for the failure",
 "C55": "Model: the data of all 504 locales (Data/Pats*), Model/Whole, Unicode tables abstract (Uni). Proof: Lemmas/PhraseRx decides, by what characters a text has and how it begins and ends, that a pattern of a locale cannot match it whatever the Unicode tables; Lemmas/PhraseReach follows a phrase through sanitizing, simplification, splitting and translation; the kernel checks the facts for every phrase of every locale (PhraseTables1-4); the translated text is read by C16.",
 "C56": "the composed Parse of C44 on incomplete dates: texts with symbolic digits evaluated by the kernel and lifted; the results at the level of the absolute parser are C05–C09",
 "C57": "Model/Api: the exported methods on one Parser object (state: parser types, remembered locales, distinctive characters), results of a search with their Locale. Invariant of the object over all calls, simulation between two searches with parsers in different states (Lemmas/SearchSim).",
 "C58": "Model: Model/Parser (Parse over abstract parts), Model/Loader, Model/Whole. Proof: from C22_first (the first offer wins) and C27 (which locales are loaded): the offers of a list of locales are the concatenation of the offers of each, and the configuration asking for one locale hands the same settings to the parsers.",
 "C59": "Model: Model/Absolute (Init, Parse and the Gregorian functions), Model/Tokenizer. Proof: an invariant of the loop over the tokens with a ghost position for every part (each part found has its own token, a number taken for the month is a day if a month name follows, a year of four digits blocks further years, at most one two digit year is left over), inverse lemmas for time.Parse with the layouts 2, 1, 2006, 06, January and Jan, and C02 for leap years.",
 "C60": "the absolute parser (Init, Parse), ParseTime and Go's time.Parse; an invariant of the loop over the words (the captured time is made of words), an inversion of every time layout, and preservation of the clock by every correction step (Lemmas/ClockSound, Props/ClockSound, Spec/ClockWords).",
 "C61": "relative/parser.go with the regular expressions as syntax; an inversion of the matcher (whatever the pattern matches is an amount with its unit, and every such amount is matched), FindAll as the inductive relation of the amounts from left to right, words as maximal runs, and the map of last amounts (Lemmas/RelSound, Props/RelativeSound, Spec/RelativeSound).",
 "C62": "the absolute parser (Init, Parse); an invariant of the loop over the words that says for every word already read what it has been used for, on top of the invariant of C59 and the words of a captured time of C60 (Lemmas/EveryWord, Props/EveryWord, Spec/EveryWord).",
 "C63": "the language check (applicable-check.go, split.go) on the data of all 504 locales: the tokens and the pieces that are not captured make up the text, by induction over the cuts at known words, numerals and relative phrases; the groups of the patterns are checked in the data by the kernel; then through getApplicableLocales to Parse (Spec/KnownWords, Lemmas/KnownWords, Lemmas/KnownData, Props/KnownWords).",
 "C64": "the loops of parser.go over locales, kinds and translations lead to one call of one parser, for which C13, C61, C60 with C62, C14, or the eligibility check of nospace apply, or one layout that time.ParseInLocation reads; the zone is exchanged without changing date and clock (C21) (Spec/Sources, Props/Sources).",
 "C65": "the Parse of Model/Whole; the zone is followed through each kind of parser (relativeParse, absoluteParse with its corrections, nospaceParse and its layouts, timestampParse) and applyTimezone; C65_zone for every successful call, with the zones named, absent and fixed as corollaries."
}