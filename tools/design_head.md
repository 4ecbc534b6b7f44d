# go-dateparser in Lean 4: design

The code of /repo (markusmobius/go-dateparser, pinned commit) is modelled function by function as total, computable
Lean functions, and the properties of `properties.jsonl` are proved about this model for all inputs.  Nothing of /repo
is run.  This file says what is modelled and how, what is trusted, how each property is proved and what is missing.

## Layout

- `lean/Verif/Go/*` – the parts of Go's standard library the code leans on: proleptic Gregorian calendar (`Civil`),
  `time.Time`, `time.Date`, `Add`, `AddDate`, locations with arbitrary offset changes (`Time`), `time.Parse`
  (`TimeParse`), `Time.Format` (`TimeFormat`), functions of `strings` (`Strings`), regular expressions with Go's
  leftmost-first semantics as a backtracking matcher (`Regexp`), `float64` arithmetic with round-to-nearest-even
  (`Float`).
- `lean/Verif/Model/*` – the model of /repo.  Every definition cites file and lines and states simplifications.
- `lean/Verif/Spec/*` – small specifications that do not mention the model: what a numeric date, a time of day, a
  relative phrase, a zone in a text, a linearisation of calls, ... is.  `Spec/Demo*` are concrete environments used to
  show that hypotheses can be met.
- `lean/Verif/Lemmas/*` – proofs.
- `lean/Verif/Props/*` – the theorems of the properties, named `Cnn_...`, and beside each an `example` meeting its
  hypotheses.  Theorems with suffix `_partial` prove only part of a property.
- `lean/Verif/Data/*` – tables generated from /repo by `tools/gen_*.py`.
- `tools/manifest.py` writes `MANIFEST.json` from the theorem names and `tools/notes.json`; `tools/design.py` writes
  this file.

## Modelling conventions

- A Go string is the list of its characters (`List Char`): inputs are valid UTF-8.  Byte offsets become character
  positions, which keep their order; where the code cuts inside a character (PopTzOffset) the model says so explicitly.
- Maps with fixed keys are structures of `Option`s; tables are association lists; random map iteration order is an
  explicit parameter (any permutation), so a theorem holds for every order Go may choose.
- Loops are structural recursion, or recursion with fuel where the fuel is proved never to run out.
- A panic (index out of range, nil dereference, division by zero) is an explicit `none`, or a `Fault` in
  `Model/Checked`, which also has faults for endless loops.
- `int` is unbounded, except for durations, where Go's int64 wrap-around is modelled, because it can be reached.
- `float64` is exact rational arithmetic followed by rounding (Relative), or, for comparing two quotients of small
  integers in `chooseBestSplit`, comparison of fractions.
- A pointer is its value; where aliasing matters (C25) there is a separate memory model (`Model/Memory`), and where
  concurrency matters (C34) a small-step model (`Model/Concurrent`).
- `time.Now()` and `time.Local` are parameters; time zones are arbitrary functions from instants to offsets (`Loc`).

## What is modelled

| /repo | model |
|---|---|
| root.go, parser.go, config.go, date/date.go | `Model/Parser`, `Model/Whole`, `Model/Setting`, `Model/Memory`, `Model/Concurrent` |
| search.go | `Model/Search`, `Model/Language` (`searchWithLanguage`), `Model/Detector` |
| jalali-parser.go, hijri-parser.go | `Model/Calendars` |
| internal/dateutil, internal/digit, internal/strutil, internal/setting | `Model/DateUtil`, `Model/Digit`, `Model/Strutil`, `Model/Setting` |
| internal/parser/absolute, common, tokenizer | `Model/Absolute`, `Model/Common`, `Model/Tokenizer` |
| internal/parser/relative, nospace, timestamp, formatted | `Model/Relative`, `Model/Nospace`, `Model/Timestamp`, `Model/Formatted` |
| internal/parser/jalali, hijri | `Model/Calendars` |
| internal/timezone | `Model/Timezone`, `Data/Timezones` |
| internal/language | `Model/Loader`, `Model/Language`, `Model/Pattern`, `Model/Permutation`, `Model/Detector`, `Model/Checked` |
| internal/data (merge, locale order, language order, date orders, and words, patterns and dictionaries of all 504 locales) | `Data/*`, `Model/Language` |

## What is not modelled

- internal/regexp (a choice between Go's `regexp` and a re2 binding): both are taken to match as Go's documentation says.
- The calendar libraries go-jalaali and go-hijri: parameters of `Model/Calendars`.
- golang.org/x/text/transform: as a function (`Uni.nfkc`), but for C54, where its chain object is modelled from its published
  source.
- Unicode: case mapping, NFKD decomposition and classification are the parameter `Uni` (with the facts that are needed
  about ASCII as hypotheses, all satisfied by `Spec/Demo`).
- `time.LoadLocation` (the IANA data base on the machine): a parameter.
- scripts/* and data-supplementary (they generate internal/data) and all test files.
- Memory exhaustion and running time.

## Trusted base

- Lean 4.33.0's kernel.  Axioms: only `propext`, `Classical.choice`, `Quot.sound` (checked with `#print axioms` over all
  theorems of `Props`); none of our own, no compiled evaluation: tables are checked with `decide +kernel`.
- That the model mirrors the code: read by hand, function by function, with line citations.
- That `Verif/Go/*` mirrors Go 1.24's standard library (including that time.Parse's special path for RFC 3339 gives what
  its general path gives).
- That `tools/gen_*.py` copy the tables of /repo correctly.
- That the specifications say what the English says.

## How the theorems are tested

Wrong programs: each entry of `seeded/LOG.jsonl` is one edit of the model in a scratch copy (wrong boundary, missed
case, swapped argument, dropped update), the claim it breaks and the theorems that then fail.

## The properties

