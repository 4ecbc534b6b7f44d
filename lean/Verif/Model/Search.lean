import Verif.Go.Strings
/-!
# search.go: from the translated chunks to the dates found

The parser itself (`p.Parse` with a configuration made by `configFromInternal`) is a parameter: any function of the
parser's own state, the current time in the configuration and the text.  `none` as the result of a function returning
`Option` stands for an index out of range, i.e. a panic.
-/
set_option autoImplicit false
namespace Verif.Model
open Verif.Go

/-! ## Pieces of Go's `strings` -/

/-- `strings.Split(s, sep)` for a non-empty separator: characters of a separator found are skipped. -/
def splitGo (sep : List Char) : Nat → List Char → List Char → List (List Char)
  | _, acc, [] => [acc.reverse]
  | k + 1, acc, _ :: s => splitGo sep k acc s
  | 0, acc, c :: s =>
    if sep.isPrefixOf (c :: s) then acc.reverse :: splitGo sep (sep.length - 1) [] s else splitGo sep 0 (c :: acc) s
/-- `strings.Split(s, sep)`. -/
def splitStr (sep s : List Char) : List (List Char) := splitGo sep 0 [] s

/-- `strings.Count(s, sep)` for a non-empty separator: instances that do not overlap. -/
def countGo (sep : List Char) : Nat → List Char → Nat
  | _, [] => 0
  | k + 1, _ :: s => countGo sep k s
  | 0, c :: s => if sep.isPrefixOf (c :: s) then countGo sep (sep.length - 1) s + 1 else countGo sep 0 s
/-- `strings.Count(s, sep)`. -/
def countStr (sep s : List Char) : Nat := countGo sep 0 s

/-- `strings.ReplaceAll(s, old, "")`. -/
def deleteStr (old s : List Char) : List Char := (splitStr old s).flatten

/-- strutil.go:135-145 `TrimChars`. -/
def trimChars (s chars : List Char) : List Char :=
  ((s.dropWhile chars.contains).reverse.dropWhile chars.contains).reverse

/-- `list[j:end]`; `none` if out of range. -/
def slice? {α : Type} (l : List α) (j e : Nat) : Option (List α) :=
  if j ≤ e ∧ e ≤ l.length then some ((l.drop j).take (e - j)) else none

/-! ## Splitting -/

/-- search.go:35-38 `splitResult`. -/
structure SplitResult where
  entryParts : List (List Char)
  originalParts : List (List Char)
deriving DecidableEq

/-- search.go:20-21 `splitters`. -/
def splitters : List (List Char) :=
  [[','], ['،'], ['—', '—'], ['—'], ['–'], ['.'], [' ']]

/-- search.go:316-323: the loop over `j`, from `j` on; `n` is `nEntryParts`, `fuel` bounds the number of turns. -/
def groupLoop (entryParts originalParts : List (List Char)) (splitter : List Char) (i n : Nat) :
    Nat → Nat → Option (List (List Char) × List (List Char))
  | 0, _ => some ([], [])
  | fuel + 1, j =>
    if j < n then do
      let e := min (j + i) n
      let ep ← slice? entryParts j e
      let op ← slice? originalParts j e
      let (a, b) ← groupLoop entryParts originalParts splitter i n fuel (j + i)
      pure (joinWith splitter ep :: a, joinWith splitter op :: b)
    else some ([], [])

/-- search.go:301-333 `splitBy`. -/
def splitBy (entry original splitter : List Char) : Option (List SplitResult) := do
  let entryParts := splitStr splitter entry
  let originalParts := splitStr splitter original
  if countStr splitter entry ≤ 2 then return [⟨entryParts, originalParts⟩]
  let n := entryParts.length
  let (a, b) ← groupLoop entryParts originalParts splitter 2 n n 0
  let (c, d) ← groupLoop entryParts originalParts splitter 3 n n 0
  return [⟨entryParts, originalParts⟩, ⟨a, b⟩, ⟨c, d⟩]

/-- search.go:291-296: one turn of the loop over the splitters. -/
def splitTurn (entry original splitter : List Char) : Option (List SplitResult) :=
  if containsStr splitter entry && countStr splitter entry == countStr splitter original then splitBy entry original splitter
  else some []

/-- search.go:288-299 `splitIfNotParsed`. -/
def splitIfNotParsed (entry original : List Char) : Option (List SplitResult) :=
  (splitters.mapM (splitTurn entry original)).map List.flatten

/-! ## Choosing a split -/

/-- search.go:30-33 `parsedSearch`; no date is a date for which `IsZero` holds. -/
structure ParsedSearch (D : Type) where
  date : Option D
  isRelative : Bool

/-- search.go:40-45 `splitRating`: the ratios with their numerators. -/
structure SplitRating where
  nSubString : Nat
  nNotParsed : Nat
  nWithoutDigit : Nat
deriving DecidableEq

/-- search.go:382-396: `<` of the ratings.  The ratios are compared as fractions (Go: float64 quotients of numbers of
pieces; for less than 2²⁶ pieces the order is the same; without pieces both are 0). -/
def SplitRating.lt (a b : SplitRating) : Bool :=
  if a.nNotParsed * b.nSubString ≠ b.nNotParsed * a.nSubString then
    decide (a.nNotParsed * b.nSubString < b.nNotParsed * a.nSubString)
  else if a.nSubString ≠ b.nSubString then decide (a.nSubString < b.nSubString)
  else if a.nWithoutDigit ≠ b.nWithoutDigit then decide (a.nWithoutDigit < b.nWithoutDigit)
  else false

/-- search.go:341-378: the rating of one split. -/
def rateSplit {D : Type} (isDigit : Char → Bool) (results : List (ParsedSearch D)) (subStrings : List (List Char)) :
    Option SplitRating :=
  if results.length ≤ subStrings.length then
    some ⟨subStrings.length, (results.filter (·.date.isNone)).length,
      ((subStrings.take results.length).filter fun s => !s.any isDigit).length⟩
  else none

/-- search.go:381-399: the first of the best rated (`sort.SliceStable`, then the first one). -/
def firstBest {α : Type} : List (SplitRating × α) → Option (SplitRating × α)
  | [] => none
  | x :: r => match firstBest r with
    | none => some x
    | some y => if y.1.lt x.1 then some y else some x

/-- search.go:335-401 `chooseBestSplit`; the splits as pairs of the two arguments. -/
def chooseBestSplit {D : Type} (isDigit : Char → Bool) (possible : List (List (ParsedSearch D) × List (List Char))) :
    Option (List (ParsedSearch D) × List (List Char)) :=
  if possible.isEmpty then some ([], [])
  else do
    let rated ← possible.mapM fun s => do
      let r ← rateSplit isDigit s.1 s.2
      pure (r, s)
    (firstBest rated).map (·.2)

/-! ## Parsing the chunks -/

/-- What the search needs of the parser: `p.Parse` (with any state `σ` the parser keeps), the time of a date (none
for Go's zero time). -/
structure SearchEnv (σ τ D : Type) where
  parse : σ → Option τ → List Char → σ × Option D
  time : D → Option τ
  isDigit : Char → Bool

section
variable {σ τ D : Type}

/-- search.go:271-286 `getRelativeBase`: the loop from the end. -/
def relativeBaseLoop (env : SearchEnv σ τ D) : List (ParsedSearch D) → Option τ
  | [] => none
  | p :: r => if p.isRelative then relativeBaseLoop env r else p.date.bind env.time
/-- search.go:271-286 `getRelativeBase`. -/
def getRelativeBase (env : SearchEnv σ τ D) (parsedList : List (ParsedSearch D)) : Option τ :=
  relativeBaseLoop env parsedList.reverse

/-- search.go:22 `relativeWords`. -/
def relativeWords : List (List Char) :=
  ["ago".toList, "in".toList, "from now".toList, "tomorrow".toList, "today".toList, "yesterday".toList]

/-- search.go:240-241: the entry that is parsed. -/
def cleanEntry (entry : List Char) : List Char := deleteStr "am".toList (deleteStr "ngày".toList entry)

/-- search.go:238-269 `parseEntry`.  The state is that of the parser and the current time in `iCfg`, which is
overwritten. -/
def parseEntry (env : SearchEnv σ τ D) (st : σ × Option τ) (entry translation : List Char)
    (parsedList : List (ParsedSearch D)) (needRelativeBase : Bool) : (σ × Option τ) × ParsedSearch D :=
  let entry := cleanEntry entry
  let (s, parsed) := env.parse st.1 st.2 entry
  let isRelative := relativeWords.any fun rw => containsStr rw translation
  match (if needRelativeBase then getRelativeBase env parsedList else none) with
  | some base =>
    let (s, parsed) := env.parse s (some base) entry
    ((s, some base), ⟨parsed, isRelative⟩)
  | none => ((s, st.2), ⟨parsed, isRelative⟩)

/-- search.go:203-217: the loop over the parts of one split. -/
def parseParts (env : SearchEnv σ τ D) (need : Bool) (split : SplitResult) : Nat → List (List Char) → σ × Option τ →
    List (ParsedSearch D) → List (List Char) → Option ((σ × Option τ) × List (ParsedSearch D) × List (List Char))
  | _, [], st, res, subs => some (st, res, subs)
  | j, jEntry :: rest, st, res, subs =>
    if jEntry.length ≤ 2 then parseParts env need split (j + 1) rest st res subs
    else do
      let ep ← split.entryParts[j]?
      let (st, parsed) := parseEntry env st jEntry ep res need
      let op ← split.originalParts[j]?
      parseParts env need split (j + 1) rest st (res ++ [parsed]) (subs ++ [trimChars op " .,:()[]-".toList])

/-- search.go:198-222: the loop over the splits. -/
def parseSplits (env : SearchEnv σ τ D) (need : Bool) : List SplitResult → σ × Option τ →
    Option ((σ × Option τ) × List (List (ParsedSearch D) × List (List Char)))
  | [], st => some (st, [])
  | split :: rest, st => do
    let (st, res, subs) ← parseParts env need split 0 split.entryParts st [] []
    let (st, more) ← parseSplits env need rest st
    pure (st, (res, subs) :: more)

/-- search.go:184-232: the loop over the chunks. -/
def foundLoop (env : SearchEnv σ τ D) (need : Bool) (translation original : List (List Char)) : Nat → List (List Char) →
    σ × Option τ → List (ParsedSearch D) → List (List Char) →
    Option ((σ × Option τ) × List (ParsedSearch D) × List (List Char))
  | _, [], st, parsedList, subStrings => some (st, parsedList, subStrings)
  | i, entry :: rest, st, parsedList, subStrings =>
    if entry.length ≤ 2 then foundLoop env need translation original (i + 1) rest st parsedList subStrings
    else do
      let tr ← translation[i]?
      let (st, parsed) := parseEntry env st entry tr parsedList need
      let orig ← original[i]?
      if parsed.date.isSome then
        foundLoop env need translation original (i + 1) rest st (parsedList ++ [parsed])
          (subStrings ++ [trimChars orig " .,:()[]-'".toList])
      else
        let splits ← splitIfNotParsed entry orig
        if splits.isEmpty then foundLoop env need translation original (i + 1) rest st parsedList subStrings
        else do
          let (st, possible) ← parseSplits env need splits st
          let (bestRes, bestSubs) ← chooseBestSplit env.isDigit possible
          if bestRes.length ≤ bestSubs.length then
            let kept := (bestRes.zip bestSubs).filter (·.1.date.isSome)
            foundLoop env need translation original (i + 1) rest st (parsedList ++ kept.map (·.1))
              (subStrings ++ kept.map (·.2))
          else none

/-- search.go:169-236 `parseFoundObjects`; `useTranslation` is `languages[0] == "en"`. -/
def parseFoundObjects (env : SearchEnv σ τ D) (useTranslation : Bool) (translation original : List (List Char))
    (st : σ × Option τ) : Option ((σ × Option τ) × List (ParsedSearch D) × List (List Char)) :=
  foundLoop env st.2.isNone translation original 0 (if useTranslation then translation else original) st [] []

end

end Verif.Model
