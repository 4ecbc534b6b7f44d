import Verif.Go.TimeParse
import Verif.Go.Strings
import Verif.Model.Setting
import Verif.Model.DateUtil
import Verif.Model.Common
import Verif.Model.Strutil
import Verif.Model.Tokenizer
/-! # internal/parser/nospace -/
set_option autoImplicit false
namespace Verif.Model
open Verif.Go

/-- nospace/constants.go:27-32 `dateFormats`. -/
def nsDateFormats : List (List Char) :=
  ["Ymd", "Ydm", "mYd", "mdY", "dYm", "dmY", "ymd", "ydm", "myd", "mdy", "dym", "dmy"].map String.toList
/-- nospace/constants.go:34-38 `timeFormats`. -/
def nsTimeFormats : List (List Char) := ["HMS", "HM", "H"].map String.toList
/-- nospace/constants.go:40-42 `preferredFormats`. -/
def nsPreferred : List (List Char) := ["YmdHM", "YmdHMS"].map String.toList
/-- nospace/constants.go:44-48 `preferredFormatsOrdered8Digit`. -/
def nsEightDigit : List (List Char) :=
  ["01022006", "02012006", "20060102", "20060201", "01200602", "02200601"].map String.toList
/-- nospace/constants.go:50-61 `allFormats`. -/
def nsAllFormats : List (List Char) :=
  nsDateFormats ++ nsDateFormats.flatMap (fun d => nsTimeFormats.map (d ++ ·)) ++ nsTimeFormats

/-- nospace/constants.go:83-94 `createSortedFormats`: a stable sort by "has the prefix or not" is a
stable partition. -/
def createSortedFormats (pre : List Char) : List (List Char) :=
  nsAllFormats.filter (fun f => pre.isPrefixOf (toLower f)) ++
    nsAllFormats.filter (fun f => !pre.isPrefixOf (toLower f))

/-- nospace/constants.go:63-75 `dateTimeFormats`. -/
def dateTimeFormats (order : List Char) : Option (List (List Char)) :=
  if order = "mdy".toList then some (nsPreferred ++ createSortedFormats order)
  else if order ∈ ["myd", "ymd", "ydm", "dmy", "dym"].map String.toList then some (createSortedFormats order)
  else none

/-- nospace/constants.go:77-80 `partSizeMap`; `none`: not a key. -/
def partSize? (c : Char) : Option Nat :=
  if c = 'Y' then some 4
  else if c = 'y' ∨ c = 'm' ∨ c = 'd' ∨ c = 'H' ∨ c = 'M' ∨ c = 'S' then some 2
  else none
/-- A map lookup of a key that is present. -/
def partSize (c : Char) : Nat := (partSize? c).getD 0

/-- nospace/constants.go:103-109 the parts of a format. -/
def formatParts (format : List Char) : List Char := format.filter (fun c => (partSize? c).isSome)

/-- nospace/constants.go:112-125: product of the sizes of the given parts. -/
def permutationCount (ps : List Char) : Nat := (ps.map partSize).foldl (· * ·) 1

/-- nospace/constants.go:138-144; `limit` is the quotient rounded up. -/
def clampLimit (size limit : Nat) : Nat :=
  if limit > size then (if limit % size = 0 then size else limit % size) else limit

/-- nospace/constants.go:131-148: the limits of permutation `i`.  `math.Ceil` of the floating point
quotient is exact (the divisors are powers of two below 2^7). -/
def limitsAt : List Char → Nat → List Nat
  | [], _ => []
  | p :: ps, i =>
    let count := permutationCount ps
    clampLimit (partSize p) ((i + 1 + (count - 1)) / count) :: limitsAt ps i

/-- nospace/constants.go:127-153 `limitPermutations` (filled from the end). -/
def limitPermutations (ps : List Char) : List (List Nat) :=
  ((List.range (permutationCount ps)).map (limitsAt ps)).reverse

/-- nospace/constants.go:169-171: cut the text at the limits. -/
def cutAt : List Nat → List Char → List (List Char)
  | [], _ => []
  | n :: ns, s => s.take n :: cutAt ns (s.drop n)

/-- nospace/constants.go:201-218 `valueIsValid`. -/
def valueIsValid (part : Char) (v : Int) : Bool :=
  if part = 'Y' then v ≥ 1000
  else if part = 'y' then v ≥ 0 && v ≤ 99
  else if part = 'm' then v > 0 && v ≤ 12
  else if part = 'd' then v > 0 && v ≤ 31
  else if part = 'H' then v ≥ 0 && v < 24
  else if part = 'M' ∨ part = 'S' then v ≥ 0 && v < 60
  else false

/-- nospace/constants.go:168-180: values of the parts; `none` when a part is not valid
(`strconv.Atoi` fails on an empty or non-digit text; the texts are at most 4 long). -/
def partValues : List Char → List (List Char) → Option (List (Char × Int))
  | p :: ps, t :: ts =>
    if t.isEmpty || !t.all Char.isDigit then none
    else if !valueIsValid p (natOfDigits t) then none
    else (partValues ps ts).map ((p, natOfDigits t) :: ·)
  | _, _ => some []

/-- nospace/constants.go:220-255 `candidateIsValid`; `nowYear` is `time.Now().Year()`. -/
def candidateIsValid (nowYear : Int) (values : List (Char × Int)) : Bool :=
  let year? := match values.lookup 'Y' with
    | some y => some y
    | none => (values.lookup 'y').map fun y =>
      let century := nowYear / 1000 * 1000
      if y < nowYear - century then y + century else y + (century - 100)
  match year?, values.lookup 'm', values.lookup 'd' with
  | some year, some month, some day => !(decide (day < 1) || decide (day > getLastDayOfMonth year month))
  | _, _, _ => false

/-- nospace/constants.go:155-186: the candidates, not yet joined. -/
def candidateParts (nowYear : Int) (format str : List Char) : List (List (List Char)) :=
  let ps := formatParts format
  (limitPermutations ps).filterMap fun limits =>
    if limits.sum ≠ str.length then none
    else match partValues ps (cutAt limits str) with
      | none => none
      | some values => if candidateIsValid nowYear values then some (cutAt limits str) else none

/-- nospace/constants.go:190-196: one letter replaced. -/
def partLayout (c : Char) : List Char :=
  if c = 'Y' then "2006".toList
  else if c = 'y' then "06".toList
  else if c = 'm' then "1".toList
  else if c = 'd' then "2".toList
  else if c = 'H' then "15".toList
  else if c = 'M' then "4".toList
  else if c = 'S' then "5".toList
  else [c]

/-- nospace/constants.go:188-198: the Go layout. -/
def nsLayout (format : List Char) : List Char :=
  (joinWith ['-'] ((formatParts format).map fun c => [c])).flatMap partLayout

/-- nospace/parser.go:114-128 `getPeriodFromFormat`. -/
def getPeriodFromFormat (format : List Char) : Period :=
  let has (k : String) : Bool := containsStr k.toList format
  if has "02" || has "d" || has "H" || has "M" || has "S" || has "f" then .day
  else if has "01" || has "m" then .month
  else .year

/-- nospace/parser.go:74-79: parts the format does not have; the keys of `formatMapping` are d, m, y
and Y, the last two both meaning the year. -/
def nsMissing (format : List Char) : List (List Char) :=
  (if format.contains 'd' then [] else ["day".toList]) ++
  (if format.contains 'm' then [] else ["month".toList]) ++
  (if format.contains 'y' && format.contains 'Y' then [] else ["year".toList])

/-- nospace/parser.go:57-88: over all (format, candidate) pairs in order, then the ambiguous date. -/
def nsLoop (cfg : Cfg) : List (List Char × List (List Char)) → DateRes → Except Fault DateRes
  | [], ambiguous => if ambiguous.isZero then .error .error else .ok ambiguous
  | (format, parts) :: rest, ambiguous =>
    match timeParse (nsLayout format) (joinWith ['-'] parts) with
    | none => nsLoop cfg rest ambiguous
    | some t =>
      if t.isZero then nsLoop cfg rest ambiguous
      else
        let dt : DateRes := { period := getPeriodFromFormat format, time := t }
        if t.year < 1000 then nsLoop cfg rest dt
        else if checkStrictParsing cfg (nsMissing format) then .ok dt
        else nsLoop cfg rest ambiguous

/-- nospace/parser.go:97-100 `isEligible`: the first run of non-digits is empty or one colon. -/
def nsEligible (s : List Char) : Bool :=
  let r := (s.dropWhile Char.isDigit).takeWhile (fun c => !c.isDigit)
  r = [] || r = [':']

/-- nospace/parser.go:102-112 `findBestMatchingDate`. -/
def findBestMatchingDate (s : List Char) : List (List Char) → DateRes
  | [] => DateRes.zero
  | f :: fs =>
    match timeParse f s with
    | some t => if !t.isZero && t.year ≥ 1000 then { period := getPeriodFromFormat f, time := t } else findBestMatchingDate s fs
    | none => findBestMatchingDate s fs

/-- nospace/parser.go:24-25: the text after clean-up. -/
def nsClean (s : List Char) : List Char := (sanitizeSpaces s).filter (· != ':')

/-- nospace/parser.go:17-95 `Parse`; `nowYear` is `time.Now().Year()` (used by `candidateIsValid`). -/
def nospaceParse (cfg : Cfg) (nowYear : Int) (str : List Char) : Except Fault DateRes :=
  if !nsEligible str then .error .error
  else
    let s := nsClean str
    if s.isEmpty then .error .error
    else
      let best := if cfg.dateOrder.isEmpty && s.length == 8 && s.all Char.isDigit then
        findBestMatchingDate s nsEightDigit else DateRes.zero
      if !best.isZero then .ok best
      else
        let order := if cfg.dateOrder.isEmpty then "mdy".toList else toLower cfg.dateOrder
        match dateTimeFormats order with
        | none => .error .error
        | some formats =>
          let entries := ((tokenize s).filter (·.typ == .digit)).flatMap fun token =>
            formats.flatMap fun f => (candidateParts nowYear f token.text).map fun c => (f, c)
          nsLoop cfg entries DateRes.zero

end Verif.Model
