import Verif.Go.Regexp
import Verif.Model.Setting
import Verif.Data.Timezones
/-!
# internal/timezone

Go iterates over maps in random order when the table of regular expressions is built, so the table is not one list: the
functions take the table as an argument and `IsTable` says which lists can come about.
-/
set_option autoImplicit false
namespace Verif.Model
open Verif.Go Verif.Data

/-- Go's simple case folding, for the letters that occur in the patterns: ASCII letters with the two characters that
fold to `k` and `s`, and Č. -/
def foldC (c : Char) : Char :=
  if c = '\u212a' then 'k' else if c = '\u017f' then 's' else if c = '\u010c' then '\u010d' else toLowerC c

/-- What the search patterns are made of. -/
inductive TzItem where
  /-- a quoted character -/
  | lit (c : Char)
  /-- `(?:UTC|GMT)` -/
  | utcGmt
  /-- `:?` -/
  | optColon
  /-- `.*` -/
  | dots
deriving DecidableEq

/-- A character under `(?i)`. -/
def rxFold (c : Char) : Rx := .chr fun x => foldC x == foldC c
/-- Some characters under `(?i)`. -/
def rxFolds : List Char → Rx
  | [] => .eps
  | c :: r => .seq (rxFold c) (rxFolds r)

/-- `.` -/
def rxDot : Rx := .chr (· != '\n')

def TzItem.rx : TzItem → Rx
  | .lit c => rxFold c
  | .utcGmt => .alt (rxFolds ['U', 'T', 'C']) (rxFolds ['G', 'M', 'T'])
  | .optColon => .opt (rxFold ':')
  | .dots => .star rxDot

def itemsRx : List TzItem → Rx
  | [] => .eps
  | i :: r => .seq i.rx (itemsRx r)

/-- tz-offsets.go:11-15 `OffsetData`: the search pattern in it and which of the two frames around it
(timezones.go:20-22 `(.)%s$`, timezones.go:83-85 `(\W|\d|_)%s($|\W)`). -/
structure TzEntry where
  name : List Char
  items : List TzItem
  atEnd : Bool
  offset : Int
deriving DecidableEq

/-- `\W` under `(?i)`: the two characters that fold to `k` and `s` are word characters. -/
def rxNonWordFold : Rx := .chr fun c => !isWordC (foldC c)

/-- tz-offsets.go:31, 48-49 `(?i)` and the frame. -/
def TzEntry.rx (e : TzEntry) : Rx :=
  if e.atEnd then .seq (.grp 1 rxDot) (.seq (itemsRx e.items) .eos)
  else .seq (.grp 1 (.alt rxNonWordFold (.alt Rx.digit (.chr (· == '_')))))
    (.seq (itemsRx e.items) (.grp 2 (.alt .eos rxNonWordFold)))

def litItems (s : List Char) : List TzItem := s.map .lit

/-- timezones.go:23-37: the eight `AlternativePatterns`, by number, applied to the quoted name; all names are of the
form UTC±hh:mm (`utcZones_form`).  A pattern that does not apply leaves the name. -/
def altItems (k : Nat) (name : List Char) : List TzItem :=
  match name with
  | [u, t, c, s, h1, h2, co, m1, m2] =>
    -- UTC+n, UTC-n, GMT+n, GMT-n:
    if k = 0 then
      if h1 = '0' ∧ m1 = '0' ∧ m2 = '0' then .utcGmt :: litItems [s, h2] else litItems name
    -- UTC+n:mm, UTC-n:mm, GMT+n:mm, GMT-n:mm:
    else if k = 1 then
      if h1 = '0' then .utcGmt :: litItems [s, h2, ':', m1, m2] else litItems name
    -- UTC+nn, UTC-nn, GMT+nn, GMT-nn:
    else if k = 2 then
      if m1 = '0' ∧ m2 = '0' then .utcGmt :: litItems [s, h1, h2] else litItems name
    -- UTC+nnmm, UTC-nnmm, GMT+nnmm, GMT-nnmm:
    else if k = 3 then .utcGmt :: (litItems [s, h1, h2] ++ .optColon :: (litItems [m1, m2] ++ [.dots]))
    -- Others:
    else if k = 4 then litItems [s, h1, h2, co, m1, m2]
    else if k = 5 then litItems [u, t, c, s, h1, h2, m1, m2]
    else if k = 6 then litItems [s, h1, h2, m1, m2]
    else litItems ['G', 'M', 'T', s, h1, h2, co, m1, m2]
  | _ => litItems name

/-- tz-offsets.go:28-43, first entry of the list: the main pattern. -/
def utcMain : List TzEntry := utcZones.map fun z => ⟨z.1, litItems z.1, true, z.2⟩
/-- tz-offsets.go:46-62, first entry of the list: alternative pattern `k`. -/
def utcAlt (k : Nat) : List TzEntry := utcZones.map fun z => ⟨z.1, altItems k z.1, true, z.2⟩
/-- tz-offsets.go:28-43, second entry of the list (it has no alternative patterns). -/
def namedMain : List TzEntry := namedZones.map fun z => ⟨z.1, litItems z.1, false, z.2⟩

/-- tz-offsets.go:21-65: the lists `timezoneOffsets` can be.  The three loops over maps run in any order.  (The map
`regexPatterns` is never written, so nothing is left out.) -/
def IsTable (t : List TzEntry) : Prop :=
  ∃ (main : List TzEntry) (ks : List Nat) (alt : Nat → List TzEntry) (named : List TzEntry),
    t = main ++ ks.flatMap alt ++ named ∧
    main.Perm utcMain ∧ ks.Perm (List.range 8) ∧ (∀ k, (alt k).Perm (utcAlt k)) ∧ named.Perm namedMain

/-- tz-offsets.go:67-77 `rxSearchIgnoreCase.MatchString`: the alternation of all search patterns. -/
def tzSearch (t : List TzEntry) (str : List Char) : Bool := t.any fun e => (itemsRx e.items).matches str

/-- timezone/parser.go:13: `str[:idxs[0]+1]` keeps one byte of the character before the zone; of a character of more
than one byte this is an invalid byte, which is read as U+FFFD. -/
def firstByte (c : Char) : Char := if c.toNat < 128 then c else '\ufffd'

/-- timezone/parser.go:13. -/
def cutMatch (m : RxMatch) : List Char := m.before ++ (m.text.take 1).map firstByte ++ m.after.rest

/-- timezone/parser.go:7-17: the loop. -/
def popLoop (str : List Char) : List TzEntry → List Char × Option Tz
  | [] => (str, none)
  | e :: r =>
    match e.rx.findFirst str with
    | some m => (cutMatch m, some ⟨String.ofList e.name, e.offset⟩)
    | none => popLoop str r

/-- timezone/parser.go:5-20 `PopTzOffset`. -/
def popTzOffset (t : List TzEntry) (str : List Char) : List Char × Option Tz :=
  if tzSearch t str then popLoop str t else (str, none)

end Verif.Model
