import Verif.Model.SearchWhole
import Verif.Spec.Whole
/-! # Specification vocabulary: English texts with dates in them -/
set_option autoImplicit false
namespace Verif.Spec
open Verif.Go Verif.Model Verif.Data

/-- A date standing in a text: numeric, in some order with `/` (or `-`, year first), or with a month name. -/
inductive DatePhrase where
  | numeric (w : Order) (sep : Char) (d m y : List Char)
  | named (f : MonthForm) (d mon y : List Char) (n : Int)

/-- As written. -/
def DatePhrase.write : DatePhrase → List Char
  | .numeric w sep d m y => w.write d m y [sep] [sep]
  | .named f d mon y _ => f.write d mon y

def DatePhrase.year : DatePhrase → Int
  | .numeric _ _ _ _ y => number y
  | .named _ _ _ y _ => number y
def DatePhrase.month : DatePhrase → Int
  | .numeric _ _ _ m _ => number m
  | .named _ _ _ _ n => n
def DatePhrase.day : DatePhrase → Int
  | .numeric _ _ d _ _ => number d
  | .named _ d _ _ _ => number d

/-- One or two digits. -/
def OneOrTwo (s : List Char) : Prop := IsNumeral s ∧ s.length ≤ 2
/-- Four digits. -/
def FourDigit (s : List Char) : Prop := IsNumeral s ∧ s.length = 4

/-- The seconds of midnight of that day on a clock. -/
def DatePhrase.midnight (x : DatePhrase) : Int := wallOf x.year x.month x.day 0 0 0 0

/-- A complete and existing date.  A numeric one has the month before the day, as English has. -/
structure DatePhrase.Ok (x : DatePhrase) : Prop where
  form : match x with
    | .numeric w sep d m y => Order.mdy.Agrees w ∧ (sep = '/' ∨ (sep = '-' ∧ w.yearPlace = 0)) ∧ OneOrTwo d ∧ OneOrTwo m ∧ FourDigit y
    | .named _ d mon y n => OneOrTwo d ∧ IsMonthName mon n ∧ FourDigit y
  date : IsDate x.year x.month x.day
  year2 : 2 ≤ x.year

/-- Words that mean nothing to English dates; they may stand beside a date. -/
def linkWords : List (List Char) :=
  ["on".toList, "at".toList, "of".toList, "the".toList, "by".toList, "and".toList, "about".toList, "just".toList, "ad".toList]

/-- The entries of the English dictionary. -/
def englishEntries : List (List Char) := enData.translations.map (·.1) ++ enData.relativeType.map (·.1)

/-- The words of the entries of the English dictionary, and those that are rewritten beforehand. -/
def englishVocabulary : List (List Char) :=
  englishEntries.flatMap fields ++
    ["a", "an", "noon", "midnight", "later", "ago", "now", "one", "two", "three", "four", "five", "six", "seven", "eight", "nine", "ten", "eleven",
      "twelve"].map String.toList

/-- Punctuation that may stand around a word. -/
def wordPunctuation : List Char := ['(', ')', '"', '\'', ',']

/-- A word that has nothing to do with dates, maybe with punctuation around it. -/
def IsFiller (w : List Char) : Prop :=
  ∃ pre core post, w = pre ++ core ++ post ∧ (∀ c ∈ pre ++ post, c ∈ wordPunctuation) ∧ core ≠ [] ∧ (∀ c ∈ core, c.isAlpha = true) ∧
    toLower core ∉ englishVocabulary

/-- A piece of a text. -/
inductive Piece where
  | filler (w : List Char)
  | link (w : List Char)
  | date (x : DatePhrase)

def Piece.write : Piece → List Char
  | .filler w => w
  | .link w => w
  | .date x => x.write

def Piece.isFiller : Piece → Bool
  | .filler _ => true
  | _ => false

def Piece.date? : Piece → Option DatePhrase
  | .date x => some x
  | _ => none

def Piece.Ok : Piece → Prop
  | .filler w => IsFiller w
  | .link w => toLower w ∈ linkWords
  | .date x => x.Ok

/-- The stretches of a text between the fillers. -/
def stretches : List Piece → List (List Piece)
  | [] => [[]]
  | p :: r =>
    if p.isFiller then [] :: stretches r
    else match stretches r with
      | [] => [[p]]
      | s :: rest => (p :: s) :: rest

/-- The pieces with single spaces between them. -/
def writePieces (ps : List Piece) : List Char := joinWith [' '] (ps.map Piece.write)

/-- A sentence: fillers, link words and dates; between two dates at least one filler; no filler that follows a date or
a link word contains the name of a time zone. -/
structure PlainSentence (table : List TzEntry) (ps : List Piece) : Prop where
  pieces : ∀ p ∈ ps, p.Ok
  apart : ∀ s ∈ stretches ps, (s.filterMap Piece.date?).length ≤ 1
  zones : ∀ a p w b, ps = a ++ p :: .filler w :: b → p.isFiller = false → wordIsTz table w = false

/-- The characters that end a sentence. -/
def sentenceEnds : List Char := ['.', '!', '?', ';']

/-- A text: sentences, each with the character that ends it and a space; then one more, maybe ended (`stop`). -/
structure PlainText (table : List TzEntry) (closed : List (List Piece × Char)) (last : List Piece) (stop : List Char) : Prop where
  sentences : ∀ s ∈ closed, PlainSentence table s.1 ∧ s.1 ≠ [] ∧ s.2 ∈ sentenceEnds
  final : PlainSentence table last
  ending : stop = [] ∨ (last ≠ [] ∧ ∃ e ∈ sentenceEnds, stop = [e])

/-- As written. -/
def writeText (closed : List (List Piece × Char)) (last : List Piece) (stop : List Char) : List Char :=
  closed.flatMap (fun s => writePieces s.1 ++ [s.2, ' ']) ++ (writePieces last ++ stop)

/-- The dates of a sentence, each with the text of its stretch: the date with the link words beside it. -/
def datesIn (ps : List Piece) : List (DatePhrase × List Char) :=
  (stretches ps).flatMap fun s => (s.filterMap Piece.date?).map fun x => (x, writePieces s)

/-- The dates of a text. -/
def datesInText (closed : List (List Piece × Char)) (last : List Piece) : List (DatePhrase × List Char) :=
  (closed.map (·.1) ++ [last]).flatMap datesIn

/-- The configuration lets English dates be read: valid, no words to skip but those skipped anyway. -/
structure SearchCfg (c : PCfg) : Prop where
  valid : c.validate = .ok ()
  skip : c.skipTokens = [] ∨ c.skipTokens = [['t']]

/-- A parser as `NewParser` makes it, with the default parsers; it may have been used before. -/
structure FreshTypes (s : ParserSt) : Prop where
  types : s.types = [] ∨ s.types = defaultTypes
  detect : s.detect = none

/-- The zones are harmless at these moments: that of the given current time, and the default time zone. -/
structure SearchZones (c : PCfg) (walls : List Int) : Prop where
  noJump : c.currentTime.isZero = false → ∀ w ∈ walls, c.currentTime.loc.NoJump w
  base : c.currentTime.isZero = false → SmallOffsets c.currentTime.loc
  dflt : ∀ l, c.defaultTz = some l → SmallOffsets l

/-- A result of a search: this text, and the date, at midnight. -/
structure FoundDate (x : DatePhrase) (text : List Char) (r : ParsedSearch DateRes × List Char) : Prop where
  text : r.2 = text
  date : ∃ d, r.1.date = some d ∧ d.period = .day ∧ Shows d.time x.year x.month x.day 0 0 0 0

end Verif.Spec
