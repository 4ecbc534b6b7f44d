import Verif.Spec.Locales
import Verif.Spec.Merge
/-! # Specification: dates with the name of a month in the language of the locale -/
set_option autoImplicit false
namespace Verif.Spec
open Verif.Go Verif.Model Verif.Data

/-- What the Unicode tables say of a character of a word: a letter or a mark, hence neither a number nor white space. -/
structure WordChar (U : Uni) (c : Char) : Prop where
  letter : U.isLetter c = true ∨ U.isMark c = true
  number : U.isNumber c = false
  digit : U.isDigit c = false
  space : isSpace c = false

/-- A word: letters and marks, at least one letter. -/
structure IsWord (U : Uni) (w : List Char) : Prop where
  chars : ∀ c ∈ w, WordChar U c
  letter : ∃ c ∈ w, U.isLetter c = true

/-- Characters that are replaced before anything else is done (strutil.go:19-34, 43): two Arabic vowel marks, and letters that look like an
apostrophe. -/
def replacedChars : List Char :=
  ['\u00bb', '\u00b7', '\u200e', '\u200f', '\u064e', '\u064f', '\u2019', '\u02bc', '\u02bb', '\u055a', '\ua78c', '\u2032', '\u2035', '\u02b9', '\uff07']

/-- A word as written that becomes another one (in lower case, without accents, in compatibility form) wherever it stands among ASCII characters
other than letters. -/
def ReadAs (U : Uni) (W w : List Char) : Prop :=
  ∀ a b, (∀ c ∈ a ++ b, c.toNat < 128 ∧ c.isAlpha = false) → U.lower (U.nfkc (a ++ W ++ b)) = a ++ w ++ b

/-- The ways to write a date with a month name: 5 März 2015; 5. März 2015; März 5, 2015; März 5 2015; 2015 März 5. -/
inductive WordForm where
  | dayFirst | dotted | comma | plain | yearFirst

def WordForm.write (f : WordForm) (d w y : List Char) : List Char :=
  match f with
  | .dayFirst => d ++ ' ' :: (w ++ ' ' :: y)
  | .dotted => d ++ '.' :: ' ' :: (w ++ ' ' :: y)
  | .comma => w ++ ' ' :: (d ++ ',' :: ' ' :: y)
  | .plain => w ++ ' ' :: (d ++ ' ' :: y)
  | .yearFirst => y ++ ' ' :: (w ++ ' ' :: d)

/-- The full English names of the months. -/
def englishMonth (n : Int) : List Char := ((monthNames.find? fun x => x.2 == n).map (·.1)).getD []

/-- In the data of this locale, merged with those of its parent, the word is translated as this month and as nothing else. -/
def MonthWord (n : Name) (w : List Char) (m : Int) : Prop :=
  1 ≤ m ∧ m ≤ 12 ∧ ∃ x ∈ allLangs, x.1.name = n ∧ translationsOf (mergeLang x.2 x.1) w = [englishMonth m]

/-- Locales in which words are not cut at spaces (ja, the Chinese ones) or that know words made of digits or with digits (mgo, vi). -/
def unreadLocales : List Name :=
  ["ja", "mgo", "vi", "yue", "zh", "zh-Hans", "zh-Hant", "zh-Hant-HK", "zh-Hant-MO"].map String.toList

/-- A locale with a list of words of its own to cut texts at (many regional locales lack it: C43), and where they are cut at spaces. -/
structure ReadsWords (n : Name) : Prop where
  own : ∀ x ∈ allLangs, x.1.name = n → x.1.knownWords ≠ []
  spaced : n ∉ unreadLocales

/-- Names of months that contain or look like other words of their language, and are left out here.  At least one of them is misread: see C53_sept. -/
def unreadMonths : List (Name × List Char) :=
  [("bg".toList, "септември".toList), ("bg".toList, "октомври".toList), ("bs-Cyrl".toList, "септембар".toList), ("sr".toList, "септембар".toList),
   ("sr-Cyrl".toList, "септембар".toList), ("sr-Cyrl-BA".toList, "септембар".toList), ("sr-Cyrl-ME".toList, "септембар".toList), ("sr-Cyrl-XK".toList, "септембар".toList),
   ("el".toList, "σεπτεμβριος".toList), ("el".toList, "σεπτεμβριου".toList), ("el".toList, "δεκεμβριος".toList), ("el".toList, "νοεμβριος".toList),
   ("en".toList, "march".toList), ("en-SG".toList, "march".toList), ("fr".toList, "sept".toList), ("fr-CA".toList, "sept".toList),
   ("fr-CM".toList, "sept".toList), ("fr-HT".toList, "sept".toList), ("fr-MA".toList, "sept".toList), ("bm".toList, "now".toList),
   ("dsb".toList, "now".toList), ("haw".toList, "now".toList), ("hsb".toList, "now".toList), ("ka".toList, "თებერვალი".toList),
   ("lb".toList, "jan".toList), ("lo".toList, "ມນ".toList), ("ru".toList, "апрель".toList), ("ru".toList, "апреля".toList),
   ("ru".toList, "апр".toList), ("ta".toList, "ஆகஸட".toList), ("ta".toList, "மாரச".toList), ("ta".toList, "மார".toList),
   ("ta".toList, "ஆக".toList), ("ta".toList, "மே".toList)]

end Verif.Spec
