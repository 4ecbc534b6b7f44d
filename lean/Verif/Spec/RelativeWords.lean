import Verif.Spec.Locales
import Verif.Spec.Words
import Verif.Spec.Relative
/-! # Specification: words for relative dates in the language of the locale -/
set_option autoImplicit false
namespace Verif.Spec
open Verif.Go Verif.Model Verif.Data

/-- What the relative dates of the locale data mean: so many units later (earlier if negative). -/
def relativeMeanings : List (String × Int × RelUnit) :=
  [("0 second ago", 0, .second), ("0 minute ago", 0, .minute), ("0 hour ago", 0, .hour), ("1 hour ago", -1, .hour), ("in 1 hour", 1, .hour),
   ("0 day ago", 0, .day), ("1 day ago", -1, .day), ("2 day ago", -2, .day), ("in 1 day", 1, .day), ("in 2 day", 2, .day), ("in 3 day", 3, .day),
   ("0 week ago", 0, .week), ("1 week ago", -1, .week), ("2 week ago", -2, .week), ("in 1 week", 1, .week),
   ("0 month ago", 0, .month), ("1 month ago", -1, .month), ("2 month ago", -2, .month), ("in 1 month", 1, .month),
   ("0 year ago", 0, .year), ("1 year ago", -1, .year), ("2 year ago", -2, .year), ("10 year ago", -10, .year), ("in 1 year", 1, .year), ("in 10 year", 10, .year),
   ("1 decade ago", -1, .decade), ("in 1 decade", 1, .decade)]

/-- In the data of this locale, merged with those of its parent, the phrase stands for the day, week, … so many units later. -/
def RelativeWord (n : Name) (w : List Char) (k : Int) (u : RelUnit) : Prop :=
  ∃ x ∈ allLangs, x.1.name = n ∧ ∃ v, (mergeLang x.2 x.1).relativeType.lookup w = some v.toList ∧ (v, k, u) ∈ relativeMeanings

/-- Words with single spaces between them, perhaps with apostrophes and hyphens. -/
structure IsPhrase (U : Uni) (w : List Char) : Prop where
  chars : ∀ c ∈ w, c = ' ' ∨ c = '\'' ∨ c = '-' ∨ WordChar U c
  letter : ∃ c ∈ w, U.isLetter c = true
  first : w.head? ≠ some ' '
  last : w.getLast? ≠ some ' '
  single : ∀ a b, w ≠ a ++ ' ' :: ' ' :: b

/-- A phrase as written that becomes another one in lower case, without accents, in compatibility form. -/
def Normalizes (U : Uni) (W w : List Char) : Prop := U.lower (U.nfkc W) = w

/-- Phrases that the simplification rules of their language rewrite; they are left out here. -/
def rewrittenPhrases : List (Name × List Char) :=
  [("be".toList, "у гэту гадзіну".toList), ("he".toList, "מחר".toList), ("pl".toList, "dzisiaj".toList), ("pl".toList, "jutro".toList), ("th".toList, "วนน".toList)]

/-- Amounts, and a day of the week, that the data of Arabic and Indonesian list with the relative dates; they are parts of phrases. -/
def bareAmounts : List (List Char) :=
  ["2 hour".toList, "2 day".toList, "1 day".toList, "1 week".toList, "1 month".toList, "1 year".toList, "sunday".toList]

end Verif.Spec
