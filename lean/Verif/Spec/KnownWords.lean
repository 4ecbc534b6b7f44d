import Verif.Spec.Parser
import Verif.Model.Whole
/-! # What a text must be made of for a locale to read it (C63) -/
set_option autoImplicit false
namespace Verif.Spec
open Verif.Go Verif.Model

/-- The word is in the locale's dictionary. -/
def InDictionary (L : Lang) (p : List Char) : Prop := (∃ t, (p, t) ∈ L.relativeType) ∨ (∃ ts, (p, ts) ∈ L.translations)

/-- The caller's words to skip; "t" is a word in Finnish. -/
def Skips (L : Lang) (skip : List (List Char)) (p : List Char) : Prop := p ∈ skip ∧ ¬ (L.name = "fi".toList ∧ p = "t".toList)

/-- The locale knows the piece: a number, a word of its dictionary, a relative phrase, or a word to skip. -/
def Knows (U : Uni) (L : Lang) (skip : List (List Char)) (p : List Char) : Prop :=
  (∀ c ∈ p, U.isDigit c = true) ∨ InDictionary L p ∨ (∃ rx, L.rxExact = some rx ∧ rx.matches p = true) ∨ Skips L skip p ∨ Skips L skip (trimSpace p)

/-- Nothing to read: no letter and no ASCII digit (or, of a text with several lines, a piece with the end of a line). -/
def NothingToRead (U : Uni) (p : List Char) : Prop := '\n' ∈ p ∨ ∀ c ∈ p, c.isAlphanum = false ∧ U.isLetter c = false

/-- Punctuation that stays in a text. -/
def IsKept (p : List Char) : Prop := p ∈ ["+".toList, ":".toList, ".".toList, " ".toList, "-".toList, "/".toList]

/-- A letter or accent of a word. -/
def WordLetter (U : Uni) (c : Char) : Prop := (U.isLetter c = true ∨ U.isMark c = true) ∧ U.isNumber c = false ∧ U.isDigit c = false ∧ c ≠ '_'

/-- No cut inside a word. -/
def WholeWords (U : Uni) (pieces : List (List Char)) : Prop :=
  ∀ xs ys, pieces = xs ++ ys → ∀ a b, xs.flatten.getLast? = some a → ys.flatten.head? = some b → ¬ (WordLetter U a ∧ WordLetter U b)

/-- The text is from end to end made of pieces the locale knows and of pieces without letters and digits, and not of punctuation only; and in a language
with spaces between words the pieces are of whole words. -/
def MadeOfKnown (U : Uni) (L : Lang) (skip : List (List Char)) (text : List Char) : Prop :=
  ∃ pieces : List (List Char), pieces.flatten = text ∧ (∀ p ∈ pieces, Knows U L skip p ∨ NothingToRead U p) ∧
    (L.noWordSpacing = false → WholeWords U pieces) ∧ ∃ p ∈ pieces, p ≠ [] ∧ Knows U L skip p ∧ ¬ IsKept p

/-- The text as the locale reads it: normalised, with ASCII digits, and simplified by the locale's rules. -/
def readAs (E : Env) (l : Name) (text : List Char) : List Char := simplify (E.lang l) (normalizeToken E.uni text)

/-- The texts a locale is checked with: the cleaned one, and that without a time zone. -/
def checkedTexts (E : Env) (text : List Char) : List (List Char) :=
  let n := E.uni.normalizeString (sanitizeDate E.uni text)
  [n, (popTzOffset E.table n).1]

/-- Some part of the pattern takes the character. -/
def TakesChar : Rx → Char → Prop
  | .chr p, c => p c = true
  | .seq a b, c => TakesChar a c ∨ TakesChar b c
  | .alt a b, c => TakesChar a c ∨ TakesChar b c
  | .opt a, c => TakesChar a c
  | .star a, c => TakesChar a c
  | .grp _ a, c => TakesChar a c
  | _, _ => False

/-- A character of the locale: of a word of its dictionary, of a relative phrase, or of a word to skip. -/
def CharOf (L : Lang) (skip : List (List Char)) (c : Char) : Prop :=
  (∃ w, InDictionary L w ∧ c ∈ w) ∨ (∃ rx, L.rxExact = some rx ∧ TakesChar rx c) ∨ ∃ w ∈ skip, c ∈ w

/-- The words a call skips: those of the configuration, else "t". -/
def skipWords (c : PCfg) : List (List Char) := if c.skipTokens = [] then ["t".toList] else c.skipTokens

end Verif.Spec
