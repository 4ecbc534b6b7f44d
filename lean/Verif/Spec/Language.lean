import Verif.Model.Pattern
/-! # Specification: sentences, chunks of a searched text -/
set_option autoImplicit false
namespace Verif.Spec
open Verif.Go Verif.Model

/-- The sentences, in order, make up the text but for characters between them that satisfy `gap`. -/
inductive Sentences (gap : Char → Prop) : List (List Char) → List Char → Prop
  | nil (g : List Char) (h : ∀ c ∈ g, gap c) : Sentences gap [] g
  | cons (g s : List Char) (l : List (List Char)) (t : List Char) (h : ∀ c ∈ g, gap c) (r : Sentences gap l t) :
      Sentences gap (s :: l) (g ++ s ++ t)

/-- The punctuation that ends a sentence, for each group of languages. -/
def terminators : Nat → List Char
  | 3 => ['|', '!', '?', ';', '\r', '\n']
  | 4 => ['。', '…', '‥', '.', '!', '?', '？', '！', ';', '\r', '\n']
  | 5 => ['\r', '\n']
  | 6 => ['\r', '\n', '؟', '!', '.', '…']
  | _ => ['.', '!', '?', ';', '…', '\r', '\n']

/-- What the search needs of the dictionary of a language written with spaces: no word has an empty list of
translations, no entry is a word with a space behind it. -/
structure SpacedDictionary (L : Lang) : Prop where
  spaces : L.noWordSpacing = false
  translated : ∀ w ts, L.translateWord w = some ts → ts ≠ []
  trimmed : ∀ w, w ≠ [] → (∀ c ∈ w, isSpace c = false) → L.translateWord (w ++ [' ']) = none

/-- A language written with spaces whose sentences are not those of Spanish. -/
structure SpacedLanguage (L : Lang) : Prop extends SpacedDictionary L where
  group : L.splitterGroup ≠ 2

/-- What the search needs of Chinese and Japanese: no word has an empty list of translations. -/
structure UnspacedLanguage (L : Lang) : Prop where
  name : L.name = ['z', 'h'] ∨ L.name = ['j', 'a']
  group : L.splitterGroup ≠ 2
  translated : ∀ w ts, L.translateWord w = some ts → ts ≠ []

/-- The marks that open a question or an exclamation in Spanish. -/
def opening (c : Char) : Prop := c = '¡' ∨ c = '¿'

/-- Two texts with the same words: they differ in white space only. -/
def SameWords (a b : List Char) : Prop := fields a = fields b

/-- A language with the dictionary of this locale (patterns, abbreviations and known words may be any). -/
structure HasDictionary (L : Lang) (d : LangData) : Prop where
  name : L.name = d.name
  spacing : L.noWordSpacing = d.noWordSpacing
  group : L.splitterGroup = d.splitterGroup
  translations : L.translations = d.translations
  relative : L.relativeType = d.relativeType

/-- The name of this language or of one of its regional locales. -/
def localeOf (lang name : List Char) : Bool := name == lang || (lang ++ ['-']).isPrefixOf name

/-- A Spanish locale. -/
def spanish (name : List Char) : Bool := localeOf ['e', 's'] name
/-- A Cantonese locale, or a Chinese one with a script (zh-Hans, zh-Hant and their regions). -/
def cantoneseOrScript (name : List Char) : Bool := localeOf ['y', 'u', 'e'] name || (localeOf ['z', 'h'] name && name != ['z', 'h'])

end Verif.Spec
