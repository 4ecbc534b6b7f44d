import Verif.Model.Pattern
/-! # Specification: a regional locale and its language -/
set_option autoImplicit false
namespace Verif.Spec
open Verif.Go Verif.Model

/-- The translations of a word; none if the word is unknown. -/
def translationsOf (d : LangData) (w : List Char) : List (List Char) := (d.translations.lookup w).getD []

/-- What the data of a locale contain when made from its own data and those of its parent. -/
structure Inherits (parent child merged : LangData) : Prop where
  /-- its own: name, whether words are separated by spaces, and the words a text is split by -/
  own : merged.name = child.name ∧ merged.noWordSpacing = child.noWordSpacing ∧ merged.knownWords = child.knownWords
  /-- the words of both are known -/
  known : ∀ w, (merged.translations.lookup w).isSome ↔ (child.translations.lookup w).isSome ∨ (parent.translations.lookup w).isSome
  /-- with the translations of both -/
  words : ∀ w t, t ∈ translationsOf merged w ↔ t ∈ translationsOf child w ∨ t ∈ translationsOf parent w
  /-- each once, for the words of the parent -/
  once : ∀ w, (parent.translations.lookup w).isSome → (translationsOf merged w).Nodup
  /-- for relative words and phrases, those of the parent come first -/
  relative : ∀ w, merged.relativeType.lookup w = (parent.relativeType.lookup w).or (child.relativeType.lookup w)
  /-- patterns of both, its own first -/
  simplifications : merged.simplifications = child.simplifications ++ parent.simplifications
  relativeRegexes : merged.relativeRegexes = child.relativeRegexes ++ parent.relativeRegexes
  abbreviations : ∀ a, a ∈ merged.abbreviations ↔ a ∈ child.abbreviations ∨ a ∈ parent.abbreviations
  /-- its own patterns for whole phrases, if it has any, else those of the parent -/
  combined : merged.rxCombined = child.rxCombined.or parent.rxCombined
  exactly : merged.rxExact = child.rxExact.or parent.rxExact
  splitter : merged.splitterGroup = if child.splitterGroup = 0 then parent.splitterGroup else child.splitterGroup

end Verif.Spec
