import Verif.Spec.Loader
import Verif.Spec.Whole
import Verif.Model.Detector
/-! # Specification vocabulary: the language of a searched text -/
set_option autoImplicit false
namespace Verif.Spec
open Verif.Go Verif.Model Verif.Data

/-- The language of a locale: the locale's name, or its part before the region. -/
def LanguageOf (l loc : Name) : Prop := l = loc ∨ ∃ region, loc = l ++ '-' :: region

/-- The languages a search may choose from: those of the locales given; without any, the languages given; without any of
these either, all. -/
def SearchedLanguage (locales languages : List Name) (l : Name) : Prop :=
  if locales ≠ [] then ∃ loc ∈ locales, LanguageOf l loc
  else if languages ≠ [] then l ∈ languages
  else KnownLanguage l

/-- The languages given in the configuration, or found by the caller's function if there are none. -/
def givenLanguages (detect : Option (List Char → List Name)) (c : PCfg) (text : List Char) : List Name :=
  match c.languages, detect with
  | [], some f => f text
  | l, _ => l

/-- A character of language `l` that no other of the languages has. -/
def Distinctive (data : Name → Option (Lang × List Char)) (languages : List Name) (l : Name) (ch : Char) : Prop :=
  (∃ d, data l = some d ∧ ch ∈ d.2) ∧ ∀ l' ∈ languages, l' ≠ l → ∀ d, data l' = some d → ch ∉ d.2

/-- Digits, blanks and the usual punctuation of dates. -/
def dateChars : List Char := "0123456789()\\-/.,:' \t\n\r".toList

/-- The Unicode tables are right about ASCII. -/
structure DetectSound (E : DetectEnv) : Prop where
  uni : AsciiUni E.uni
  compose : ∀ s, (∀ c ∈ s, c.toNat < 128) → E.compose s = s

/-- Scores are compared by the number of known words, then by the number of other words understood. -/
def Better (a b : Nat × Nat) : Prop := a.1 > b.1 ∨ (a.1 = b.1 ∧ a.2 > b.2)

/-- A word of the language: at least two characters, with a meaning in its dictionary. -/
def KnownWord (L : Lang) (w : List Char) : Prop := 2 ≤ w.length ∧ ∃ t r, L.translations.lookup w = some (t :: r)

/-- Otherwise understood: a word of at least two characters the dictionary says to leave out, or a number. -/
def OtherWord (U : Uni) (L : Lang) (w : List Char) : Prop :=
  (2 ≤ w.length ∧ L.translations.lookup w = some []) ∨ (isNumberOnly U w = true ∧ (w.length < 2 ∨ L.translations.lookup w = none))

/-- `n` different words have this property. -/
def Numbers (P : List Char → Prop) (n : Nat) : Prop := ∃ l : List (List Char), l.Nodup ∧ (∀ w, w ∈ l ↔ P w) ∧ l.length = n

/-- Of the words into which the language cuts the sentences of the text, it knows `n.1` and understands `n.2` otherwise. -/
def Understood (U : Uni) (L : Lang) (skip : List (List Char)) (text : List Char) (n : Nat × Nat) : Prop :=
  ∃ sentences, splitSentence U L (simplify L text) = some sentences ∧
    Numbers (fun w => (∃ s ∈ sentences, w ∈ simpleSplit U L s false skip) ∧ KnownWord L w) n.1 ∧
    Numbers (fun w => (∃ s ∈ sentences, w ∈ simpleSplit U L s false skip) ∧ OtherWord U L w) n.2

/-- The score of a language for a text: how much of it is understood, if nothing, how much of it without its time zone; no
score if nothing is understood then either. -/
inductive Score (E : DetectEnv) (skip : List (List Char)) (text : List Char) (l : Name) : Option (Nat × Nat) → Prop
  | unknown (h : E.data l = none) : Score E skip text l none
  | whole {d : Lang × List Char} {n : Nat × Nat} (h : E.data l = some d) (hn : Understood E.uni d.1 skip text n) (h0 : n ≠ (0, 0)) :
      Score E skip text l (some n)
  | zoneless {d : Lang × List Char} {n : Nat × Nat} (h : E.data l = some d) (hz : Understood E.uni d.1 skip text (0, 0))
      (hn : Understood E.uni d.1 skip (popTzOffset E.table text).1 n) (h0 : n ≠ (0, 0)) : Score E skip text l (some n)
  | nothing {d : Lang × List Char} (h : E.data l = some d) (hz : Understood E.uni d.1 skip text (0, 0))
      (hn : Understood E.uni d.1 skip (popTzOffset E.table text).1 (0, 0)) : Score E skip text l none

/-- What is left in a parser by any number of earlier searches. -/
inductive SearchHistory {σ D : Type} (W : SearchWorld σ D) : List (Name × List Char) → Prop
  | new : SearchHistory W []
  | search (u : List (Name × List Char)) (s : σ) (c : Option PCfg) (text : List Char) (u' : List (Name × List Char))
      (r : Except SearchErr (Name × List (ParsedSearch D × List Char))) :
      SearchHistory W u → Model.search W ⟨s, u⟩ c text = some (u', r) → SearchHistory W u'

end Verif.Spec
