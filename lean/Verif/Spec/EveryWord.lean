import Verif.Spec.ClockWords
/-! # What every word of a text is used for (C62) -/
set_option autoImplicit false
namespace Verif.Spec
open Verif.Go Verif.Model

/-- The words the parser skips. -/
def IsSkippedWord (w : List Char) : Prop := w = "t".toList ∨ w = "year".toList ∨ w = "hour".toList ∨ w = "minute".toList

/-- `t` is a time of day made of the words with the numbers `used` of the text `s` (see `ClockAt`). -/
def ClockOf (s : List Char) (i : Nat) (t : List Char) (used : List Nat) : Prop :=
  ∃ (base frac mer : List Char) (k : Nat) (ub uf um : List Nat), t = base ++ frac ++ mer ∧ used = ub ++ uf ++ um ∧
    (((wordList s)[i]? = some base ∧ k = i + 1 ∧ ub = [i]) ∨
      (∃ h m sep, (wordList s)[i]? = some h ∧ (wordList s)[i + 1]? = some m ∧ sep ∈ runs (sanitizeSpaces s) ∧ trimSpace sep = ['.'] ∧
        base = h ++ ':' :: m ∧ k = i + 2 ∧ ub = [i, i + 1])) ∧
    ((frac = [] ∧ uf = [] ∧ ((mer = [] ∧ um = []) ∨ ∃ w ap mr, (wordList s)[k]? = some w ∧ ap <:+: w ∧ IsMeridian ap mr ∧ mer = ' ' :: ap ∧ um = [k])) ∨
      (∃ w f, (wordList s)[i + 1]? = some w ∧ f ≠ [] ∧ f <:+: w ∧ (∀ c ∈ f, c.isDigit = true) ∧ ':' ∈ base ∧ frac = '.' :: f ∧ uf = [i + 1] ∧
        ((mer = [] ∧ um = []) ∨ ∃ w ap mr, (wordList s)[k + 1]? = some w ∧ ap <:+: w ∧ IsMeridian ap mr ∧ mer = ' ' :: ap ∧ um = [k + 1]))) ∧
    (':' ∈ base ∨ mer ≠ [])

/-- What a word of a date is for: the day, the month, the year, the weekday; a two digit year, given up for a later one of four
digits; a day, given up when another number turns out to be the day. -/
inductive Role where
  | day | month | year | weekday | formerYear | formerDay
deriving DecidableEq

/-- The word can have the role. -/
def RoleWord : Role → List Char → Prop
  | .day, w => ∃ d, AsDay w d
  | .month, w => ∃ m, AsMonth w m
  | .year, w => ∃ y, AsYear w y
  | .weekday, w => ∃ n, IsWeekdayName w n
  | .formerYear, w => Two w
  | .formerDay, w => ∃ d, AsDay w d

/-- `place` says which word of the text has each role, and every word is accounted for. -/
structure Uses (s : List Char) (place : Role → Option Nat) : Prop where
  /-- The words can have their roles. -/
  fits : ∀ r i, place r = some i → ∃ w, (wordList s)[i]? = some w ∧ RoleWord r w
  /-- No word has two roles. -/
  one : ∀ r q i, place r = some i → place q = some i → r = q
  /-- A two digit year is given up only for a later year of four digits. -/
  former_year : ∀ i, place .formerYear = some i → ∃ k w, place .year = some k ∧ i < k ∧ (wordList s)[k]? = some w ∧ Four w
  /-- A day is given up only before the name of a month. -/
  former_day : ∀ i, place .formerDay = some i → ∃ k w m, place .month = some k ∧ i < k ∧ (wordList s)[k]? = some w ∧ IsMonthName w m
  /-- Every word is skipped, belongs to a time of day, or has a role. -/
  all : ∀ i w, (wordList s)[i]? = some w → IsSkippedWord w ∨ (∃ j t used, ClockOf s j t used ∧ i ∈ used) ∨ ∃ r, place r = some i

end Verif.Spec
