import Verif.Spec.EveryWord
import Verif.Spec.RelativeSound
import Verif.Spec.KnownWords
import Verif.Spec.Parser
import Verif.Spec.Whole
import Verif.Go.TimeFormat
/-! # Where a date comes from (C64) -/
set_option autoImplicit false
namespace Verif.Spec
open Verif.Go Verif.Model

/-- The user has listed the kind of parsers, or listed none. -/
def Listed (s : ParserSt) (k : Kind) : Prop := s.types = [] ∨ k.code ∈ s.types

/-- The texts the locale translates the cleaned text to, each without braces and the time zone, and the time zone. -/
def translations (E : Env) (c : PCfg) (l : Name) (text : List Char) : List (List Char × Option Tz) :=
  ((translate E.uni (E.lang l) (skipWords c) (sanitizeDate E.uni text) false).getD []).map fun t => popTzOffset E.table (stripBraces t)

/-- The texts the locale translates the cleaned text to for the caller's formats. -/
def keptTranslations (E : Env) (c : PCfg) (l : Name) (text : List Char) : List (List Char) :=
  (translate E.uni (E.lang l) (skipWords c) (sanitizeDate E.uni text) true).getD []

/-- One of the caller's formats reads the text, in some zone (`time.ParseInLocation`, see Go/TimeFormat and C16). -/
def ReadByFormat (formats : List (List Char)) (t : List Char) : Prop := ∃ f ∈ formats, ∃ z T, timeParseIn f t z = some T

/-- The text is made of the words of a relative date, with an amount and a unit at least once. -/
def IsRelative (t : List Char) : Prop :=
  ∃ segs tail, Mentions t segs tail ∧ segs ≠ [] ∧ ∀ w, IsWordOf (sanitizeSpaces t) w → RelWord w

/-- The current time of a call in the zone of the text, or the default zone. -/
def startOf (c : PCfg) (now : Time) (tz : Option Tz) : Time :=
  match tz with
  | some z => { baseTime c now with loc := Loc.fixed z.name z.offset }
  | none => zonedBase c now

/-- `T` is the relative date that the text has words of: if the amounts are whole, it is the current time moved by them, in the direction of the words, or that day
with another time of day; if no digits are left for a time of day, it is that time. -/
def RelativeDate (c : PCfg) (now : Time) (t : List Char × Option Tz) (T : Time) : Prop :=
  ∃ segs tail, Mentions t.1 segs tail ∧ segs ≠ [] ∧ (∀ w, IsWordOf (sanitizeSpaces t.1) w → RelWord w) ∧
    (WholeInRange (segs.map (·.2)) → ∀ sg, Direction t.1 c.toInternal.dateSource sg →
      let t0 := shifted c.preserveEndOfMonth (startOf c now t.2) sg (segs.map (·.2))
      ((∀ x ∈ outside segs tail, x.isDigit = false) → T = t0) ∧
      (T = t0 ∨ ∃ h m s n, (0 ≤ h ∧ h ≤ 23) ∧ (0 ≤ m ∧ m ≤ 59) ∧ (0 ≤ s ∧ s ≤ 59) ∧ (0 ≤ n ∧ n < 1000000000) ∧
        T = goDate t0.year t0.month t0.day h m s n t0.loc))

/-- Digits only, but perhaps one colon before more of them or at the end; what follows the digits after the colon is open. -/
def IsDigitRun (t : List Char) : Prop :=
  ∃ ds rest, t = ds ++ rest ∧ (∀ c ∈ ds, c.isDigit = true) ∧ (rest = [] ∨ rest = [':'] ∨ ∃ d r, rest = ':' :: d :: r ∧ d.isDigit = true)

/-- Both times show the same date and time of day, each in its zone. -/
def SameReading (a b : Time) : Prop :=
  a.year = b.year ∧ a.month = b.month ∧ a.day = b.day ∧ a.hour = b.hour ∧ a.minute = b.minute ∧ a.second = b.second ∧ a.nsec = b.nsec

/-- The time of day is one the text has, or midnight if no word of it has a colon. -/
def ClockFrom (t : List Char) (T : Time) : Prop :=
  (∃ i x c, ClockAt t i x ∧ ReadsClock (toUpper x) c ∧ ShowsClock T c.hour c.minute c.second c.nano) ∨
  (ShowsClock T 0 0 0 0 ∧ ∀ w ∈ wordList t, ':' ∉ w)

end Verif.Spec
