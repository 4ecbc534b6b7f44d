import Verif.Model.Setting
import Verif.Go.Strings
/-! # Specification vocabulary: text, numbers, date orders -/
set_option autoImplicit false
namespace Verif.Spec
open Verif.Go

/-- A non-empty string of ASCII digits. -/
def IsNumeral (s : List Char) : Prop := s ≠ [] ∧ ∀ c ∈ s, c.isDigit = true

/-- The number a string of ASCII digits denotes. -/
def number (s : List Char) : Int := s.foldl (fun a c => a * 10 + ((c.toNat : Int) - 48)) 0

/-- The three classes of characters the tokenizer distinguishes. -/
inductive CharClass where
  | digitOrColon | asciiLetter | other
deriving DecidableEq

def charClass (c : Char) : CharClass :=
  if c.isDigit ∨ c = ':' then .digitOrColon
  else if c.isAlpha then .asciiLetter
  else .other

/-- A separator between the parts of a date: no digit, colon or ASCII letter, and not made of
non-breaking spaces only (the library deletes these). -/
def IsSeparator (s : List Char) : Prop :=
  (∀ c ∈ s, charClass c = .other) ∧ ∃ c ∈ s, c ≠ '\u00a0'

/-- The six orders of day, month, year. -/
inductive Order where
  | dmy | dym | mdy | myd | ymd | ydm
deriving DecidableEq

/-- As written in `DateOrder` (lower case). -/
def Order.letters : Order → List Char
  | .dmy => ['d', 'm', 'y'] | .dym => ['d', 'y', 'm'] | .mdy => ['m', 'd', 'y']
  | .myd => ['m', 'y', 'd'] | .ymd => ['y', 'm', 'd'] | .ydm => ['y', 'd', 'm']

/-- Write day, month, year with two separators in this order. -/
def Order.write (o : Order) (d m y s1 s2 : List Char) : List Char :=
  match o with
  | .dmy => d ++ s1 ++ m ++ s2 ++ y
  | .dym => d ++ s1 ++ y ++ s2 ++ m
  | .mdy => m ++ s1 ++ d ++ s2 ++ y
  | .myd => m ++ s1 ++ y ++ s2 ++ d
  | .ymd => y ++ s1 ++ m ++ s2 ++ d
  | .ydm => y ++ s1 ++ d ++ s2 ++ m

/-- English month names, full and abbreviated, with their numbers. -/
def monthNames : List (List Char × Int) :=
  [("january".toList, 1), ("february".toList, 2), ("march".toList, 3), ("april".toList, 4),
   ("may".toList, 5), ("june".toList, 6), ("july".toList, 7), ("august".toList, 8),
   ("september".toList, 9), ("october".toList, 10), ("november".toList, 11), ("december".toList, 12),
   ("jan".toList, 1), ("feb".toList, 2), ("mar".toList, 3), ("apr".toList, 4), ("jun".toList, 6),
   ("jul".toList, 7), ("aug".toList, 8), ("sep".toList, 9), ("oct".toList, 10), ("nov".toList, 11),
   ("dec".toList, 12)]

/-- English weekday names, full and abbreviated; Sunday is 0. -/
def weekdays : List (List Char × Int) :=
  [("sunday".toList, 0), ("monday".toList, 1), ("tuesday".toList, 2), ("wednesday".toList, 3),
   ("thursday".toList, 4), ("friday".toList, 5), ("saturday".toList, 6),
   ("sun".toList, 0), ("mon".toList, 1), ("tue".toList, 2), ("wed".toList, 3), ("thu".toList, 4),
   ("fri".toList, 5), ("sat".toList, 6)]

/-- `t` is the name of month `m`, in any letter case. -/
def IsMonthName (t : List Char) (m : Int) : Prop := (toLower t, m) ∈ monthNames
/-- `t` is the name of weekday `w`, in any letter case. -/
def IsWeekdayName (t : List Char) (w : Int) : Prop := (toLower t, w) ∈ weekdays

/-- Day, month and year in the order. -/
def Order.pick {α : Type} (o : Order) (d m y : α) : α × α × α :=
  match o with
  | .dmy => (d, m, y) | .dym => (d, y, m) | .mdy => (m, d, y)
  | .myd => (m, y, d) | .ymd => (y, m, d) | .ydm => (y, d, m)

/-- The month comes before the day. -/
def Order.monthFirst : Order → Bool
  | .mdy | .myd | .ymd => true
  | .dmy | .dym | .ydm => false

/-- The place of the year. -/
def Order.yearPlace : Order → Nat
  | .ymd | .ydm => 0
  | .dym | .myd => 1
  | .dmy | .mdy => 2

/-- A text written in order `w` agrees with the configured order: day and month in the same order, and the year (known by
its four digits) in the same place or earlier. -/
def Order.Agrees (o w : Order) : Prop := o.monthFirst = w.monthFirst ∧ w.yearPlace ≤ o.yearPlace

theorem Order.agrees_self (o : Order) : o.Agrees o := ⟨rfl, Nat.le_refl _⟩

theorem Order.write_pick (o : Order) (d m y s1 s2 : List Char) :
    o.write d m y s1 s2 = (o.pick d m y).1 ++ s1 ++ (o.pick d m y).2.1 ++ s2 ++ (o.pick d m y).2.2 := by
  cases o <;> rfl

/-- The letters d, m and y of a date order, in lower case. -/
def orderLetters (s : List Char) : List Char := (toLower s).filter fun c => c == 'd' || c == 'm' || c == 'y'

end Verif.Spec
