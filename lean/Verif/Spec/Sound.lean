import Verif.Spec.Preferences
import Verif.Model.Strutil
/-! # The words of a text and what they can stand for (C59) -/
set_option autoImplicit false
namespace Verif.Spec
open Verif.Go Verif.Model

/-- The maximal runs of characters of one class. -/
def runs : List Char → List (List Char)
  | [] => []
  | c :: s =>
    match runs s with
    | (d :: w) :: r => if charClass c = charClass d then (c :: d :: w) :: r else [c] :: (d :: w) :: r
    | r => [c] :: r

/-- The words of a text: its maximal runs of digits (and colons) and of ASCII letters, after white space has been tidied up. -/
def wordList (s : List Char) : List (List Char) :=
  (runs (sanitizeSpaces s)).filter fun w => decide (w.head?.map charClass ≠ some .other)

/-- The word stands for a day of the month: one or two digits. -/
def AsDay (w : List Char) (d : Int) : Prop := Short w ∧ number w = d ∧ 1 ≤ d ∧ d ≤ 31

/-- The word stands for a month: one or two digits, or an English name. -/
def AsMonth (w : List Char) (m : Int) : Prop := (Short w ∧ number w = m ∧ 1 ≤ m ∧ m ≤ 12) ∨ IsMonthName w m

/-- The word stands for a year: four digits, or two for a year from 1969 to 2068. -/
def AsYear (w : List Char) (y : Int) : Prop := (Four w ∧ y = number w) ∨ (Two w ∧ y = pivotYear (number w))

/-- The leap year taken for 29 February of the year `y`, which is none. -/
def LeapFor (src : DateSource) (y r : Int) : Prop :=
  match src with
  | .future => Leap r ∧ y < r ∧ ∀ z, y < z → Leap z → r ≤ z
  | .past => Leap r ∧ r < y ∧ ∀ z, z < y → Leap z → z ≤ r
  | .current => Leap r ∧ r ≠ y ∧ ∀ z, z ≠ y → Leap z → (r - y).natAbs ≤ (z - y).natAbs ∧ ((r - y).natAbs = (z - y).natAbs → r ≤ z)

/-- What becomes of a written date: nothing, if it exists; 29 February moves to a leap year; every other day a month does not
have becomes its last day. -/
structure Mended (src : DateSource) (y m d : Int) (y' d' : Int) : Prop where
  exists_ : IsDate y m d → y' = y ∧ d' = d
  leap : d = 29 → m = 2 → ¬ Leap y → LeapFor src y y' ∧ d' = 29
  clipped : ¬ IsDate y m d → ¬ (d = 29 ∧ m = 2) → y' = y ∧ d' = monthLen y m

/-- Three different words of the text stand for the day, the month and the year (written `yw`). -/
def ThreeWords (s : List Char) (d m y : Int) (yw : List Char) : Prop :=
  ∃ (i j k : Nat) (dw mw : List Char), i ≠ j ∧ i ≠ k ∧ j ≠ k ∧ (wordList s)[i]? = some dw ∧ (wordList s)[j]? = some mw ∧ (wordList s)[k]? = some yw ∧
    AsDay dw d ∧ AsMonth mw m ∧ AsYear yw y

/-- The year is a word of four digits, and a word of two digits before it serves as the day, the month, or both. -/
def Borrowed (s : List Char) (d m y : Int) : Prop :=
  ∃ (i k : Nat) (uw yw : List Char), i < k ∧ (wordList s)[i]? = some uw ∧ (wordList s)[k]? = some yw ∧ Two uw ∧ Four yw ∧ y = number yw ∧
    ((d = number uw ∧ (m = number uw ∨ ∃ (j : Nat) (mw : List Char), j ≠ i ∧ j ≠ k ∧ (wordList s)[j]? = some mw ∧ AsMonth mw m)) ∨
     (m = number uw ∧ ∃ (j : Nat) (dw : List Char), j ≠ i ∧ j ≠ k ∧ (wordList s)[j]? = some dw ∧ AsDay dw d))

end Verif.Spec
