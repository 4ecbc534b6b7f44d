import Verif.Spec.Sound
import Verif.Spec.Clock
/-! # A time of day made of words of a text (C60) -/
set_option autoImplicit false
namespace Verif.Spec
open Verif.Go Verif.Model

/-- The time of day of a `time.Time`, in its own location. -/
def ShowsClock (t : Time) (H M S ns : Int) : Prop := t.hour = H ∧ t.minute = M ∧ t.second = S ∧ t.nsec = ns

/-- `t` is a time of day made of the words of the text `s`, from the `i`-th on: a word of digits and colons, or two
neighbouring words that an isolated period separates, joined by a colon (13.20); then perhaps a fraction, of digits of the next
word; then perhaps the "am" or "pm" in the next word.  There is a colon, or "am" or "pm". -/
def ClockAt (s : List Char) (i : Nat) (t : List Char) : Prop :=
  ∃ (base frac mer : List Char) (k : Nat), t = base ++ frac ++ mer ∧
    (((wordList s)[i]? = some base ∧ k = i + 1) ∨
      (∃ h m sep, (wordList s)[i]? = some h ∧ (wordList s)[i + 1]? = some m ∧ sep ∈ runs (sanitizeSpaces s) ∧ trimSpace sep = ['.'] ∧
        base = h ++ ':' :: m ∧ k = i + 2)) ∧
    ((frac = [] ∧ (mer = [] ∨ ∃ w ap mr, (wordList s)[k]? = some w ∧ ap <:+: w ∧ IsMeridian ap mr ∧ mer = ' ' :: ap)) ∨
      (∃ w f, (wordList s)[i + 1]? = some w ∧ f ≠ [] ∧ f <:+: w ∧ (∀ c ∈ f, c.isDigit = true) ∧ ':' ∈ base ∧ frac = '.' :: f ∧
        (mer = [] ∨ ∃ w ap mr, (wordList s)[k + 1]? = some w ∧ ap <:+: w ∧ IsMeridian ap mr ∧ mer = ' ' :: ap))) ∧
    (':' ∈ base ∨ mer ≠ [])

/-- The text is a time of day in one of the notations, and means this. -/
def ReadsClock (u : List Char) (c : Clock) : Prop := ∃ (n : Notation) (mr : Meridian), n.Written mr ∧ u = n.text ∧ n.meaning mr = some c

end Verif.Spec
