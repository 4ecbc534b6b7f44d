import Verif.Spec.Relative
/-! # What a relative date is made of, in any text (C61) -/
set_option autoImplicit false
namespace Verif.Spec
open Verif.Go Verif.Model

/-- No capital letter, and none of the two characters (Kelvin sign, long s) whose lower case is an ASCII letter. -/
def Plain (s : List Char) : Prop := ∀ c ∈ s, toLowerC c = c ∧ c ≠ '\u212a' ∧ c ≠ '\u017f'

/-- The text begins with an amount and its unit; what follows does not continue the word. -/
def BeginsWith (s : List Char) (i : Item) (rest : List Char) : Prop :=
  i.OK ∧ s = i.text ++ rest ∧ ∀ c, rest.head? = some c → ¬ IsWordChar c

/-- The amounts with units in a text, found from left to right, each with the text before it; and the text behind the last.  None
begins any earlier than the one found, none in the text behind. -/
inductive Mentions : List Char → List (List Char × Item) → List Char → Prop
  | done (s : List Char) (h : ∀ a b, s = a ++ b → ¬ ∃ i r, BeginsWith b i r) : Mentions s [] s
  | next (pre : List Char) (i : Item) (rest : List Char) (segs : List (List Char × Item)) (tail : List Char)
      (hpre : ∀ a b, pre = a ++ b → b ≠ [] → ¬ ∃ j r, BeginsWith (b ++ (i.text ++ rest)) j r)
      (hi : BeginsWith (i.text ++ rest) i rest) (h : Mentions rest segs tail) :
      Mentions (pre ++ (i.text ++ rest)) ((pre, i) :: segs) tail

/-- The word stands in the text, not as a part of a longer word. -/
def HasWord (s w : List Char) : Prop :=
  ∃ a b, s = a ++ (w ++ b) ∧ (∀ c, a.getLast? = some c → ¬ IsWordChar c) ∧ (∀ c, b.head? = some c → ¬ IsWordChar c)

/-- A word of the text: a maximal run of letters, digits and underscores. -/
def IsWordOf (s w : List Char) : Prop := w ≠ [] ∧ (∀ c ∈ w, IsWordChar c) ∧ HasWord s w

/-- How the words of a relative date begin. -/
def RelWord (w : List Char) : Prop :=
  (∃ u : RelUnit, u.name <+: w) ∨ "ago".toList <+: w ∨ "in".toList <+: w ∨ "am".toList <+: w ∨ "pm".toList <+: w ∨
    ∃ d, d.isDigit = true ∧ [d] <+: w

/-- The amount given last for the unit, 0 if none is. -/
def lastAmount (items : List Item) (u : RelUnit) : Int :=
  match items.reverse.find? (fun i => i.unit == u) with
  | some i => number i.whole
  | none => 0

/-- The amounts that count are whole numbers, and stay within Go's number ranges. -/
structure WholeInRange (items : List Item) : Prop where
  whole : ∀ i ∈ items, i.fractional = false
  all : ∀ u, lastAmount items u ≤ 1000000000
  hours : lastAmount items .hour ≤ 2562047
  minutes : lastAmount items .minute ≤ 153722867

/-- The direction: to the future after the word "in" or if the future is preferred, unless the word "ago" stands in the text. -/
def Direction (s : List Char) (src : DateSource) (sg : Int) : Prop :=
  ((HasWord s "in".toList ∨ src = .future) ∧ ¬ HasWord s "ago".toList ∧ sg = 1) ∨
  (¬ ((HasWord s "in".toList ∨ src = .future) ∧ ¬ HasWord s "ago".toList) ∧ sg = -1)

/-- The time moved by the amounts. -/
def shifted (keepEnd : Bool) (now : Time) (sg : Int) (items : List Item) : Time :=
  later (moved keepEnd now (sg * (lastAmount items .year + 10 * lastAmount items .decade)) (sg * lastAmount items .month)
      (sg * (lastAmount items .day + 7 * lastAmount items .week)))
    (sg * (3600 * lastAmount items .hour + 60 * lastAmount items .minute + lastAmount items .second))

/-- The finest unit mentioned; weeks count as days, decades as years. -/
def finest (items : List Item) : Period :=
  if items.any (·.unit == .second) then .second
  else if items.any (·.unit == .minute) then .minute
  else if items.any (·.unit == .hour) then .hour
  else if items.any (·.unit == .day) || items.any (·.unit == .week) then .day
  else if items.any (·.unit == .month) then .month
  else .year

/-- The text outside the amounts and units. -/
def outside (segs : List (List Char × Item)) (tail : List Char) : List Char := (segs.map (·.1)).flatten ++ tail

end Verif.Spec
