import Verif.Model.Timezone
/-! # Specification: how time zones are written -/
set_option autoImplicit false
namespace Verif.Spec
open Verif.Go Verif.Model Verif.Data

/-- The same text up to letter case (Go's simple case folding). -/
def SameText (a b : List Char) : Prop := a.map foldC = b.map foldC

/-- A decimal digit character. -/
def digitChar (n : Nat) : Char := Char.ofNat (48 + n)
/-- Two digits. -/
def two (n : Nat) : List Char := [digitChar (n / 10), digitChar (n % 10)]
def signChar (neg : Bool) : Char := if neg then '-' else '+'
/-- The offset in seconds east of UTC. -/
def seconds (neg : Bool) (h m : Nat) : Int := if neg then -(3600 * h + 60 * m : Int) else 3600 * h + 60 * m

/-- UTC or GMT in any letter case. -/
def UtcOrGmt (p : List Char) : Prop := SameText p "UTC".toList ∨ SameText p "GMT".toList

/-- The ways an offset can be written: ±hh:mm or ±hhmm; after UTC or GMT the same with anything following, and ±hh, ±h,
±h:mm. -/
inductive OffsetText (neg : Bool) (h m : Nat) : List Char → Prop
  | plain (colon : Bool) : OffsetText neg h m (signChar neg :: (two h ++ (if colon then [':'] else []) ++ two m))
  | full (p : List Char) (hp : UtcOrGmt p) (colon : Bool) (tail : List Char) (ht : '\n' ∉ tail) :
      OffsetText neg h m (p ++ signChar neg :: (two h ++ (if colon then [':'] else []) ++ two m ++ tail))
  | hours (p : List Char) (hp : UtcOrGmt p) (hm : m = 0) : OffsetText neg h m (p ++ signChar neg :: two h)
  | short (p : List Char) (hp : UtcOrGmt p) (hh : h < 10) (hm : m = 0) :
      OffsetText neg h m (p ++ [signChar neg, digitChar h])
  | shortMin (p : List Char) (hp : UtcOrGmt p) (hh : h < 10) :
      OffsetText neg h m (p ++ signChar neg :: digitChar h :: ':' :: two m)

/-- The offsets in use. -/
def KnownOffset (neg : Bool) (h m : Nat) : Prop :=
  h < 24 ∧ m < 60 ∧ ∃ z ∈ utcZones, z.1 = "UTC".toList ++ signChar neg :: (two h ++ ':' :: two m)

/-- One way to see a time zone in a text: `before`, one character `c`, the zone, and – if `next` is given – one
character after the zone that goes with it, and the rest. -/
structure Sight where
  before : List Char
  c : Char
  zone : List Char
  next : Option Char
  rest : List Char

def Sight.text (s : Sight) : List Char := s.before ++ s.c :: (s.zone ++ s.next.toList ++ s.rest)

/-- The text without the zone.  Of `c` one byte is kept. -/
def Sight.left (s : Sight) : List Char := s.before ++ firstByte s.c :: s.rest

/-- An offset at the end of the text, not at its beginning or the beginning of a line. -/
def SeesOffset (s : Sight) (offset : Int) : Prop :=
  s.c ≠ '\n' ∧ s.next = none ∧ s.rest = [] ∧
  ∃ neg h m, KnownOffset neg h m ∧ OffsetText neg h m s.zone ∧ offset = seconds neg h m

/-- A known abbreviation, not after a letter (A–Z in any case), and at the end or before a character that is not a letter, digit or
underscore. -/
def SeesName (s : Sight) (offset : Int) : Prop :=
  (foldC s.c).isAlpha = false ∧ (match s.next with
    | some d => isWordC (foldC d) = false
    | none => s.rest = []) ∧
  ∃ name, (name, offset) ∈ namedZones ∧ SameText s.zone name

/-- A zone with this offset can be seen in the text. -/
def Sees (str : List Char) (s : Sight) (offset : Int) : Prop :=
  s.text = str ∧ (SeesOffset s offset ∨ SeesName s offset)

end Verif.Spec
