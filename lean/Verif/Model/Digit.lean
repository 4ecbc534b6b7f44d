import Verif.Data.Digits
/-! # internal/digit -/
set_option autoImplicit false
namespace Verif.Model
open Verif.Data

/-- Go's `unicode.IsDigit`, with the zeros of the Unicode version Go is built with. -/
def isUniDigit (zeros : List Nat) (c : Char) : Bool := zeros.any fun z => decide (z ≤ c.toNat ∧ c.toNat < z + 10)

/-- digit.go:46-53 `apply`. -/
def applyRange (dr : Nat × Nat) (r : Char) : Option Char :=
  if dr.1 ≤ r.toNat ∧ r.toNat ≤ dr.2 then some (Char.ofNat (48 + (r.toNat - dr.1))) else none

/-- digit.go:29-35: try every range, from index `j`. -/
def tryRanges (r : Char) : Nat → List (Nat × Nat) → Option (Char × Nat)
  | _, [] => none
  | j, dr :: rest => match applyRange dr r with
    | some n => some (n, j)
    | none => tryRanges r (j + 1) rest

/-- digit.go:14-36: one turn of the loop; the last used range (-1 at first) and a character. -/
def digitStep (isDigit : Char → Bool) (last : Int) (r : Char) : Char × Int :=
  if !isDigit r then (r, last)
  else
    match (if last > 0 then applyRange (digitRanges.getD last.toNat (0, 0)) r else none) with
    | some n => (n, last)
    | none => match tryRanges r 0 digitRanges with
      | some (n, j) => (n, j)
      | none => (r, last)

/-- digit.go:14-38: the loop. -/
def digitLoop (isDigit : Char → Bool) : Int → List Char → List Char
  | _, [] => []
  | last, r :: rest => (digitStep isDigit last r).1 :: digitLoop isDigit (digitStep isDigit last r).2 rest

/-- digit.go:11-39 `NormalizeString`. -/
def normalizeDigits (isDigit : Char → Bool) (str : List Char) : List Char := digitLoop isDigit (-1) str

end Verif.Model
