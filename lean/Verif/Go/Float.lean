import Verif.Go.TimeParse
/-!
# `float64`, non-negative values

Every finite non-negative `float64` is a whole multiple of 2⁻¹⁰⁷⁴; it is modelled by that multiple.  The
library only computes with non-negative numbers.  Rounding is to nearest, ties to even, as IEEE 754 and
`strconv.ParseFloat` demand; no fused multiply-add.  Not-a-number cannot arise in what is modelled.
-/
set_option autoImplicit false
namespace Verif.Go

/-- The number 1 as a multiple of 2⁻¹⁰⁷⁴. -/
def fOne : Nat := 2 ^ 1074

/-- A non-negative `float64`. -/
inductive F64 where
  | fin (n : Nat)
  | inf
deriving DecidableEq

/-- The fraction `num / den` rounded to the nearest whole number, ties to even. -/
def roundEven (num den : Nat) : Nat :=
  if 2 * (num % den) < den then num / den
  else if den < 2 * (num % den) then num / den + 1
  else if num / den % 2 = 0 then num / den else num / den + 1

/-- Distance between neighbouring floats around `q · 2⁻¹⁰⁷⁴`: 53 significant bits. -/
def ulp (q : Nat) : Nat := if q < 2 ^ 53 then 1 else 2 ^ (Nat.log2 q - 52)

/-- Round `num / den` (a multiple of 2⁻¹⁰⁷⁴) to a `float64`. -/
def F64.round (num den : Nat) : F64 :=
  let u := ulp (num / den)
  let v := roundEven num (den * u) * u
  if v < 2 ^ 2098 then .fin v else .inf

/-- `x + y` -/
def F64.add : F64 → F64 → F64
  | .fin a, .fin b => F64.round (a + b) 1
  | _, _ => .inf

/-- `x * k` for a small positive whole number `k`. -/
def F64.scale (k : Nat) : F64 → F64
  | .fin a => F64.round (a * k) 1
  | .inf => .inf

/-- `strconv.ParseFloat(ip + "." + fp, 64)`, value only (overflow gives an error together with `+Inf`). -/
def F64.ofDecimal (ip fp : List Char) : F64 :=
  F64.round ((natOfDigits (ip ++ fp)).toNat * fOne) (10 ^ fp.length)

/-- Conversion to `int64` (Go's `int(x)`, `time.Duration(x)`): towards zero; what comes out when the value
does not fit is up to the platform, parameter `big` (amd64: the smallest `int64`). -/
def F64.toInt (big : Int) : F64 → Int
  | .fin n => if n / fOne < 2 ^ 63 then ((n / fOne : Nat) : Int) else big
  | .inf => big

/-- Two's complement `int64`. -/
def wrap64 (x : Int) : Int := (x + 2 ^ 63) % 2 ^ 64 - 2 ^ 63

attribute [irreducible] fOne

end Verif.Go
