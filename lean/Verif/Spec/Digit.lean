import Verif.Data.Digits
/-! # Specification: decimal digits -/
set_option autoImplicit false
namespace Verif.Spec
open Verif.Data

/-- `c` is the decimal digit `d` of some script: the `d`-th character after the zero of that script. -/
def IsDigitChar (zeros : List Nat) (c : Char) (d : Nat) : Prop := d < 10 ∧ ∃ z ∈ zeros, c.toNat = z + d

/-- The digits the code gets wrong: the mathematical digits other than the bold ones, and the Eastern Pwo Karen
digits. -/
def Misread (c : Char) : Prop := 0x1D7D8 ≤ c.toNat ∧ c.toNat ≤ 0x1D7FF ∨ 0x116DA ≤ c.toNat ∧ c.toNat ≤ 0x116E3

end Verif.Spec
