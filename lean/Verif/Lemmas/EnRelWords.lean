import Verif.Lemmas.EnRel
/-! Helper lemmas: words for relative dates pass the stages before the individual parsers. -/
set_option autoImplicit false
namespace Verif.Lemmas
open Verif.Spec Verif.Data

def allDigits : List Char := "0123456789".toList

/-- The direction and amount of a word. -/
def wordForm (k : Int) : RelForm := if k ≤ 0 then .ago else .within
def wordAmount (k : Int) : List Char := if k.natAbs = 10 then "10".toList else [Char.ofNat (48 + k.natAbs)]

def wordPass (x : String × Int × RelUnit) : Bool :=
  isAscii x.1.toList && passesWith allDigits enData [['t']] x.1.toList (RelForm.phrase (wordForm x.2.1) (wordAmount x.2.1) x.2.2).text &&
  decide (wordAmount x.2.1 ≠ []) && (wordAmount x.2.1).all Char.isDigit && decide (number (wordAmount x.2.1) = x.2.1.natAbs)

theorem words_pass : englishRelative.all wordPass = true := by decide +kernel

end Verif.Lemmas
