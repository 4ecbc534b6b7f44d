import Verif.Lemmas.NumericTimes
set_option autoImplicit false
set_option maxRecDepth 100000
namespace Verif.Lemmas
theorem times_dot1_hm1 : numericTimesPass 1 '.' false false = true := by decide +kernel
theorem times_dot1_hm2 : numericTimesPass 1 '.' true false = true := by decide +kernel
theorem times_dot1_hms1 : numericTimesPass 1 '.' false true = true := by decide +kernel
theorem times_dot1_hms2 : numericTimesPass 1 '.' true true = true := by decide +kernel
theorem times_dot1 (two sec : Bool) : numericTimesPass 1 '.' two sec = true := by
  cases two <;> cases sec
  · exact times_dot1_hm1
  · exact times_dot1_hms1
  · exact times_dot1_hm2
  · exact times_dot1_hms2
end Verif.Lemmas
