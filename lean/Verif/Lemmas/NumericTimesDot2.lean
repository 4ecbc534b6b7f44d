import Verif.Lemmas.NumericTimes
set_option autoImplicit false
set_option maxRecDepth 100000
namespace Verif.Lemmas
theorem times_dot2_hm1 : numericTimesPass 2 '.' false false = true := by decide +kernel
theorem times_dot2_hm2 : numericTimesPass 2 '.' true false = true := by decide +kernel
theorem times_dot2_hms1 : numericTimesPass 2 '.' false true = true := by decide +kernel
theorem times_dot2_hms2 : numericTimesPass 2 '.' true true = true := by decide +kernel
theorem times_dot2 (two sec : Bool) : numericTimesPass 2 '.' two sec = true := by
  cases two <;> cases sec
  · exact times_dot2_hm1
  · exact times_dot2_hms1
  · exact times_dot2_hm2
  · exact times_dot2_hms2
end Verif.Lemmas
