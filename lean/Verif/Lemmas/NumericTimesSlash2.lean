import Verif.Lemmas.NumericTimes
set_option autoImplicit false
set_option maxRecDepth 100000
namespace Verif.Lemmas
theorem times_slash2_hm1 : numericTimesPass 2 '/' false false = true := by decide +kernel
theorem times_slash2_hm2 : numericTimesPass 2 '/' true false = true := by decide +kernel
theorem times_slash2_hms1 : numericTimesPass 2 '/' false true = true := by decide +kernel
theorem times_slash2_hms2 : numericTimesPass 2 '/' true true = true := by decide +kernel
theorem times_slash2 (two sec : Bool) : numericTimesPass 2 '/' two sec = true := by
  cases two <;> cases sec
  · exact times_slash2_hm1
  · exact times_slash2_hms1
  · exact times_slash2_hm2
  · exact times_slash2_hms2
end Verif.Lemmas
