import Verif.Lemmas.NumericTimes
set_option autoImplicit false
set_option maxRecDepth 100000
namespace Verif.Lemmas
theorem times_slash1_hm1 : numericTimesPass 1 '/' false false = true := by decide +kernel
theorem times_slash1_hm2 : numericTimesPass 1 '/' true false = true := by decide +kernel
theorem times_slash1_hms1 : numericTimesPass 1 '/' false true = true := by decide +kernel
theorem times_slash1_hms2 : numericTimesPass 1 '/' true true = true := by decide +kernel
theorem times_slash1 (two sec : Bool) : numericTimesPass 1 '/' two sec = true := by
  cases two <;> cases sec
  · exact times_slash1_hm1
  · exact times_slash1_hms1
  · exact times_slash1_hm2
  · exact times_slash1_hms2
end Verif.Lemmas
