import Verif.Lemmas.NumericTimes
set_option autoImplicit false
set_option maxRecDepth 100000
namespace Verif.Lemmas
theorem times_dash0_hm1 : numericTimesPass 0 '-' false false = true := by decide +kernel
theorem times_dash0_hm2 : numericTimesPass 0 '-' true false = true := by decide +kernel
theorem times_dash0_hms1 : numericTimesPass 0 '-' false true = true := by decide +kernel
theorem times_dash0_hms2 : numericTimesPass 0 '-' true true = true := by decide +kernel
theorem times_dash0 (two sec : Bool) : numericTimesPass 0 '-' two sec = true := by
  cases two <;> cases sec
  · exact times_dash0_hm1
  · exact times_dash0_hms1
  · exact times_dash0_hm2
  · exact times_dash0_hms2
end Verif.Lemmas
