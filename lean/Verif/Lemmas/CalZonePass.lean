import Verif.Lemmas.CalTimePass
/-! Helper lemmas: the texts of Jalali and Hijri dates with a time of day and an offset pass the stages before the zone. -/
set_option autoImplicit false
namespace Verif.Lemmas
open Verif.Go Verif.Model Verif.Spec Verif.Props Verif.Data

def offsetEnds : List (List Char) := ["+12:34".toList, "-12:34".toList, "+1234".toList, "-1234".toList]

def offsetsPass (place : Nat) (sep : Char) : Bool := (shapes place).all fun x => timeTmpls.all fun T => offsetEnds.all fun e =>
  stagePass (tmpl3 x.1 x.2.1 x.2.2 sep ++ ' ' :: (T ++ e))

theorem offsets_0_slash : offsetsPass 0 '/' = true := by decide +kernel
theorem offsets_0_dot : offsetsPass 0 '.' = true := by decide +kernel
theorem offsets_0_dash : offsetsPass 0 '-' = true := by decide +kernel
theorem offsets_1_slash : offsetsPass 1 '/' = true := by decide +kernel
theorem offsets_1_dot : offsetsPass 1 '.' = true := by decide +kernel
theorem offsets_2_slash : offsetsPass 2 '/' = true := by decide +kernel
theorem offsets_2_dot : offsetsPass 2 '.' = true := by decide +kernel

theorem offsets_pass {p : Nat × Char} (h : p ∈ seps) : offsetsPass p.1 p.2 = true := by
  simp only [seps, List.mem_cons, List.not_mem_nil, or_false] at h
  rcases h with rfl | rfl | rfl | rfl | rfl | rfl | rfl
  · exact offsets_0_slash
  · exact offsets_0_dot
  · exact offsets_0_dash
  · exact offsets_1_slash
  · exact offsets_1_dot
  · exact offsets_2_slash
  · exact offsets_2_dot

end Verif.Lemmas
