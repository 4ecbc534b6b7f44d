import Verif.Lemmas.IsoText
/-! Helper lemmas: ISO dates and times with offsets pass the stages before the individual parsers. -/
set_option autoImplicit false
namespace Verif.Lemmas

theorem iso_plus : isoPass "00:00:00+00:09" "12:34:56+78:90" "00:00:00+00:09" "12:34:56+78:90" = true := by decide +kernel
theorem iso_minus : isoPass "00:00:00-00:09" "12:34:56-78:90" "00:00:00-00:09" "12:34:56-78:90" = true := by decide +kernel
theorem iso_plus' : isoPass "00:00:00+0009" "12:34:56+7890" "00:00:00+0009" "12:34:56+7890" = true := by decide +kernel
theorem iso_minus' : isoPass "00:00:00-0009" "12:34:56-7890" "00:00:00-0009" "12:34:56-7890" = true := by decide +kernel

end Verif.Lemmas
