import Verif.Lemmas.Tags
import Verif.Spec.Iso
/-! Helper lemmas: ISO dates and times pass the stages before the individual parsers. -/
set_option autoImplicit false
namespace Verif.Lemmas
open Verif.Go Verif.Model Verif.Data Verif.Spec

def isoDateA (c : Char) (r : String) : List Char := "1234-56-78".toList ++ c :: r.toList
def isoDateB (c : Char) (r : String) : List Char := "0000-00-00".toList ++ c :: r.toList

/-- The text with the given endings becomes the text with the others, after a space. -/
def isoPass (a b a' b' : String) : Bool :=
  ['t', ' '].all fun c =>
    isAscii (isoDateA c a) && reachesWith [] enData [['t']] (isoDateA c a) (isoDateA ' ' a') &&
    reachesWith [] enData [['t']] (isoDateB c b) (isoDateB ' ' b') &&
    covers (isoDateA c a) (isoDateB c b) && covers (isoDateA ' ' a') (isoDateB ' ' b')

theorem iso_plain : isoPass "00:00:00" "12:34:56" "00:00:00" "12:34:56" = true := by decide +kernel
theorem iso_z : isoPass "00:00:00z" "12:34:56z" "00:00:00 z" "12:34:56 z" = true := by decide +kernel
theorem iso_milli : isoPass "00:00:00.000" "12:34:56.789" "00:00:00.000" "12:34:56.789" = true := by decide +kernel
theorem iso_milli_z : isoPass "00:00:00.000z" "12:34:56.789z" "00:00:00.000 z" "12:34:56.789 z" = true := by decide +kernel

/-- Endings of a date and time, and what becomes of them; each with two texts that together give all digits. -/
def isoEndings : List (String × String × String × String) :=
  [("00:00:00", "12:34:56", "00:00:00", "12:34:56"), ("00:00:00z", "12:34:56z", "00:00:00 z", "12:34:56 z"),
    ("00:00:00.000", "12:34:56.789", "00:00:00.000", "12:34:56.789"), ("00:00:00.000z", "12:34:56.789z", "00:00:00.000 z", "12:34:56.789 z"),
    ("00:00:00+00:09", "12:34:56+78:90", "00:00:00+00:09", "12:34:56+78:90"), ("00:00:00-00:09", "12:34:56-78:90", "00:00:00-00:09", "12:34:56-78:90"),
    ("00:00:00+0009", "12:34:56+7890", "00:00:00+0009", "12:34:56+7890"), ("00:00:00-0009", "12:34:56-7890", "00:00:00-0009", "12:34:56-7890")]

theorem mem_plain : ("00:00:00", "12:34:56", "00:00:00", "12:34:56") ∈ isoEndings := by simp [isoEndings]
theorem mem_z : ("00:00:00z", "12:34:56z", "00:00:00 z", "12:34:56 z") ∈ isoEndings := by simp [isoEndings]
theorem mem_milli : ("00:00:00.000", "12:34:56.789", "00:00:00.000", "12:34:56.789") ∈ isoEndings := by simp [isoEndings]
theorem mem_milli_z : ("00:00:00.000z", "12:34:56.789z", "00:00:00.000 z", "12:34:56.789 z") ∈ isoEndings := by simp [isoEndings]
theorem mem_plus : ("00:00:00+00:09", "12:34:56+78:90", "00:00:00+00:09", "12:34:56+78:90") ∈ isoEndings := by simp [isoEndings]
theorem mem_minus : ("00:00:00-00:09", "12:34:56-78:90", "00:00:00-00:09", "12:34:56-78:90") ∈ isoEndings := by simp [isoEndings]
theorem mem_plus' : ("00:00:00+0009", "12:34:56+7890", "00:00:00+0009", "12:34:56+7890") ∈ isoEndings := by simp [isoEndings]
theorem mem_minus' : ("00:00:00-0009", "12:34:56-7890", "00:00:00-0009", "12:34:56-7890") ∈ isoEndings := by simp [isoEndings]

end Verif.Lemmas
