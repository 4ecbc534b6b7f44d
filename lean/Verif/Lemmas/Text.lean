import Verif.Lemmas.Absolute
import Verif.Spec.Calendar
import Verif.Spec.Text
/-! Helper lemmas: specification vocabulary and model agree. -/
set_option autoImplicit false
namespace Verif.Lemmas
open Verif.Go Verif.Model Verif.Spec

theorem number_eq (s : List Char) : number s = natOfDigits s := by
  unfold number natOfDigits digitVal; rfl

theorem isAlpha_iff (c : Char) : c.isAlpha = true ↔ isLetterTok c = true := by
  unfold Char.isAlpha Char.isUpper Char.isLower isLetterTok
  simp only [Bool.or_eq_true, Bool.and_eq_true, decide_eq_true_eq]
  constructor
  · rintro (h | h)
    · right; exact h
    · left; exact h
  · rintro (h | h)
    · right; exact h
    · left; exact h

theorem isDigitTok_iff (c : Char) : (c.isDigit = true ∨ c = ':') ↔ isDigitTok c = true := by
  unfold Char.isDigit isDigitTok
  simp only [Bool.or_eq_true, Bool.and_eq_true, decide_eq_true_eq, beq_iff_eq]
  exact Iff.rfl

/-- Token types as classes. -/
def clsOf : TokType → CharClass
  | .digit => .digitOrColon
  | .letter => .asciiLetter
  | _ => .other

theorem charClass_eq (c : Char) : charClass c = clsOf (classOf c) := by
  unfold charClass classOf
  by_cases h : isDigitTok c = true
  · rw [if_pos ((isDigitTok_iff c).mpr h), if_pos h]; rfl
  · rw [if_neg (fun x => h ((isDigitTok_iff c).mp x)), if_neg h]
    by_cases h2 : isLetterTok c = true
    · rw [if_pos ((isAlpha_iff c).mpr h2), if_pos h2]; rfl
    · rw [if_neg (fun x => h2 ((isAlpha_iff c).mp x)), if_neg h2]; rfl

theorem classOf_other {c : Char} (h : charClass c = .other) : classOf c = .other := by
  rw [charClass_eq] at h
  unfold classOf at h ⊢
  split
  · rename_i h1; simp [h1, clsOf] at h
  · split
    · rename_i h1 h2; simp [h1, h2, clsOf] at h
    · rfl

theorem sepOK_of {s : List Char} (h : IsSeparator s) : SepOK s :=
  ⟨fun c hc => classOf_other (h.1 c hc), h.2⟩

theorem wdOK_digits {s : List Char} (h : IsNumeral s) : (Wd.mk s .digit).OK :=
  ⟨h.1, digits_run h.2, by simp⟩

end Verif.Lemmas
