import Verif.Lemmas.EnMonth
import Verif.Lemmas.WordPass
/-! Helper lemmas: translated dates with month names have neither time zones nor braces nor amounts of time. -/
set_option autoImplicit false
namespace Verif.Lemmas
open Verif.Go Verif.Model Verif.Data Verif.Spec

/-- A translated text without braces, time zone, amounts of time. -/
def plainOut (a : List Char) : Bool := isAscii a && noBraces a && (a.all fun c => foldC c == c) && !mayHaveZone a && noAmount a

theorem plain_out {tb : List TzEntry} (htb : IsTable tb) {a : List Char} (h : plainOut a = true) {ds : List Char} (hds : ∀ c ∈ ds, c.isDigit = true) :
    stripBraces (a.map (sub ds)) = a.map (sub ds) ∧ popTzOffset tb (a.map (sub ds)) = (a.map (sub ds), none) ∧ noAmount (a.map (sub ds)) = true := by
  simp only [plainOut, Bool.and_eq_true, Bool.not_eq_true'] at h
  obtain ⟨⟨⟨⟨h1, h2⟩, h3⟩, h4⟩, h5⟩ := h
  have ht := tag_sub hds h1
  have hc : Rel2 CaseRel a (a.map (sub ds)) := ht.mono fun _ _ hxy => hxy.case
  exact ⟨strip_noBraces (by rw [← noBraces_rel hc]; exact h2), pop_none_rel (TagRel.digits _) htb ht h3 h4, by rw [← noAmount_rel hc]; exact h5⟩

/-- Dates in a form, as translated; the days written like `d`. -/
def wordsPass (f : WordForm) (d : List Char) : Bool :=
  [1, 2, 3, 4, 5, 6, 7, 8, 9, 10, 11, 12].all fun n => plainOut (f.writeOut d (englishMonth n) "3456".toList)

theorem words_dayFirst : wordsPass .dayFirst "1".toList = true ∧ wordsPass .dayFirst "12".toList = true := by decide +kernel
theorem words_dotted : wordsPass .dotted "1".toList = true ∧ wordsPass .dotted "12".toList = true := by decide +kernel
theorem words_plain : wordsPass .plain "1".toList = true ∧ wordsPass .plain "12".toList = true := by decide +kernel
theorem words_yearFirst : wordsPass .yearFirst "1".toList = true ∧ wordsPass .yearFirst "12".toList = true := by decide +kernel

theorem wordForms_pass (f : WordForm) {a : List Char} (h : a = "1".toList ∨ a = "12".toList) : wordsPass f a = true := by
  rcases h with rfl | rfl <;> cases f
  · exact words_dayFirst.1
  · exact words_dotted.1
  · exact words_plain.1
  · exact words_plain.1
  · exact words_yearFirst.1
  · exact words_dayFirst.2
  · exact words_dotted.2
  · exact words_plain.2
  · exact words_plain.2
  · exact words_yearFirst.2

end Verif.Lemmas
