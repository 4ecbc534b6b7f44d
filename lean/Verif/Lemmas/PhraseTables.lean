import Verif.Lemmas.PhraseTables4
/-! Helper lemmas: the phrases for relative dates of the supported locales. -/
set_option autoImplicit false
namespace Verif.Lemmas
open Verif.Go Verif.Model Verif.Data Verif.Spec

theorem phrases_read {x : LangData × Option LangData} (h : x ∈ allLangs) : phrasesRead x = true := by
  obtain ⟨i, hi, hx⟩ := mem_chunk h
  have key : ∀ i < 12, (langChunk i).all phrasesRead = true := by
    intro i hi
    have : i = 0 ∨ i = 1 ∨ i = 2 ∨ i = 3 ∨ i = 4 ∨ i = 5 ∨ i = 6 ∨ i = 7 ∨ i = 8 ∨ i = 9 ∨ i = 10 ∨ i = 11 := by omega
    rcases this with rfl | rfl | rfl | rfl | rfl | rfl | rfl | rfl | rfl | rfl | rfl | rfl
    · exact phrases_read_0
    · exact phrases_read_1
    · exact phrases_read_2
    · exact phrases_read_3
    · exact phrases_read_4
    · exact phrases_read_5
    · exact phrases_read_6
    · exact phrases_read_7
    · exact phrases_read_8
    · exact phrases_read_9
    · exact phrases_read_10
    · exact phrases_read_11
  exact List.all_eq_true.mp (key i hi) x hx

end Verif.Lemmas
