import Verif.Lemmas.WordMonths11
import Verif.Lemmas.WordMonths12
/-! Helper lemmas: the month names of the supported locales. -/
set_option autoImplicit false
namespace Verif.Lemmas
open Verif.Go Verif.Model Verif.Data Verif.Spec

theorem months_read {x : LangData × Option LangData} (h : x ∈ allLangs) : monthsRead x = true := by
  obtain ⟨i, hi, hx⟩ := mem_chunk h
  have key : ∀ i < 12, (langChunk i).all monthsRead = true := by
    intro i hi
    have : i = 0 ∨ i = 1 ∨ i = 2 ∨ i = 3 ∨ i = 4 ∨ i = 5 ∨ i = 6 ∨ i = 7 ∨ i = 8 ∨ i = 9 ∨ i = 10 ∨ i = 11 := by omega
    rcases this with rfl | rfl | rfl | rfl | rfl | rfl | rfl | rfl | rfl | rfl | rfl | rfl
    · exact months_read_0
    · exact months_read_1
    · exact months_read_2
    · exact months_read_3
    · exact months_read_4
    · exact months_read_5
    · exact months_read_6
    · exact months_read_7
    · exact months_read_8
    · exact months_read_9
    · exact months_read_10
    · exact months_read_11
  exact List.all_eq_true.mp (key i hi) x hx

end Verif.Lemmas
