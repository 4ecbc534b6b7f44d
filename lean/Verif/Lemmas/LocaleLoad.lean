import Verif.Lemmas.WholeParse
import Verif.Spec.Locales
/-! Helper lemmas: the supported locales, loaded one at a time. -/
set_option autoImplicit false
set_option maxRecDepth 100000
namespace Verif.Lemmas
open Verif.Go Verif.Model Verif.Data Verif.Spec

/-! ## Locales by their names -/

/-- The names in the table of locales are those of the data. -/
theorem locale_names : localeData.map (·.2.name) = allLangs.map (·.1.name) := by decide +kernel
theorem locale_keys : (localeData.all fun x => x.1 == x.2.name) = true := by decide +kernel

theorem locale_mem {n : Name} {l : LocaleInfo} (h : getLocaleData n = some l) : (n, l) ∈ localeData ∧ l.name = n := by
  unfold getLocaleData Model.lookup at h
  simp only [Option.map_eq_some_iff] at h
  obtain ⟨y, hy, rfl⟩ := h
  have hm := List.mem_of_find?_eq_some hy
  have hk := List.all_eq_true.mp locale_keys y hm
  have h1 : y.1 = n := by simpa using List.find?_some hy
  have h2 : y.1 = y.2.name := by simpa using hk
  exact ⟨by rw [← h1]; exact hm, by rw [← h2, h1]⟩

theorem locale_lang {n : Name} {l : LocaleInfo} (h : getLocaleData n = some l) : ∃ x ∈ allLangs, x.1.name = l.name := by
  have : l.name ∈ localeData.map (·.2.name) := List.mem_map_of_mem (f := fun z : Name × LocaleInfo => z.2.name) (locale_mem h).1
  rw [locale_names] at this
  obtain ⟨x, hx, e⟩ := List.mem_map.mp this
  exact ⟨x, hx, e⟩

theorem all_load : (localeData.all fun x => loadsLocale x.1) = true := by decide +kernel
theorem languages_load : (languageOrder.all fun x => loadsAlone x.1) = true := by decide +kernel

theorem _root_.Verif.Spec.AsksOnly.picks {E : Env} {l : LocaleInfo} {s : ParserSt} {c : PCfg} (h : AsksOnly l s c) : Picks E s c l := by
  refine Only.picks h.toOnly h.supported ?_
  rcases h.chosen with ⟨h1, _⟩ | ⟨_, h2⟩
  · exact Or.inl ⟨List.all_eq_true.mp all_load _ (locale_mem h.supported).1, h1⟩
  · obtain ⟨x, hx, e⟩ := List.mem_map.mp (h.language h2)
    exact Or.inr (by rw [← e]; exact List.all_eq_true.mp languages_load x hx)

end Verif.Lemmas
