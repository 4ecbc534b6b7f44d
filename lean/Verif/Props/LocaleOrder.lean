import Verif.Props.Loader
import Verif.Model.Nospace
import Verif.Model.Absolute
import Verif.Spec.Text
/-! # C39: date orders of locales -/
set_option autoImplicit false
namespace Verif.Props
open Verif.Go Verif.Model Verif.Spec Verif.Data

/-- The orders of day, month and year. -/
def orders : List Order := [.dmy, .dym, .mdy, .myd, .ymd, .ydm]

theorem filterMap_filter_none {α β : Type} (f : α → Option β) (p : α → Bool) (h : ∀ c, p c = false → f c = none)
    (s : List α) : s.filterMap f = (s.filter p).filterMap f := by
  induction s with
  | nil => rfl
  | cons c s ih =>
    cases hp : p c with
    | false => rw [List.filter_cons, hp, List.filterMap_cons, h c hp]; simpa using ih
    | true => rw [List.filter_cons, hp, if_pos rfl, List.filterMap_cons, List.filterMap_cons, ih]

/-- **C39, parser of separated dates.** Every built-in locale except Tagalog has a date order in which day, month
and year occur once each; other characters of it are ignored. -/
theorem C39_separated_partial : ∀ p ∈ localeData, p.1 ≠ "tl".toList →
    ∃ o ∈ orders, numberDirectives p.2.dateOrder = numberDirectives o.letters := by
  have h : ∀ p ∈ localeData, p.1 = "tl".toList ∨ orders.any (fun o => (toLower p.2.dateOrder).filter
      (fun c => c == 'd' || c == 'm' || c == 'y') == o.letters) = true := by decide +kernel
  intro p hp hne
  have := (h p hp).resolve_left hne
  rw [List.any_eq_true] at this
  obtain ⟨o, ho, he⟩ := this
  refine ⟨o, ho, ?_⟩
  have he : (toLower p.2.dateOrder).filter (fun c => c == 'd' || c == 'm' || c == 'y') = o.letters := by simpa using he
  have hl : toLower o.letters = o.letters := by cases o <;> decide
  unfold numberDirectives
  rw [hl, ← he]
  generalize toLower p.2.dateOrder = s
  apply filterMap_filter_none
  intro c hc
  simp only [Bool.or_eq_false_iff] at hc
  simp [hc.1.1, hc.1.2, hc.2]

/-- A date order that is set but not one of the six leaves the parser of unseparated dates without a result. -/
theorem nospace_bad_order (cfg : Cfg) (nowYear : Int) (str : List Char) (h1 : cfg.dateOrder ≠ [])
    (h2 : ∀ o : Order, toLower cfg.dateOrder ≠ o.letters) : nospaceParse cfg nowYear str = .error .error := by
  have he : cfg.dateOrder.isEmpty = false := by simpa using h1
  have hf : dateTimeFormats (toLower cfg.dateOrder) = none := by
    unfold dateTimeFormats
    rw [if_neg (show ¬ toLower cfg.dateOrder = "mdy".toList from h2 .mdy), if_neg]
    intro hm
    have e : (["myd", "ymd", "ydm", "dmy", "dym"].map String.toList) =
      [Order.myd.letters, Order.ymd.letters, Order.ydm.letters, Order.dmy.letters, Order.dym.letters] := by decide
    rw [e] at hm
    simp only [List.mem_cons, List.not_mem_nil, or_false] at hm
    rcases hm with h | h | h | h | h
    · exact h2 _ h
    · exact h2 _ h
    · exact h2 _ h
    · exact h2 _ h
    · exact h2 _ h
  unfold nospaceParse
  simp only [he, Bool.false_and, Bool.false_eq_true, if_false, hf]
  split
  · rfl
  · split
    · rfl
    · rw [if_neg (by decide)]

/-- Locales whose built-in date order the parser of unseparated dates does not know. -/
def badOrderLocales : List String :=
  ["bg", "bs", "bs-Cyrl", "bs-Latn", "hr", "hr-BA", "hu", "ko", "ko-KP", "sr", "sr-Cyrl", "sr-Cyrl-BA", "sr-Cyrl-ME",
   "sr-Cyrl-XK", "sr-Latn", "sr-Latn-BA", "sr-Latn-ME", "sr-Latn-XK"]

/-- **C39 fails.** With the built-in date order of Bulgarian, Bosnian, Croatian, Hungarian, Korean or Serbian, no text
written without separators is ever parsed as a date. -/
theorem C39_unseparated : ∀ n ∈ badOrderLocales, ∃ ld, getLocaleData n.toList = some ld ∧
    ∀ (cfg : Cfg) (nowYear : Int) (str : List Char), cfg.dateOrder = ld.dateOrder →
      nospaceParse cfg nowYear str = .error .error := by
  have h : ∀ n ∈ badOrderLocales, ((getLocaleData n.toList).map fun ld =>
      !ld.dateOrder.isEmpty && orders.all fun o => toLower ld.dateOrder != o.letters) = some true := by decide +kernel
  intro n hn
  have := h n hn
  cases hd : getLocaleData n.toList with
  | none => rw [hd] at this; simp at this
  | some ld =>
    rw [hd] at this
    simp only [Option.map_some, Option.some.injEq, Bool.and_eq_true, Bool.not_eq_true', List.all_eq_true,
      bne_iff_ne, ne_eq] at this
    refine ⟨ld, rfl, ?_⟩
    intro cfg nowYear str hc
    apply nospace_bad_order
    · rw [hc]; simpa using this.1
    · intro o; rw [hc]; exact this.2 o (by cases o <;> decide)

/-- **C39.** All other locales have one of the six orders (Tagalog none: then month, day, year is assumed). -/
theorem C39_unseparated_partial : ∀ p ∈ localeData, p.1 ∉ badOrderLocales.map String.toList → p.1 ≠ "tl".toList →
    ∃ o ∈ orders, toLower p.2.dateOrder = o.letters := by
  have h : ∀ p ∈ localeData, (badOrderLocales.map String.toList).elem p.1 = true ∨ p.1 = "tl".toList ∨
      orders.any (fun o => toLower p.2.dateOrder == o.letters) = true := by decide +kernel
  intro p hp h1 h2
  rcases h p hp with h | h | h
  · exact absurd (by simpa using h) h1
  · exact absurd h h2
  · rw [List.any_eq_true] at h
    obtain ⟨o, ho, e⟩ := h
    exact ⟨o, ho, by simpa using e⟩

end Verif.Props
