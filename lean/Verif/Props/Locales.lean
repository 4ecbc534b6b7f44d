import Verif.Lemmas.NumericClasses
import Verif.Props.English
import Verif.Props.Total
/-! # C52: dates in any of the supported locales, from the call of `Parse` to its result -/
set_option autoImplicit false
namespace Verif.Props
open Verif.Go Verif.Model Verif.Data Verif.Lemmas Verif.Spec

/-- Numeric dates pass in every locale. -/
theorem numeric_everywhere {E : Env} (hE : Surroundings E) (hD : HasLocaleData E) {n : Name} {l : LocaleInfo} (hl : getLocaleData n = some l)
    (w : Order) {d m y : List Char} (hd : Short d) (hm : Short m) (hy : Four y) {sep : Char} (hsep : NumericSep w sep) :
    Passed E.uni E.table (E.lang l.name) [['t']] (w.write d m y [sep] [sep]) (w.write d m y [sep] [sep]) ∧ noAmount (w.write d m y [sep] [sep]) = true := by
  have hpass : (numericFinnish :: numericClasses).all (fun d' => shapesPassIn d' w.yearPlace sep) = true := by
    rw [List.all_eq_true]
    intro d' hd'
    rcases hsep with rfl | rfl | ⟨rfl, h0⟩
    · have := List.all_eq_true.mp (List.all_eq_true.mp numeric_slash d' hd') w.yearPlace (by rcases year_place w with h | h | h <;> simp [h])
      exact this
    · have := List.all_eq_true.mp (List.all_eq_true.mp numeric_dot d' hd') w.yearPlace (by rcases year_place w with h | h | h <;> simp [h])
      exact this
    · rw [h0]; exact List.all_eq_true.mp numeric_dash d' hd'
  have hnum : IsNumeral (w.pick d m y).1 ∧ IsNumeral (w.pick d m y).2.1 ∧ IsNumeral (w.pick d m y).2.2 := by
    cases w <;> simp [Order.pick, hd.1, hm.1, hy.1]
  have hsepd : sep.isDigit = false := by
    rcases hsep with rfl | rfl | ⟨rfl, _⟩ <;> decide
  have hshape : ((w.pick d m y).1.length, (w.pick d m y).2.1.length, (w.pick d m y).2.2.length) ∈ shapes w.yearPlace := by
    have h4 := hy.2
    rcases short_len hd with h1 | h1 <;> rcases short_len hm with h2 | h2 <;> cases w <;> simp [Order.pick, h1, h2, h4, Order.yearPlace, shapes]
  have htext := tmpl3_sub hshape hsepd
  rw [← write_sep] at htext
  obtain ⟨hasc, hlow⟩ := numeric_plain w hd hm hy hsep
  have hds : ∀ x ∈ '0' :: ((w.pick d m y).1 ++ (w.pick d m y).2.1 ++ (w.pick d m y).2.2), x.isDigit = true := by
    intro x hx
    simp only [List.mem_cons, List.mem_append] at hx
    rcases hx with rfl | (hx | hx) | hx
    · decide
    · exact hnum.1.2 x hx
    · exact hnum.2.1.2 x hx
    · exact hnum.2.2.2 x hx
  have hover : over dateAlphabet (tmpl3 (w.pick d m y).1.length (w.pick d m y).2.1.length (w.pick d m y).2.2.length sep) = true := by
    have h0 : ∀ c ∈ "12345678".toList, inK dateAlphabet c = true := by decide +kernel
    have hs : inK dateAlphabet sep = true := by rcases hsep with rfl | rfl | ⟨rfl, _⟩ <;> decide +kernel
    refine over_of fun c hc => ?_
    simp only [tmpl3, List.mem_append, List.mem_cons] at hc
    rcases hc with hc | rfl | hc | rfl | hc
    · exact h0 c (List.mem_of_mem_take hc)
    · exact hs
    · exact h0 c (List.mem_of_mem_drop (List.mem_of_mem_take hc))
    · exact hs
    · exact h0 c (List.mem_of_mem_drop (List.mem_of_mem_take hc))
  have := everywhere_date hE hD numeric_reduces numeric_sep numeric_closed numeric_uniform numeric_ascii hl hds
    (a := tmpl3 (w.pick d m y).1.length (w.pick d m y).2.1.length (w.pick d m y).2.2.length sep)
    (by
      rw [List.all_eq_true]
      intro d' hd'
      exact List.all_eq_true.mp (List.all_eq_true.mp hpass d' hd') _ hshape) hover hasc (by rw [htext]; exact hlow)
  rwa [htext] at this

/-- **C52** `Parse` asked for any one of the 504 supported locales, by its name or by that of its language, on a complete numeric date that
agrees with the locale's (or the configured) date order, gives exactly that day at midnight, with that locale and Period Day. -/
theorem C52_numeric_date {E : Env} (hE : Surroundings E) (hD : HasLocaleData E) {l : LocaleInfo} {s : ParserSt} {c : PCfg} (hc : AsksOnly l s c) (o w : Order)
    (ho : orderLetters (orderIn l.name l.dateOrder c) = o.letters) (hw : o.Agrees w) (d m y : List Char) (hd : Short d) (hm : Short m) (hy : Four y)
    (sep : Char) (hsep : NumericSep w sep) (hdate : IsDate (number y) (number m) (number d)) (hy2 : 2 ≤ number y)
    (hz : ZonesOk c E.now (wallOf (number y) (number m) (number d) 0 0 0 0)) :
    ∃ r, YieldsIn l.name E s c (w.write d m y [sep] [sep]) .day (number y) (number m) (number d) 0 0 0 0 r := by
  obtain ⟨hp, hn⟩ := numeric_everywhere hE hD hc.supported w hd hm hy hsep
  exact numeric_yields hE hc.picks o w ho hw d m y hd hm hy sep hsep hp hn hdate hy2 hz

/-- **C52** Every locale but tl (Tagalog) has a date order of its own. -/
theorem C52_orders {n : Name} {l : LocaleInfo} (h : getLocaleData n = some l) (hn : n ≠ "tl".toList) : ∃ o : Order, orderLetters l.dateOrder = o.letters := by
  have hall : ∀ p ∈ localeData, p.1 = "tl".toList ∨ [Order.dmy, .dym, .mdy, .myd, .ydm, .ymd].any (fun o => orderLetters p.2.dateOrder == o.letters) = true := by
    decide +kernel
  rcases hall _ (locale_mem h).1 with h' | h'
  · exact absurd h' hn
  · obtain ⟨o, _, ho⟩ := List.any_eq_true.mp h'
    exact ⟨o, by simpa using ho⟩

/-- **C52** Without a configured date order: in every locale but tl, dates written in the order of that locale. -/
theorem C52_own_order {E : Env} (hE : Surroundings E) (hD : HasLocaleData E) {l : LocaleInfo} (h : getLocaleData l.name = some l) (hl : l.name ≠ "tl".toList) :
    ∃ o : Order, orderLetters l.dateOrder = o.letters ∧ ∀ (s : ParserSt) (c : PCfg), AsksOnly l s c → c.dateOrder = none →
      ∀ (d m y : List Char), Short d → Short m → Four y → ∀ sep, NumericSep o sep → IsDate (number y) (number m) (number d) → 2 ≤ number y →
      ZonesOk c E.now (wallOf (number y) (number m) (number d) 0 0 0 0) →
      ∃ r, YieldsIn l.name E s c (o.write d m y [sep] [sep]) .day (number y) (number m) (number d) 0 0 0 0 r := by
  obtain ⟨o, ho⟩ := C52_orders h hl
  refine ⟨o, ho, fun s c hc hnone d m y hd hm hy sep hsep hdate hy2 hz => ?_⟩
  refine C52_numeric_date hE hD hc o o ?_ (Order.agrees_self o) d m y hd hm hy sep hsep hdate hy2 hz
  unfold orderIn
  rw [hnone]
  exact ho

/-! ## Examples -/

/-- The demonstration library with all its locales. -/
theorem full_ok : Surroundings (fullEnv demoEnv) := ⟨demo_sound.uni, demo_sound.table, demo_sound.clock⟩

/-- The locale of this name. -/
def asked (n : String) : PCfg := { locales := [n.toList] }

theorem asked_only {n : String} {l : LocaleInfo} (h : getLocaleData n.toList = some l) (hv : (asked n).validate = .ok ()) : AsksOnly l {} (asked n) := by
  have e := (locale_mem h).2
  exact ⟨⟨hv, Or.inl ⟨by rw [e]; rfl, rfl⟩, rfl, rfl, rfl, Or.inl rfl⟩, by rw [e]; exact h, fun h' => by cases h'⟩

theorem demo_zones (n : String) (w : Int) : ZonesOk (asked n) (fullEnv demoEnv).now w :=
  ⟨rfl, fun t => by show (-86400 : Int) ≤ 0 ∧ (0 : Int) ≤ 86400; decide, fun l h => by cases h⟩

/-- The date order of Hungarian is written "YMD.", that of Bulgarian "DMY 'Г'."; what counts are the letters d, m and y. -/
example : ∃ r, YieldsIn "hu".toList (fullEnv demoEnv) {} (asked "hu") "2015.03.05".toList .day 2015 3 5 0 0 0 0 r := by
  have h : getLocaleData "hu".toList = some ⟨"hu".toList, "YMD.".toList, false, 1⟩ := by decide +kernel
  exact C52_numeric_date full_ok (full_hasData _) (asked_only h (by decide +kernel)) .ymd .ymd (by decide) (Order.agrees_self _)
    "05".toList "03".toList "2015".toList ⟨by unfold IsNumeral; decide, by decide⟩ ⟨by unfold IsNumeral; decide, by decide⟩ ⟨by unfold IsNumeral; decide, by decide⟩
    '.' (Or.inr (Or.inl rfl)) (by decide) (by decide) (demo_zones _ _)

example : ∃ r, YieldsIn "bg".toList (fullEnv demoEnv) {} (asked "bg") "5.3.2015".toList .day 2015 3 5 0 0 0 0 r := by
  have h : getLocaleData "bg".toList = some ⟨"bg".toList, "DMY 'Г'.".toList, false, 1⟩ := by decide +kernel
  exact C52_numeric_date full_ok (full_hasData _) (asked_only h (by decide +kernel)) .dmy .dmy (by decide) (Order.agrees_self _)
    "5".toList "3".toList "2015".toList ⟨by unfold IsNumeral; decide, by decide⟩ ⟨by unfold IsNumeral; decide, by decide⟩ ⟨by unfold IsNumeral; decide, by decide⟩
    '.' (Or.inr (Or.inl rfl)) (by decide) (by decide) (demo_zones _ _)

/-- Japanese, asked for as a language. -/
example : ∃ r, YieldsIn "ja".toList (fullEnv demoEnv) {} { languages := ["ja".toList] } "2015-3-25".toList .day 2015 3 25 0 0 0 0 r := by
  have h : getLocaleData "ja".toList = some ⟨"ja".toList, "YMD".toList, true, 4⟩ := by decide +kernel
  exact C52_numeric_date (l := ⟨"ja".toList, "YMD".toList, true, 4⟩) full_ok (full_hasData _)
    ⟨⟨by decide +kernel, Or.inr ⟨rfl, rfl⟩, rfl, rfl, rfl, Or.inl rfl⟩, h, fun _ => by decide +kernel⟩ .ymd .ymd (by decide) (Order.agrees_self _)
    "25".toList "3".toList "2015".toList ⟨by unfold IsNumeral; decide, by decide⟩ ⟨by unfold IsNumeral; decide, by decide⟩ ⟨by unfold IsNumeral; decide, by decide⟩
    '-' (Or.inr (Or.inr ⟨rfl, by decide⟩)) (by decide) (by decide)
    ⟨rfl, fun t => by show (-86400 : Int) ≤ 0 ∧ (0 : Int) ≤ 86400; decide, fun l h => by cases h⟩

end Verif.Props
