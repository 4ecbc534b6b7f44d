import Verif.Lemmas.EnNumeric
import Verif.Lemmas.EnMonthDayFirst
import Verif.Lemmas.EnMonthComma
import Verif.Lemmas.EnMonthPlain
import Verif.Props.DateTime
import Verif.Lemmas.OrderOnly
import Verif.Spec.Demo
/-! # C44: English dates, from the call of `Parse` to its result -/
set_option autoImplicit false
namespace Verif.Props
open Verif.Go Verif.Model Verif.Data Verif.Lemmas Verif.Spec

theorem write_sep (w : Order) (d m y : List Char) (sep : Char) :
    w.write d m y [sep] [sep] = (w.pick d m y).1 ++ sep :: ((w.pick d m y).2.1 ++ sep :: (w.pick d m y).2.2) := by
  cases w <;> simp [Order.write, Order.pick]

theorem year_place (w : Order) : w.yearPlace = 0 ∨ w.yearPlace = 1 ∨ w.yearPlace = 2 := by cases w <;> decide

theorem numeral_ascii {s : List Char} (h : IsNumeral s) : ∀ c ∈ s, c.toNat < 128 := by
  intro c hc
  have := digit_range (h.2 c hc)
  omega

theorem lower_digit {c : Char} (h : c.isDigit = true) : toLowerC c = c := by
  have := digit_range h
  unfold toLowerC
  rw [if_neg]
  rintro ⟨h1, _⟩
  have : (65 : Nat) ≤ c.toNat := h1
  omega

theorem lower_numeral {s : List Char} (h : IsNumeral s) : toLower s = s := by
  unfold toLower
  rw [List.map_congr_left (fun c hc => lower_digit (h.2 c hc)), List.map_id']

theorem lower_append (a b : List Char) : toLower (a ++ b) = toLower a ++ toLower b := by simp [toLower]
theorem lower_cons (c : Char) (b : List Char) : toLower (c :: b) = toLowerC c :: toLower b := rfl

theorem short_len {s : List Char} (h : Short s) : s.length = 1 ∨ s.length = 2 := by
  have h1 := h.2
  have : s.length ≠ 0 := fun e => h.1.1 (List.length_eq_zero_iff.mp e)
  omega

theorem nowOf_base {E : Env} (hE : Sound E) (c : PCfg) :
    (if (enCfg c E.now).currentTime.isZero then E.now else (enCfg c E.now).currentTime) = baseTime c E.now := by
  rw [enCfg_now, base_notZero hE.toSurroundings]; rfl

theorem callBase_in {E : Env} (hE : Surroundings E) (l : LocaleInfo) (c : PCfg) :
    (if (cfgIn l c E.now).currentTime.isZero then E.now else (cfgIn l c E.now).currentTime) = baseTime c E.now := by
  rw [cfgIn_now, base_notZero hE]; rfl

/-- A numeric date is ASCII, in lower case. -/
theorem numeric_plain (w : Order) {d m y : List Char} (hd : Short d) (hm : Short m) (hy : Four y) {sep : Char} (hsep : NumericSep w sep) :
    (∀ x ∈ w.write d m y [sep] [sep], x.toNat < 128) ∧ toLower (w.write d m y [sep] [sep]) = w.write d m y [sep] [sep] := by
  have hnum : IsNumeral (w.pick d m y).1 ∧ IsNumeral (w.pick d m y).2.1 ∧ IsNumeral (w.pick d m y).2.2 := by
    cases w <;> simp [Order.pick, hd.1, hm.1, hy.1]
  have hsepd : sep.isDigit = false ∧ toLowerC sep = sep ∧ sep.toNat < 128 := by
    rcases hsep with rfl | rfl | ⟨rfl, _⟩ <;> decide
  constructor
  · rw [write_sep]
    intro x hx
    simp only [List.mem_append, List.mem_cons] at hx
    rcases hx with hx | rfl | hx | rfl | hx
    · exact numeral_ascii hnum.1 x hx
    · exact hsepd.2.2
    · exact numeral_ascii hnum.2.1 x hx
    · exact hsepd.2.2
    · exact numeral_ascii hnum.2.2 x hx
  · rw [write_sep]
    simp only [lower_append, lower_cons, lower_numeral hnum.1, lower_numeral hnum.2.1, lower_numeral hnum.2.2, hsepd.2.1]

/-- A numeric date passes, with data that let all shapes pass. -/
theorem numeric_passed {E : Env} (hE : Surroundings E) {d' : LangData} (hu : LangData.uniform d' = true) (hda : LangData.ascii d' = true)
    (w : Order) {d m y : List Char} (hd : Short d) (hm : Short m) (hy : Four y) {sep : Char} (hsep : NumericSep w sep)
    (hpass : shapesPassIn d' w.yearPlace sep = true) :
    Passed E.uni E.table (d'.lang E.uni) [['t']] (w.write d m y [sep] [sep]) (w.write d m y [sep] [sep]) ∧ noAmount (w.write d m y [sep] [sep]) = true := by
  have hnum : IsNumeral (w.pick d m y).1 ∧ IsNumeral (w.pick d m y).2.1 ∧ IsNumeral (w.pick d m y).2.2 := by
    cases w <;> simp [Order.pick, hd.1, hm.1, hy.1]
  have hsepd : sep.isDigit = false := by
    rcases hsep with rfl | rfl | ⟨rfl, _⟩ <;> decide
  have hshape : ((w.pick d m y).1.length, (w.pick d m y).2.1.length, (w.pick d m y).2.2.length) ∈ shapes w.yearPlace := by
    have h4 := hy.2
    rcases short_len hd with h1 | h1 <;> rcases short_len hm with h2 | h2 <;> cases w <;> simp [Order.pick, h1, h2, h4, Order.yearPlace, shapes]
  have hone := List.all_eq_true.mp hpass _ hshape
  simp only at hone
  have htext := tmpl3_sub hshape hsepd
  rw [← write_sep] at htext
  obtain ⟨hasc, hlow⟩ := numeric_plain w hd hm hy hsep
  have hds : ∀ x ∈ '0' :: ((w.pick d m y).1 ++ (w.pick d m y).2.1 ++ (w.pick d m y).2.2), x.isDigit = true := by
    intro x hx
    simp only [List.mem_cons, List.mem_append] at hx
    rcases hx with rfl | (hx | hx) | hx
    · decide
    · exact hnum.1.2 x hx
    · exact hnum.2.1.2 x hx
    · exact hnum.2.2.2 x hx
  have := date_sub_in hE hu hda hds hone hasc (by rw [htext]; exact hlow)
  rwa [htext] at this

/-- Numeric dates in a language in which they pass. -/
theorem numeric_yields {E : Env} (hE : Surroundings E) {l : LocaleInfo} {s : ParserSt} {c : PCfg} (hc : Picks E s c l) (o w : Order)
    (ho : orderLetters (orderIn l.name l.dateOrder c) = o.letters) (hw : o.Agrees w) (d m y : List Char) (hd : Short d) (hm : Short m) (hy : Four y)
    (sep : Char) (hsep : NumericSep w sep)
    (hp : Passed E.uni E.table (E.lang l.name) [['t']] (w.write d m y [sep] [sep]) (w.write d m y [sep] [sep]))
    (hn : noAmount (w.write d m y [sep] [sep]) = true) (hdate : IsDate (number y) (number m) (number d)) (hy2 : 2 ≤ number y)
    (hz : ZonesOk c E.now (wallOf (number y) (number m) (number d) 0 0 0 0)) :
    ∃ r, YieldsIn l.name E s c (w.write d m y [sep] [sep]) .day (number y) (number m) (number d) 0 0 0 0 r := by
  have hne : w.write d m y [sep] [sep] ≠ [] := by
    rw [write_sep]; simp
  have hsp : SepPair [sep] [sep] := by
    rcases hsep with rfl | rfl | ⟨rfl, _⟩ <;> (unfold SepPair IsSeparator; decide)
  have habs := C03_numeric_date_order { cfgIn l c E.now with dateOrder := o.letters } E.now E.monthFirst none o w (letters_lower o) hw d m y [sep] [sep] hd hm hy hsp hdate hy2
  rw [absolute_letters _ o (by rw [cfgIn_order]; exact ho)] at habs
  rw [show ({ cfgIn l c E.now with dateOrder := o.letters } : Cfg).currentTime = (cfgIn l c E.now).currentTime from rfl, callBase_in hE] at habs
  exact locale_yields hE hc hp hn hne (by decide) hdate clock0 hy2 habs hz

/-- Numeric dates in a language whose data let them pass. -/
theorem numeric_date_in {E : Env} (hE : Surroundings E) {l : LocaleInfo} {d' : LangData} 
    (hlang : ∀ s t, Passed E.uni E.table (d'.lang E.uni) [['t']] s t → Passed E.uni E.table (E.lang l.name) [['t']] s t)
    (hu : LangData.uniform d' = true) (hda : LangData.ascii d' = true)
    {s : ParserSt} {c : PCfg} (hc : Picks E s c l) (o w : Order)
    (ho : toLower (orderIn l.name l.dateOrder c) = o.letters) (hw : o.Agrees w) (d m y : List Char) (hd : Short d) (hm : Short m) (hy : Four y)
    (sep : Char) (hsep : NumericSep w sep) (hpass : shapesPassIn d' w.yearPlace sep = true)
    (hdate : IsDate (number y) (number m) (number d)) (hy2 : 2 ≤ number y)
    (hz : ZonesOk c E.now (wallOf (number y) (number m) (number d) 0 0 0 0)) :
    ∃ r, YieldsIn l.name E s c (w.write d m y [sep] [sep]) .day (number y) (number m) (number d) 0 0 0 0 r := by
  obtain ⟨hp, hn⟩ := numeric_passed hE hu hda w hd hm hy hsep hpass
  exact numeric_yields hE hc o w (letters_self ho) hw d m y hd hm hy sep hsep (hlang _ _ hp) hn hdate hy2 hz

/-- **C44** `Parse` with the default configuration, or any other in which English comes first, on a complete numeric date that
agrees with the date order, gives exactly that day at midnight, in English, with Period Day. -/
theorem C44_numeric_date {E : Env} (hE : Sound E) {s : ParserSt} {c : PCfg} (hc : EnglishFirst s c) (o w : Order)
    (ho : toLower (englishOrder c) = o.letters) (hw : o.Agrees w) (d m y : List Char) (hd : Short d) (hm : Short m) (hy : Four y)
    (sep : Char) (hsep : NumericSep w sep) (hdate : IsDate (number y) (number m) (number d)) (hy2 : 2 ≤ number y)
    (hz : ZonesOk c E.now (wallOf (number y) (number m) (number d) 0 0 0 0)) :
    ∃ r, Yields E s c (w.write d m y [sep] [sep]) .day (number y) (number m) (number d) 0 0 0 0 r := by
  have hpass : shapesPass w.yearPlace sep = true := by
    rcases hsep with rfl | rfl | ⟨rfl, h0⟩
    · rcases year_place w with h | h | h <;> rw [h]
      · exact pass_0_slash
      · exact pass_1_slash
      · exact pass_2_slash
    · rcases year_place w with h | h | h <;> rw [h]
      · exact pass_0_dot
      · exact pass_1_dot
      · exact pass_2_dot
    · rw [h0]; exact pass_0_dash
  exact numeric_date_in hE.toSurroundings (l := enInfo) (fun _ _ h => en_passed hE h) en_uniform en_ascii hc.picks o w ho hw d m y hd hm hy sep hsep hpass hdate hy2 hz

theorem map_sub_word {ds w : List Char} (h : (w.all fun c => !c.isDigit) = true) : w.map (sub ds) = w := by
  have : ∀ c ∈ w, sub ds c = c := fun c hc => sub_other (by simpa using List.all_eq_true.mp h c hc)
  rw [List.map_congr_left this, List.map_id']

theorem month_names_plain : (monthNames.all fun x => x.1.all fun c => !c.isDigit) = true := by decide +kernel
theorem full_names : (monthNames.all fun x => (fullName x.2).all (fun c => !c.isDigit) && decide ((toLower (fullName x.2), x.2) ∈ monthNames)) = true := by
  decide +kernel

/-- The digits standing in a text for those of the day and year. -/
theorem month_sub {d y : List Char} (hd : Short d) (hy : Four y) : ∃ (a ds : List Char), (a = "1".toList ∨ a = "12".toList) ∧
    (∀ c ∈ ds, c.isDigit = true) ∧ a.map (sub ds) = d ∧ "3456".toList.map (sub ds) = y := by
  obtain ⟨y1, y2, y3, y4, rfl⟩ := len4 hy.2
  have hyd := hy.1.2
  rcases short_len hd with h | h
  · obtain ⟨d1, rfl⟩ := len1 h
    have hdd := hd.1.2
    refine ⟨"1".toList, ['0', d1, '0', y1, y2, y3, y4], Or.inl rfl, ?_, rfl, rfl⟩
    intro c hc
    simp only [List.mem_cons, List.not_mem_nil, or_false] at hc hyd hdd
    rcases hc with rfl | rfl | rfl | h
    · decide
    · exact hdd _ rfl
    · decide
    · exact hyd c h
  · obtain ⟨d1, d2, rfl⟩ := len2 h
    have hdd := hd.1.2
    refine ⟨"12".toList, ['0', d1, d2, y1, y2, y3, y4], Or.inr rfl, ?_, rfl, rfl⟩
    intro c hc
    simp only [List.mem_cons, List.not_mem_nil, or_false] at hc hyd hdd
    rcases hc with rfl | rfl | rfl | h
    · decide
    · exact hdd _ (Or.inl rfl)
    · exact hdd _ (Or.inr rfl)
    · exact hyd c h

theorem months_pass (f : MonthForm) {a : List Char} (h : a = "1".toList ∨ a = "12".toList) : monthsPass f a = true := by
  rcases h with rfl | rfl <;> cases f
  · exact months_dayFirst_1
  · exact months_comma_1
  · exact months_plain_1
  · exact months_dayFirst_2
  · exact months_comma_2
  · exact months_plain_2

theorem write_map (f : MonthForm) (g : Char → Char) (hg : g ' ' = ' ' ∧ g ',' = ',') (d mon y : List Char) :
    (f.write d mon y).map g = f.write (d.map g) (mon.map g) (y.map g) := by
  cases f <;> simp [MonthForm.write, hg.1, hg.2]
theorem writeOut_map (f : MonthForm) (g : Char → Char) (hg : g ' ' = ' ' ∧ g ',' = ',') (d mon y : List Char) :
    (f.writeOut d mon y).map g = f.writeOut (d.map g) (mon.map g) (y.map g) := by
  cases f <;> simp [MonthForm.writeOut, hg.1]

theorem lower_write (f : MonthForm) (d mon y : List Char) : toLower (f.write d mon y) = f.write (toLower d) (toLower mon) (toLower y) :=
  write_map f toLowerC (by decide) d mon y

/-- A text with a lower case form in ASCII is in ASCII, up to the Kelvin sign and such, which `toLowerC` leaves alone. -/
theorem lowerC_inv {c : Char} (h : (toLowerC c).toNat < 128) : c.toNat < 128 := by
  unfold toLowerC at h
  split at h
  · next h' =>
    have : c.toNat ≤ 90 := h'.2
    omega
  · exact h

theorem lower_inv {s : List Char} (h : ∀ c ∈ toLower s, c.toNat < 128) : ∀ c ∈ s, c.toNat < 128 :=
  fun c hc => lowerC_inv (h _ (List.mem_map.mpr ⟨c, hc, rfl⟩))

theorem month_ascii : (monthNames.all fun x => isAscii x.1) = true := by decide +kernel

theorem isSep_space : IsSeparator [' '] := by unfold IsSeparator; decide

/-- **C44** `Parse` with English first, on a date with a month name (full or abbreviated, in any letter case) as written in
English, gives exactly that day at midnight, in English, with Period Day, whatever the date order. -/
theorem C44_month_name {E : Env} (hE : Sound E) {s : ParserSt} {c : PCfg} (hc : EnglishFirst s c) (f : MonthForm)
    (d mon y : List Char) (n : Int) (hd : Short d) (hmon : IsMonthName mon n) (hy : Four y) (hdate : IsDate (number y) n (number d)) (hy2 : 2 ≤ number y)
    (hz : ZonesOk c E.now (wallOf (number y) n (number d) 0 0 0 0)) :
    ∃ r, Yields E s c (f.write d mon y) .day (number y) n (number d) 0 0 0 0 r := by
  obtain ⟨o, ho⟩ := englishOrder_some c
  obtain ⟨a, ds, ha, hds, hda, hya⟩ := month_sub hd hy
  have hone := List.all_eq_true.mp (months_pass f ha) _ hmon
  have hplain := List.all_eq_true.mp month_names_plain _ hmon
  have hfull := List.all_eq_true.mp full_names _ hmon
  have hasc := List.all_eq_true.mp month_ascii _ hmon
  simp only [Bool.and_eq_true, decide_eq_true_eq] at hone hplain hfull hasc
  have hsub : sub ds ' ' = ' ' ∧ sub ds ',' = ',' := ⟨sub_other (by decide), sub_other (by decide)⟩
  have hlow : toLower (f.write d mon y) = (f.write a (toLower mon) "3456".toList).map (sub ds) := by
    rw [lower_write, write_map f _ hsub, hda, hya, map_sub_word hplain, lower_numeral hd.1, lower_numeral hy.1]
  have hout : (f.writeOut a (fullName n) "3456".toList).map (sub ds) = f.writeOut d (fullName n) y := by
    rw [writeOut_map f _ hsub, hda, hya, map_sub_word hfull.1]
  have hascii : ∀ x ∈ f.write d mon y, x.toNat < 128 := by
    apply lower_inv
    rw [lower_write]
    intro x hx
    have h1 : ∀ x ∈ toLower d, x.toNat < 128 := by rw [lower_numeral hd.1]; exact numeral_ascii hd.1
    have h2 : ∀ x ∈ toLower y, x.toNat < 128 := by rw [lower_numeral hy.1]; exact numeral_ascii hy.1
    have h3 : ∀ x ∈ toLower mon, x.toNat < 128 := isAscii_mem hasc
    cases f <;> simp only [MonthForm.write, List.mem_append, List.mem_cons] at hx
    · rcases hx with hx | rfl | hx | rfl | hx
      · exact h1 x hx
      · decide
      · exact h3 x hx
      · decide
      · exact h2 x hx
    · rcases hx with hx | rfl | hx | rfl | rfl | hx
      · exact h3 x hx
      · decide
      · exact h1 x hx
      · decide
      · decide
      · exact h2 x hx
    · rcases hx with hx | rfl | hx | rfl | hx
      · exact h3 x hx
      · decide
      · exact h1 x hx
      · decide
      · exact h2 x hx
  obtain ⟨hp, hn⟩ := date_sub hE hds hone hascii hlow
  rw [hout] at hp hn
  have hw : ∃ w : Order, f.writeOut d (fullName n) y = w.write d (fullName n) y [' '] [' '] := by
    cases f
    · exact ⟨.dmy, by simp [MonthForm.writeOut, Order.write]⟩
    · exact ⟨.mdy, by simp [MonthForm.writeOut, Order.write]⟩
    · exact ⟨.mdy, by simp [MonthForm.writeOut, Order.write]⟩
  obtain ⟨w, hw⟩ := hw
  have hne : f.writeOut d (fullName n) y ≠ [] := by cases f <;> simp [MonthForm.writeOut]
  have habs := C04_month_name (enCfg c E.now) E.now E.monthFirst none o w (by rw [enCfg_order]; exact ho) d (fullName n) y [' '] [' '] n hd hfull.2 hy
    isSep_space isSep_space hdate hy2
  rw [nowOf_base hE, ← hw] at habs
  exact call_yields hE hc hp hn hne (by decide) hdate clock0 hy2 habs hz

/-! ## Examples -/

example : ∃ r, Yields demoEnv {} {} "03/05/2015".toList .day 2015 3 5 0 0 0 0 r :=
  C44_numeric_date demo_sound demo_first .mdy .mdy rfl (Order.agrees_self _) "05".toList "03".toList "2015".toList
    ⟨by unfold IsNumeral; decide, by decide⟩ ⟨by unfold IsNumeral; decide, by decide⟩ ⟨by unfold IsNumeral; decide, by decide⟩
    '/' (Or.inl rfl) (by decide) (by decide) (demo_zones _)

example : ∃ r, Yields demoEnv {} {} "5 March 2015".toList .day 2015 3 5 0 0 0 0 r :=
  C44_month_name demo_sound demo_first .dayFirst "5".toList "March".toList "2015".toList 3
    ⟨by unfold IsNumeral; decide, by decide⟩ (by unfold IsMonthName; decide) ⟨by unfold IsNumeral; decide, by decide⟩
    (by decide) (by decide) (demo_zones _)

end Verif.Props
