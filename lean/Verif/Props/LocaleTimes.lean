import Verif.Lemmas.NumericTimesSlash0
import Verif.Lemmas.NumericTimesSlash1
import Verif.Lemmas.NumericTimesSlash2
import Verif.Lemmas.NumericTimesDot0
import Verif.Lemmas.NumericTimesDot1
import Verif.Lemmas.NumericTimesDot2
import Verif.Lemmas.NumericTimesDash0
import Verif.Props.Locales
import Verif.Props.DateTime
/-! # C52: dates with a time of day in any of the supported locales, from the call of `Parse` to its result -/
set_option autoImplicit false
namespace Verif.Props
open Verif.Go Verif.Model Verif.Data Verif.Lemmas Verif.Spec

/-- The digits of the time of day, in the text that stands for those of its shape. -/
theorem hours_sub {n : Notation} (hn : Hours n) : ∃ (two sec : Bool) (es : List Char), (∀ c ∈ es, c.isDigit = true) ∧ (clockShape two sec).map (sub es) = n.text := by
  cases hn with
  | hm h m hh hm lm =>
    obtain ⟨m1, m2, rfl⟩ := len2 lm
    rcases short_len hh with e | e
    · obtain ⟨h1, rfl⟩ := len1 e
      refine ⟨false, false, '0' :: ([h1] ++ [m1, m2]), ?_, rfl⟩
      intro c hc
      rcases List.mem_cons.mp hc with rfl | hc
      · decide
      · exact digits_of hh.1.2 _ hm.2 c hc
    · obtain ⟨h1, h2, rfl⟩ := len2 e
      refine ⟨true, false, '0' :: ([h1, h2] ++ [m1, m2]), ?_, rfl⟩
      intro c hc
      rcases List.mem_cons.mp hc with rfl | hc
      · decide
      · exact digits_of hh.1.2 _ hm.2 c hc
  | hms h m s hh hm lm hs ls =>
    obtain ⟨m1, m2, rfl⟩ := len2 lm
    obtain ⟨s1, s2, rfl⟩ := len2 ls
    rcases short_len hh with e | e
    · obtain ⟨h1, rfl⟩ := len1 e
      refine ⟨false, true, '0' :: ([h1] ++ ([m1, m2] ++ [s1, s2])), ?_, rfl⟩
      intro c hc
      rcases List.mem_cons.mp hc with rfl | hc
      · decide
      · exact digits_of hh.1.2 _ (digits_of hm.2 _ hs.2) c hc
    · obtain ⟨h1, h2, rfl⟩ := len2 e
      refine ⟨true, true, '0' :: ([h1, h2] ++ ([m1, m2] ++ [s1, s2])), ?_, rfl⟩
      intro c hc
      rcases List.mem_cons.mp hc with rfl | hc
      · decide
      · exact digits_of hh.1.2 _ (digits_of hm.2 _ hs.2) c hc

theorem clockShape_noZero (two sec : Bool) : noZero (clockShape two sec) = true := by cases two <;> cases sec <;> decide +kernel

theorem over_shape (two sec : Bool) : over dateAlphabet (clockShape two sec) = true := by cases two <;> cases sec <;> decide +kernel

theorem hours_written {n : Notation} (hn : Hours n) (mr : Meridian) : n.Written mr := by
  cases hn with
  | hm h m hh hm lm => exact ⟨hh, hm, by omega⟩
  | hms h m s hh hm lm hs ls => exact ⟨hh, ⟨hm, by omega⟩, hs, by omega⟩

/-- Numeric dates with a time of day pass in every locale. -/
theorem times_everywhere {E : Env} (hE : Surroundings E) (hD : HasLocaleData E) {n : Name} {l : LocaleInfo} (hl : getLocaleData n = some l)
    (w : Order) {d m y : List Char} (hd : Short d) (hm : Short m) (hy : Four y) {sep : Char} (hsep : NumericSep w sep) {t : Notation} (ht : Hours t) :
    Passed E.uni E.table (E.lang l.name) [['t']] (w.write d m y [sep] [sep] ++ [' '] ++ t.text) (w.write d m y [sep] [sep] ++ [' '] ++ t.text) ∧
      noAmount (w.write d m y [sep] [sep] ++ [' '] ++ t.text) = true := by
  have hpass : ∀ two sec, numericTimesPass w.yearPlace sep two sec = true := by
    intro two sec
    rcases hsep with rfl | rfl | ⟨rfl, h0⟩
    · rcases year_place w with h | h | h <;> rw [h]
      · exact times_slash0 two sec
      · exact times_slash1 two sec
      · exact times_slash2 two sec
    · rcases year_place w with h | h | h <;> rw [h]
      · exact times_dot0 two sec
      · exact times_dot1 two sec
      · exact times_dot2 two sec
    · rw [h0]; exact times_dash0 two sec
  obtain ⟨two, sec, es, hes, htext⟩ := hours_sub ht
  have hnum : IsNumeral (w.pick d m y).1 ∧ IsNumeral (w.pick d m y).2.1 ∧ IsNumeral (w.pick d m y).2.2 := by
    cases w <;> simp [Order.pick, hd.1, hm.1, hy.1]
  have hsepd : sep.isDigit = false := by
    rcases hsep with rfl | rfl | ⟨rfl, _⟩ <;> decide
  have hshape : ((w.pick d m y).1.length, (w.pick d m y).2.1.length, (w.pick d m y).2.2.length) ∈ shapes w.yearPlace := by
    have h4 := hy.2
    rcases short_len hd with h1 | h1 <;> rcases short_len hm with h2 | h2 <;> cases w <;> simp [Order.pick, h1, h2, h4, Order.yearPlace, shapes]
  have hdate := tmpl3_sub hshape hsepd
  rw [← write_sep] at hdate
  obtain ⟨hasc, hlow⟩ := numeric_plain w hd hm hy hsep
  have hds : ∀ x ∈ '0' :: ((w.pick d m y).1 ++ (w.pick d m y).2.1 ++ (w.pick d m y).2.2), x.isDigit = true := by
    intro x hx
    simp only [List.mem_cons, List.mem_append] at hx
    rcases hx with rfl | (hx | hx) | hx
    · decide
    · exact hnum.1.2 x hx
    · exact hnum.2.1.2 x hx
    · exact hnum.2.2.2 x hx
  generalize '0' :: ((w.pick d m y).1 ++ (w.pick d m y).2.1 ++ (w.pick d m y).2.2) = ds at hdate hds
  have hone := List.all_eq_true.mp (hpass two sec) _ hshape
  simp only [Bool.and_eq_true] at hone
  obtain ⟨⟨⟨hplain, hnz⟩, hr1⟩, hr2⟩ := hone
  generalize hx : ((w.pick d m y).1.length, (w.pick d m y).2.1.length, (w.pick d m y).2.2.length) = x at hplain hnz hr1 hr2
  have hnz : noZero (tmpl3 x.1 x.2.1 x.2.2 sep) = true := by rw [← hx]; exact hnz
  have hdate : (tmpl3 x.1 x.2.1 x.2.2 sep).map (sub ds) = w.write d m y [sep] [sep] := by rw [← hx]; exact hdate
  have hcov : covers (dateTmpl x sep (clockShape two sec)) (timeTmpl x sep (clockShape two sec)) = true :=
    covers_append (covers_left hnz) (by
      show covers (' ' :: _) (' ' :: _) = true
      unfold covers
      rw [covers_right (clockShape_noZero two sec)]
      decide)
  have hzip : List.zipWith (sub2 ds es) (dateTmpl x sep (clockShape two sec)) (timeTmpl x sep (clockShape two sec)) = w.write d m y [sep] [sep] ++ [' '] ++ t.text := by
    unfold dateTmpl timeTmpl
    rw [List.zipWith_append (by simp [zeros]), zip_left ds es hnz, List.zipWith_cons_cons, zip_right, hdate, htext]
    simp [sub2, sub]
  have htlow : toLower t.text = t.text ∧ (∀ c ∈ t.text, c.toNat < 128) ∧ over dateAlphabet t.text = true := by
    rw [← htext]
    have hin : ∀ c ∈ (clockShape two sec).map (sub es), c.isDigit = true ∨ c = ':' := by
      intro c hc
      obtain ⟨b, hb, rfl⟩ := List.mem_map.mp hc
      have : ∀ b ∈ clockShape two sec, b.isDigit = true ∨ b = ':' := by cases two <;> cases sec <;> decide +kernel
      rcases this b hb with h | rfl
      · exact Or.inl (sub_digit hes h)
      · exact Or.inr rfl
    refine ⟨?_, ?_, sub_over (by decide +kernel) hes (over_shape two sec)⟩
    · unfold toLower
      rw [List.map_congr_left (g := id), List.map_id]
      intro c hc
      rcases hin c hc with h | rfl
      · exact lower_digit h
      · decide
    · intro c hc
      rcases hin c hc with h | rfl
      · have := digit_range h; omega
      · decide
  have hdover : over dateAlphabet (w.write d m y [sep] [sep]) = true := by
    rw [← hdate]
    refine sub_over (by decide +kernel) hds ?_
    have h0 : ∀ c ∈ "12345678".toList, inK dateAlphabet c = true := by decide +kernel
    have hs : inK dateAlphabet sep = true := by rcases hsep with rfl | rfl | ⟨rfl, _⟩ <;> decide +kernel
    refine over_of fun c hc => ?_
    simp only [tmpl3, List.mem_append, List.mem_cons] at hc
    rcases hc with hc | rfl | hc | rfl | hc
    · exact h0 c (List.mem_of_mem_take hc)
    · exact hs
    · exact h0 c (List.mem_of_mem_drop (List.mem_of_mem_take hc))
    · exact hs
    · exact h0 c (List.mem_of_mem_drop (List.mem_of_mem_take hc))
  simp only [plainText, Bool.and_eq_true, Bool.not_eq_true'] at hplain
  obtain ⟨⟨⟨⟨⟨⟨p1, p2⟩, p3⟩, p4⟩, p5⟩, p6⟩, p7⟩ := hplain
  have hlower : toLower (w.write d m y [sep] [sep] ++ [' '] ++ t.text) = w.write d m y [sep] [sep] ++ [' '] ++ t.text := by
    rw [lower_append, lower_append, hlow, htlow.1]; rfl
  have := everywhere_date2 hE hD numeric_reduces numeric_sep numeric_closed numeric_uniform numeric_ascii hl hds hes
    p1 hr1 hr2 hcov hcov p2 (by unfold mayHaveZone; rw [nameIn_noLetters p3, p4, p5, p6]; rfl) p7
    (s := w.write d m y [sep] [sep] ++ [' '] ++ t.text)
    (by
      intro c hc
      simp only [List.mem_append, List.mem_singleton] at hc
      rcases hc with (hc | rfl) | hc
      · exact hasc c hc
      · decide
      · exact htlow.2.1 c hc)
    (by rw [hlower, hzip])
    (by
      rw [hlower, over_append, over_append]
      exact ⟨⟨hdover, by decide +kernel⟩, htlow.2.2⟩)
  rwa [hzip] at this

theorem callNow_in {E : Env} (hE : Surroundings E) (l : LocaleInfo) (c : PCfg) : nowOf (cfgIn l c E.now) E.now = baseTime c E.now := by
  unfold nowOf
  exact callBase_in hE l c

theorem date_time_yields {E : Env} (hE : Surroundings E) (hD : HasLocaleData E) {l : LocaleInfo} (hl : getLocaleData l.name = some l)
    {s : ParserSt} {c : PCfg} (hc : Picks E s c l) (o w : Order)
    (ho : orderLetters (orderIn l.name l.dateOrder c) = o.letters) (hw : o.Agrees w) (d m y : List Char) (hd : Short d) (hm : Short m) (hy : Four y)
    (sep : Char) (hsep : NumericSep w sep) (hdate : IsDate (number y) (number m) (number d)) (hy2 : 2 ≤ number y)
    (t : Notation) (ht : Hours t) (k : Clock) (hk : t.meaning .am = some k)
    (hz : ZonesOk c E.now (wallOf (number y) (number m) (number d) k.hour k.minute k.second k.nano)) :
    ∃ r, YieldsIn l.name E s c (w.write d m y [sep] [sep] ++ [' '] ++ t.text) (if c.timeAsPeriod then k.period else .day)
      (number y) (number m) (number d) k.hour k.minute k.second k.nano r := by
  obtain ⟨hp, hn⟩ := times_everywhere hE hD hl w hd hm hy hsep ht
  have hsp : SepPair [sep] [sep] := by
    rcases hsep with rfl | rfl | ⟨rfl, _⟩ <;> (unfold SepPair IsSeparator; decide)
  have hcut : cut6 t = t := by cases ht <;> rfl
  have habs := C38_numeric_date_time_order { cfgIn l c E.now with dateOrder := o.letters } E.now E.monthFirst none o w (letters_lower o) hw d m y [sep] [sep] [' ']
    hd hm hy hsp isSep_space (by decide) hdate hy2 t .am k (hours_written ht .am) (by rw [hcut]; exact hk)
  rw [absolute_letters _ o (by rw [cfgIn_order]; exact ho)] at habs
  rw [show nowOf ({ cfgIn l c E.now with dateOrder := o.letters } : Cfg) E.now = nowOf (cfgIn l c E.now) E.now from rfl] at habs
  have hcl : IsClock k.hour k.minute k.second k.nano ∧ k.period ≠ .none := by
    cases ht with
    | hm h m hh hm' _ =>
      simp only [Notation.meaning] at hk
      split at hk
      · cases hk
        have h1 := number_nonneg hh.1; have h2 := number_nonneg hm'
        refine ⟨?_, by simp⟩
        unfold IsClock
        dsimp only
        omega
      · cases hk
    | hms h m s hh hm' _ hs' _ =>
      simp only [Notation.meaning] at hk
      split at hk
      · cases hk
        have h1 := number_nonneg hh.1; have h2 := number_nonneg hm'; have h3 := number_nonneg hs'
        refine ⟨?_, by simp⟩
        unfold IsClock
        dsimp only
        omega
      · cases hk
  refine locale_yields hE hc hp hn (by simp) ?_ hdate hcl.1 hy2 ?_ hz
  · split
    · exact hcl.2
    · decide
  · rw [habs, callNow_in hE]
    rfl

/-- **C52** `Parse` asked for any one of the 504 supported locales, by its name or by that of its language, on a complete numeric date that
agrees with the locale's (or the configured) date order, followed by a time of day, gives exactly that day at that time, with that locale; the
period is the day, or that of the time if the time may be the period. -/
theorem C52_date_time {E : Env} (hE : Surroundings E) (hD : HasLocaleData E) {l : LocaleInfo} {s : ParserSt} {c : PCfg} (hc : AsksOnly l s c) (o w : Order)
    (ho : orderLetters (orderIn l.name l.dateOrder c) = o.letters) (hw : o.Agrees w) (d m y : List Char) (hd : Short d) (hm : Short m) (hy : Four y)
    (sep : Char) (hsep : NumericSep w sep) (hdate : IsDate (number y) (number m) (number d)) (hy2 : 2 ≤ number y)
    (t : Notation) (ht : Hours t) (k : Clock) (hk : t.meaning .am = some k)
    (hz : ZonesOk c E.now (wallOf (number y) (number m) (number d) k.hour k.minute k.second k.nano)) :
    ∃ r, YieldsIn l.name E s c (w.write d m y [sep] [sep] ++ [' '] ++ t.text) (if c.timeAsPeriod then k.period else .day)
      (number y) (number m) (number d) k.hour k.minute k.second k.nano r :=
  date_time_yields hE hD hc.supported hc.picks o w ho hw d m y hd hm hy sep hsep hdate hy2 t ht k hk hz

/-- **C44** The same with the default configuration, or any other in which English comes first. -/
theorem C44_date_time {E : Env} (hE : Sound E) (hD : HasLocaleData E) {s : ParserSt} {c : PCfg} (hc : EnglishFirst s c) (o w : Order)
    (ho : toLower (englishOrder c) = o.letters) (hw : o.Agrees w) (d m y : List Char) (hd : Short d) (hm : Short m) (hy : Four y)
    (sep : Char) (hsep : NumericSep w sep) (hdate : IsDate (number y) (number m) (number d)) (hy2 : 2 ≤ number y)
    (t : Notation) (ht : Hours t) (k : Clock) (hk : t.meaning .am = some k)
    (hz : ZonesOk c E.now (wallOf (number y) (number m) (number d) k.hour k.minute k.second k.nano)) :
    ∃ r, Yields E s c (w.write d m y [sep] [sep] ++ [' '] ++ t.text) (if c.timeAsPeriod then k.period else .day)
      (number y) (number m) (number d) k.hour k.minute k.second k.nano r :=
  date_time_yields hE.toSurroundings hD (l := enInfo) (by decide +kernel) hc.picks o w (letters_self ho) hw d m y hd hm hy sep hsep hdate hy2 t ht k hk hz

/-- The English data used for English alone are those of the 504 locales. -/
theorem en_entry : (allLangs.any fun x => decide (x.1.name = ['e', 'n']) && decide (mergeLang x.2 x.1 = enData)) = true := by decide +kernel

theorem sound_of_data {E : Env} (hE : Surroundings E) (hD : HasLocaleData E) : Sound E := by
  obtain ⟨x, hx, h⟩ := List.any_eq_true.mp en_entry
  simp only [Bool.and_eq_true, decide_eq_true_eq] at h
  have := hD x hx
  rw [h.1, h.2] at this
  exact ⟨hE, this⟩

/-! ## Examples -/

/-- The default configuration: month first. -/
example : ∃ r, Yields (fullEnv demoEnv) {} {} "3/5/2015 21:15".toList .day 2015 3 5 21 15 0 0 r :=
  C44_date_time (sound_of_data full_ok (full_hasData _)) (full_hasData _) (c := {}) ⟨rfl, rfl, rfl, Or.inr ⟨rfl, rfl⟩, rfl, rfl, Or.inl rfl⟩ .mdy .mdy (by decide) (Order.agrees_self _)
    "5".toList "3".toList "2015".toList ⟨by unfold IsNumeral; decide, by decide⟩ ⟨by unfold IsNumeral; decide, by decide⟩ ⟨by unfold IsNumeral; decide, by decide⟩
    '/' (Or.inl rfl) (by decide) (by decide) (.hm "21".toList "15".toList) (.hm _ _ ⟨by decide, by decide⟩ (by decide) rfl)
    { hour := 21, minute := 15, period := .minute } (by decide) ⟨rfl, fun t => by show (-86400 : Int) ≤ 0 ∧ (0 : Int) ≤ 86400; decide, fun l h => by cases h⟩

example : ∃ r, YieldsIn "hu".toList (fullEnv demoEnv) {} (asked "hu") "2015.03.05 9:05".toList .day 2015 3 5 9 5 0 0 r := by
  have h : getLocaleData "hu".toList = some ⟨"hu".toList, "YMD.".toList, false, 1⟩ := by decide +kernel
  exact C52_date_time full_ok (full_hasData _) (asked_only h (by decide +kernel)) .ymd .ymd (by decide) (Order.agrees_self _)
    "05".toList "03".toList "2015".toList ⟨by unfold IsNumeral; decide, by decide⟩ ⟨by unfold IsNumeral; decide, by decide⟩ ⟨by unfold IsNumeral; decide, by decide⟩
    '.' (Or.inr (Or.inl rfl)) (by decide) (by decide) (.hm "9".toList "05".toList) (.hm _ _ ⟨by decide, by decide⟩ (by decide) rfl)
    { hour := 9, minute := 5, period := .minute } (by decide) (demo_zones _ _)

example : ∃ r, YieldsIn "bg".toList (fullEnv demoEnv) {} { asked "bg" with timeAsPeriod := true } "5/3/2015 23:59:59".toList .second 2015 3 5 23 59 59 0 r := by
  have h : getLocaleData "bg".toList = some ⟨"bg".toList, "DMY 'Г'.".toList, false, 1⟩ := by decide +kernel
  exact C52_date_time (c := { asked "bg" with timeAsPeriod := true }) (l := ⟨"bg".toList, "DMY 'Г'.".toList, false, 1⟩) full_ok (full_hasData _)
    ⟨⟨by decide +kernel, Or.inl ⟨rfl, rfl⟩, rfl, rfl, rfl, Or.inl rfl⟩, h, fun h' => by cases h'⟩ .dmy .dmy (by decide) (Order.agrees_self _)
    "5".toList "3".toList "2015".toList ⟨by unfold IsNumeral; decide, by decide⟩ ⟨by unfold IsNumeral; decide, by decide⟩ ⟨by unfold IsNumeral; decide, by decide⟩
    '/' (Or.inl rfl) (by decide) (by decide) (.hms "23".toList "59".toList "59".toList)
    (.hms _ _ _ ⟨by decide, by decide⟩ (by decide) rfl (by decide) rfl)
    { hour := 23, minute := 59, second := 59, period := .second } (by decide)
    ⟨rfl, fun t => by show (-86400 : Int) ≤ 0 ∧ (0 : Int) ≤ 86400; decide, fun l h => by cases h⟩

end Verif.Props
