import Verif.Lemmas.CalWhole
/-! # C35: Jalali and Hijri dates, from the call to its result -/
set_option autoImplicit false
namespace Verif.Props
open Verif.Go Verif.Model Verif.Data Verif.Lemmas Verif.Spec

section
variable {E : Env} (hE : PersianSurroundings E) {c : PCfg} (hc : c.validate = .ok ())

theorem jalali_create {lib : JalaliLib} {y m d : Int} {g : Int × Int × Int} (h : IsJalali lib y m d g) (cfg : Cfg) (H M S ns : Int) (l : Loc) :
    jalaliCreate lib cfg y m d H M S ns l = .ok (goDate g.1 g.2.1 g.2.2 H M S ns l) := by
  obtain ⟨n, hn, hle⟩ := h.length
  obtain ⟨b, hb, hlp⟩ := h.leap
  have hno : ¬ (d = 30 ∧ m = 12 ∧ !b) := by
    rintro ⟨h1, h2, h3⟩
    rw [hlp ⟨h2, h1⟩] at h3
    simp at h3
  unfold jalaliCreate
  simp only [hb]
  rw [if_neg (by simpa using hno)]
  simp only [bind, pure, Except.bind, Except.pure, hn]
  rw [if_neg (by omega), h.same]

include hE hc

/-- **C35** A numeric Jalali date that agrees with the date order, in ASCII, Persian or Arabic digits, gives the same day in the
Gregorian calendar, at midnight in the zone of the base time, with Period Day. -/
theorem C35_jalali_numeric (lib : JalaliLib) (o w : Order) (ho : toLower (calendarOrder c) = o.letters) (hw : o.Agrees w)
    (d m y : List Char) (hd : Short (d.map asciiDigit)) (hm : Short (m.map asciiDigit)) (hy : Four (y.map asciiDigit))
    (sep : Char) (hsep : NumericSep w sep) (v1 : 1 ≤ number (m.map asciiDigit)) (v2 : number (m.map asciiDigit) ≤ 12)
    (v3 : 1 ≤ number (d.map asciiDigit)) (v4 : number (d.map asciiDigit) ≤ 30) (hy1 : 1 ≤ number (y.map asciiDigit)) (g : Int × Int × Int)
    (hj : IsJalali lib (number (y.map asciiDigit)) (number (m.map asciiDigit)) (number (d.map asciiDigit)) g) :
    E.parseJalali lib (some c) (w.write d m y [sep] [sep]) =
      .ok { period := .day, time := goDate g.1 g.2.1 g.2.2 0 0 0 0 (baseTime c E.now).loc } := by
  obtain ⟨cfg, h1, h2, h3, h4, _⟩ := calendar_cfg hc E.now
  obtain ⟨⟨t1, _⟩, t2⟩ := cal_numeric_text hE hc w d m y hd hm hy sep hsep true
  unfold Env.parseJalali
  rw [h1]
  dsimp only
  unfold jalaliParse
  rw [t1, (cal_numeric_parse hE hc (jalaliFns E.uni lib) rfl cfg o w (by rw [h2]; exact ho) hw h3 _ _ _ hd hm hy sep hsep v1 v2 v3 hy1 t2).1 v4]
  show Except.map _ (jalaliCreate lib cfg _ _ _ 0 0 0 0 _) = _
  rw [jalali_create (by exact hj)]
  rfl

omit hE hc in
theorem leap_loop (lib : JalaliLib) (orig : Int) : ∀ (k : Nat) (y : Int) (n : Nat), k < n → (∀ z, y < z → z < y + (k + 1) → lib.isLeap z = some false) →
    lib.isLeap (y + (k + 1)) = some true → jalaliLeapLoop lib orig 1 n y = some (y + (k + 1))
  | 0, y, n + 1, _, _, h => by
    unfold jalaliLeapLoop
    have h : lib.isLeap (y + 1) = some true := by simpa using h
    simp [h]
  | k + 1, y, n + 1, hn, hf, h => by
    unfold jalaliLeapLoop
    rw [hf (y + 1) (by omega) (by omega)]
    dsimp only
    rw [leap_loop lib orig k (y + 1) n (by omega) (fun z h1 h2 => hf z (by omega) (by omega)) (by rw [show y + 1 + ((k : Int) + 1) = y + ((k + 1 : Nat) + 1) by omega]; exact h)]
    congr 1
    omega

/-- **C35** The 30th of the last month of a common year, if dates in the future are preferred, is that day of the next leap year. -/
theorem C35_jalali_next_leap_year (lib : JalaliLib) (o w : Order) (ho : toLower (calendarOrder c) = o.letters) (hw : o.Agrees w)
    (d m y : List Char) (hd : d.map asciiDigit = "30".toList) (hm : m.map asciiDigit = "12".toList) (hy : Four (y.map asciiDigit))
    (sep : Char) (hsep : NumericSep w sep) (hy1 : 1 ≤ number (y.map asciiDigit)) (hfut : c.dateSource = 2) (y' : Int)
    (h1 : number (y.map asciiDigit) < y') (h2 : y' ≤ number (y.map asciiDigit) + 10000)
    (h3 : ∀ z, number (y.map asciiDigit) ≤ z → z < y' → lib.isLeap z = some false) (h4 : lib.isLeap y' = some true) (n : Int)
    (h5 : lib.monthLength y' 12 = some n) (h6 : 30 ≤ n) (g : Int × Int × Int) (h7 : lib.toGregorian y' 12 30 = some g) :
    E.parseJalali lib (some c) (w.write d m y [sep] [sep]) =
      .ok { period := .day, time := goDate g.1 g.2.1 g.2.2 0 0 0 0 (baseTime c E.now).loc } := by
  obtain ⟨cfg, c1, c2, c3, c4, _⟩ := calendar_cfg hc E.now
  have hds : Short (d.map asciiDigit) := by rw [hd]; exact ⟨by unfold IsNumeral; decide, by decide⟩
  have hms : Short (m.map asciiDigit) := by rw [hm]; exact ⟨by unfold IsNumeral; decide, by decide⟩
  obtain ⟨⟨t1, _⟩, t2⟩ := cal_numeric_text hE hc w d m y hds hms hy sep hsep true
  have hv : natOfDigits (d.map asciiDigit) = 30 := by rw [hd]; decide
  have hvm : natOfDigits (m.map asciiDigit) = 12 := by rw [hm]; decide
  unfold Env.parseJalali
  rw [c1]
  dsimp only
  unfold jalaliParse
  rw [t1, (cal_numeric_parse hE hc (jalaliFns E.uni lib) rfl cfg o w (by rw [c2]; exact ho) hw c3 _ _ _ hds hms hy sep hsep (by omega) (by omega) (by omega) hy1 t2).1 (by omega)]
  rw [hv, hvm]
  show Except.map _ (jalaliCreate lib cfg (number (y.map asciiDigit)) 12 30 0 0 0 0 _) = _
  unfold jalaliCreate
  rw [h3 _ (Int.le_refl _) h1]
  dsimp only
  rw [if_pos ⟨rfl, rfl, rfl⟩]
  have hsrc : cfg.dateSource = .future := by rw [c4, hfut]; rfl
  have hl : jalaliLeapYear lib (number (y.map asciiDigit)) true = .ok y' := by
    obtain ⟨k, hk⟩ : ∃ k : Nat, y' = number (y.map asciiDigit) + (k + 1) := ⟨(y' - number (y.map asciiDigit) - 1).toNat, by omega⟩
    unfold jalaliLeapYear
    rw [if_pos rfl, leap_loop lib _ k _ 10000 (by omega) (fun z a b => h3 z (by omega) (by omega)) (by rw [← hk]; exact h4)]
    dsimp only
    rw [hk]
  unfold correctLeapYear
  rw [hsrc]
  dsimp only
  rw [hl]
  simp only [bind, Except.bind, h5]
  rw [if_neg (by omega), h7]
  rfl

/-- **C35** (finding) The 31st day of a Jalali month is refused, although the first six months have 31 days. -/
theorem C35_jalali_day31_refused (lib : JalaliLib) (o w : Order) (ho : toLower (calendarOrder c) = o.letters) (hw : o.Agrees w)
    (d m y : List Char) (hd : d.map asciiDigit = "31".toList) (hm : Short (m.map asciiDigit)) (hy : Four (y.map asciiDigit))
    (sep : Char) (hsep : NumericSep w sep) (v1 : 1 ≤ number (m.map asciiDigit)) (v2 : number (m.map asciiDigit) ≤ 12)
    (hy1 : 1 ≤ number (y.map asciiDigit)) : E.parseJalali lib (some c) (w.write d m y [sep] [sep]) = .error .error := by
  have hds : Short (d.map asciiDigit) := by rw [hd]; exact ⟨by unfold IsNumeral; decide, by decide⟩
  obtain ⟨cfg, h1, h2, h3, h4, _⟩ := calendar_cfg hc E.now
  obtain ⟨⟨t1, _⟩, t2⟩ := cal_numeric_text hE hc w d m y hds hm hy sep hsep true
  have hv : (natOfDigits (d.map asciiDigit) : Int) = 31 := by rw [hd]; decide
  unfold Env.parseJalali
  rw [h1]
  dsimp only
  unfold jalaliParse
  rw [t1, (cal_numeric_parse hE hc (jalaliFns E.uni lib) rfl cfg o w (by rw [h2]; exact ho) hw h3 _ _ _ hds hm hy sep hsep v1 v2 (by omega) hy1 t2).2 (by omega)
    (by rw [hv]; decide)]

/-- The parser on a month name. -/
theorem name_parse (lib : JalaliLib) (d mon y : List Char) (n : Int) (hd : Short (d.map asciiDigit)) (hmon : (mon, n) ∈ persianMonths) (hy : Four (y.map asciiDigit)) :
    ∃ e : AEnv, e.cfg.dateOrder = calendarOrder c ∧ e.now.loc = (baseTime c E.now).loc ∧ e.fns = jalaliFns E.uni lib ∧ jalaliMonthValue (latinMonth n) = some n ∧ 1 ≤ n ∧
      E.parseJalali lib (some c) (d ++ ' ' :: (mon ++ ' ' :: y)) =
        match valueSteps e 0 [⟨d.map asciiDigit, .digit⟩, ⟨latinMonth n, .letter⟩, ⟨y.map asciiDigit, .digit⟩] {} with
        | none => .error .error
        | some s => absParse e (fallbacks s) none := by
  obtain ⟨cfg, h1, h2, h3, h4, _⟩ := calendar_cfg hc E.now
  obtain ⟨t1, t2⟩ := cal_name_text hE d mon y n hd hmon hy
  have hfact := List.all_eq_true.mp month_facts _ hmon
  simp only [Bool.and_eq_true, Bool.not_eq_true', decide_eq_true_eq] at hfact
  obtain ⟨⟨⟨⟨⟨⟨⟨⟨f1, f2⟩, f3⟩, f4⟩, f5⟩, f6⟩, f7⟩, f8⟩, f9⟩ := hfact
  refine ⟨{ fns := jalaliFns E.uni lib, cfg := cfg, sysNow := E.now, monthFirst := E.monthFirst }, h2, ?_, rfl, f8, f9, ?_⟩
  · unfold AEnv.now
    simp only [h3, base_notZero hE.toSurroundings, Bool.false_eq_true, if_false]
  · unfold Env.parseJalali
    rw [h1]
    dsimp only
    unfold jalaliParse calParse
    rw [t1, t2]
    dsimp only
    rw [absInit_name _ _ _ _ hd f4 (by intro e; rw [e] at f5; simp at f5) f6 (by simpa using f7) hy]
    cases valueSteps _ 0 _ {} with
    | none => rfl
    | some s =>
      dsimp only
      cases absParse _ (fallbacks s) none <;> rfl

/-- **C35** A Jalali date with a Persian month name gives the same day in the Gregorian calendar, if the date order does not have
the year before the day. -/
theorem C35_jalali_month_name (lib : JalaliLib) (o : Order) (ho : toLower (calendarOrder c) = o.letters) (hod : o = .dmy ∨ o = .dym ∨ o = .mdy)
    (d mon y : List Char) (n : Int) (hd : Short (d.map asciiDigit)) (hmon : (mon, n) ∈ persianMonths) (hy : Four (y.map asciiDigit))
    (v3 : 1 ≤ number (d.map asciiDigit)) (v4 : number (d.map asciiDigit) ≤ 30) (hy1 : 1 ≤ number (y.map asciiDigit)) (g : Int × Int × Int)
    (hj : IsJalali lib (number (y.map asciiDigit)) n (number (d.map asciiDigit)) g) :
    E.parseJalali lib (some c) (d ++ ' ' :: (mon ++ ' ' :: y)) =
      .ok { period := .day, time := goDate g.1 g.2.1 g.2.2 0 0 0 0 (baseTime c E.now).loc } := by
  obtain ⟨e, e1, e2, e3, e4, e5, e6⟩ := name_parse hE hc lib d mon y n hd hmon hy
  rw [e6]
  obtain ⟨s, hs, hv, hct⟩ := cal_name_steps e (digits_ok hE hc) (by rw [e3]; rfl) o (by rw [e1]; exact ho) hod _ (latinMonth n) _ n hd e4 hy e5 v3 v4 hy1
  rw [hs]
  dsimp only
  have hfb : fallbacks s = s := by simp [fallbacks, fallback1, hv, Vals.get]
  have v3' : 1 ≤ (natOfDigits (d.map asciiDigit) : Int) := v3
  have hy1' : 1 ≤ (natOfDigits (y.map asciiDigit) : Int) := hy1
  rw [hfb, absParse_create e s none _ _ _ (by rw [hv]) (by rw [hv]) (by rw [hv]) (by omega) (by omega) (by omega)
    (by rw [hct]) _ _ (by rw [hct]) (by rw [hct]) (by
      intro t ht
      rw [hct] at ht
      simp only [Option.some.injEq] at ht
      rw [← ht]
      have := hy.2
      show (y.map asciiDigit).length ≠ 2
      omega), e3, e2]
  show Except.map _ (jalaliCreate lib _ _ _ _ 0 0 0 0 _) = _
  rw [jalali_create (by exact hj)]
  rfl

/-- **C35** (finding) … and the 31st day is refused here as well, with every date order. -/
theorem C35_jalali_month_name_day31_refused (lib : JalaliLib) (d mon y : List Char) (n : Int) (hd : d.map asciiDigit = "31".toList)
    (hmon : (mon, n) ∈ persianMonths) (hy : Four (y.map asciiDigit)) (hy1 : 1 ≤ number (y.map asciiDigit)) :
    E.parseJalali lib (some c) (d ++ ' ' :: (mon ++ ' ' :: y)) = .error .error := by
  have hds : Short (d.map asciiDigit) := by rw [hd]; exact ⟨by unfold IsNumeral; decide, by decide⟩
  obtain ⟨e, e1, e2, e3, e4, e5, e6⟩ := name_parse hE hc lib d mon y n hds hmon hy
  obtain ⟨o, ho⟩ := orderIn_some [] (own := "DMY".toList) (by decide) c
  have hv : (natOfDigits (d.map asciiDigit) : Int) = 31 := by rw [hd]; decide
  rw [e6, cal_late_name_steps e (digits_ok hE hc) (by rw [e3]; rfl) o (by rw [e1]; exact ho) _ (latinMonth n) _ n hds e4 hy e5 (by omega) hy1 (by rw [hv]; decide)]

/-- **C35** (finding) With a date order that starts with the year, a day of two digits before a month name is taken for a year, and
the text is refused. -/
theorem C35_jalali_year_first_refused (lib : JalaliLib) (o : Order) (ho : toLower (calendarOrder c) = o.letters) (hod : o = .ymd ∨ o = .ydm)
    (d mon y : List Char) (n : Int) (hd : IsNumeral (d.map asciiDigit)) (hd2 : d.length = 2) (hmon : (mon, n) ∈ persianMonths)
    (hy : Four (y.map asciiDigit)) (hy1 : 1 ≤ number (y.map asciiDigit)) :
    E.parseJalali lib (some c) (d ++ ' ' :: (mon ++ ' ' :: y)) = .error .error := by
  have hds : Short (d.map asciiDigit) := ⟨hd, by rw [List.length_map, hd2]; decide⟩
  obtain ⟨e, e1, e2, e3, e4, e5, e6⟩ := name_parse hE hc lib d mon y n hds hmon hy
  rw [e6]
  have hlen : (d.map asciiDigit).length = 2 := by rw [List.length_map, hd2]
  generalize d.map asciiDigit = D at *
  generalize y.map asciiDigit = Y at *
  have hok := digits_ok hE hc
  have hfp : e.fns.partValue = calPartValue E.uni.isDigit jalaliTwoDigits jalaliMonthValue := by rw [e3]; rfl
  have d_y : ∀ dir, calPartValue E.uni.isDigit jalaliTwoDigits jalaliMonthValue .year D dir = some (jalaliTwoDigits (natOfDigits D)) := by
    intro dir; rw [cal_year2 hok hd.2 hds.2, if_pos hlen]
  have y_d : calPartValue E.uni.isDigit jalaliTwoDigits jalaliMonthValue .day Y .d2 = none := by
    rw [cal_day hok hy.1.2, if_neg]; have := hy.2; omega
  have y_m : calPartValue E.uni.isDigit jalaliTwoDigits jalaliMonthValue .month Y .m1 = none := by
    rw [cal_month hok hy.1.2, if_neg]; have := hy.2; omega
  have m_m : calPartValue E.uni.isDigit jalaliTwoDigits jalaliMonthValue .month (latinMonth n) .mJanuary = some n := by simp [calPartValue, e4]
  have m_w : ∀ dir, calPartValue E.uni.isDigit jalaliTwoDigits jalaliMonthValue .weekday (latinMonth n) dir = none := fun _ => rfl
  have n0 : n ≠ 0 := by omega
  have t0 : jalaliTwoDigits (natOfDigits D) ≠ 0 := by
    have := (natOfDigits_range hd.2).1
    unfold jalaliTwoDigits; split <;> omega
  have y_y : ∀ dir, calPartValue E.uni.isDigit jalaliTwoDigits jalaliMonthValue .year Y dir = some (natOfDigits Y) := cal_year4 hok hy.1.2 hy.2
  have ly : Y.length = 4 := hy.2
  have hnd : numberDirectives e.cfg.dateOrder = o.letters.filterMap fun c =>
      if c == 'd' then some (.day, [.d2])
      else if c == 'm' then some (.month, [.m1])
      else if c == 'y' then some (.year, [.y2006, .y06])
      else none := by unfold numberDirectives; rw [e1, ho]
  have : valueSteps e 0 [⟨D, .digit⟩, ⟨latinMonth n, .letter⟩, ⟨Y, .digit⟩] {} = none := by
    rcases hod with rfl | rfl <;> cases hmf : e.monthFirst 1 <;>
      simp [valueSteps, valueStep, hnd, Order.letters, parseDigitToken, digitDirLoop, hfp, m_m, m_w, hmf,
        y_d, y_m, d_y, y_y, Vals.get0, Vals.get, setAndReturn, CToks.set, CToks.get, saveResults, Vals.set, alphaDirectives, parseLetterToken, letterDirLoop,
        replaceMonthByDay, n0, t0, ly, hlen]
  rw [this]

/-! ## Hijri -/

/-- The result of a numeric Hijri date, as `createDateTime` has it. -/
theorem hijri_numeric (lib : HijriLib) (am : Bool) (o w : Order) (ho : toLower (calendarOrder c) = o.letters) (hw : o.Agrees w)
    (d m y : List Char) (hd : Short (d.map asciiDigit)) (hm : Short (m.map asciiDigit)) (hy : Four (y.map asciiDigit))
    (sep : Char) (hsep : NumericSep w sep) (v1 : 1 ≤ number (m.map asciiDigit)) (v2 : number (m.map asciiDigit) ≤ 12)
    (v3 : 1 ≤ number (d.map asciiDigit)) (v4 : number (d.map asciiDigit) ≤ 30) (hy1 : 1 ≤ number (y.map asciiDigit)) :
    ∃ cfg : Cfg, cfg.dateSource = DateSource.ofCode c.dateSource ∧ E.parseHijri lib am (some c) (w.write d m y [sep] [sep]) =
      (hijriCreate lib cfg (number (y.map asciiDigit)) (number (m.map asciiDigit)) (number (d.map asciiDigit)) 0 0 0 0 (baseTime c E.now).loc).map
        fun t => { period := .day, time := t } := by
  obtain ⟨cfg, h1, h2, h3, h4, _⟩ := calendar_cfg hc E.now
  obtain ⟨⟨_, t1⟩, t2⟩ := cal_numeric_text hE hc w d m y hd hm hy sep hsep am
  refine ⟨cfg, h4, ?_⟩
  unfold Env.parseHijri
  rw [h1]
  dsimp only
  unfold hijriParse
  rw [t1, (cal_numeric_parse hE hc (hijriFns E.uni lib) rfl cfg o w (by rw [h2]; exact ho) hw h3 _ _ _ hd hm hy sep hsep v1 v2 v3 hy1 t2).1 v4]
  rfl

/-- **C35** A numeric Hijri date that agrees with the date order, in ASCII, Persian or Arabic digits, gives the same day in the
Gregorian calendar, at midnight in the zone of the base time, with Period Day: days 1 to 29 of every month, and the 30th of a
month that is odd, or of the last month of a leap year. -/
theorem C35_hijri_numeric (lib : HijriLib) (am : Bool) (o w : Order) (ho : toLower (calendarOrder c) = o.letters) (hw : o.Agrees w)
    (d m y : List Char) (hd : Short (d.map asciiDigit)) (hm : Short (m.map asciiDigit)) (hy : Four (y.map asciiDigit))
    (sep : Char) (hsep : NumericSep w sep) (v1 : 1 ≤ number (m.map asciiDigit)) (v2 : number (m.map asciiDigit) ≤ 12)
    (v3 : 1 ≤ number (d.map asciiDigit)) (hy1 : 1 ≤ number (y.map asciiDigit))
    (v4 : number (d.map asciiDigit) ≤ 29 ∨ (number (d.map asciiDigit) = 30 ∧
      (number (m.map asciiDigit) % 2 = 1 ∨ (number (m.map asciiDigit) = 12 ∧ isHijriLeap lib (number (y.map asciiDigit)) = true)))) :
    let g := lib.toGregorian (number (y.map asciiDigit)) (number (m.map asciiDigit)) (number (d.map asciiDigit))
    E.parseHijri lib am (some c) (w.write d m y [sep] [sep]) =
      .ok { period := .day, time := goDate g.1 g.2.1 g.2.2 0 0 0 0 (baseTime c E.now).loc } := by
  obtain ⟨cfg, _, h⟩ := hijri_numeric hE hc lib am o w ho hw d m y hd hm hy sep hsep v1 v2 v3 (by omega) hy1
  intro g
  rw [h]
  unfold hijriCreate
  have hno : ¬ (number (d.map asciiDigit) = 30 ∧ number (m.map asciiDigit) = 12 ∧ (!isHijriLeap lib (number (y.map asciiDigit))) = true) := by
    rintro ⟨h1, h2, h3⟩
    rcases v4 with v4 | ⟨_, v4 | ⟨_, v4⟩⟩
    · omega
    · omega
    · rw [v4] at h3; simp at h3
  rw [if_neg hno]
  simp only [bind, pure, Except.bind, Except.pure]
  have hlast : ¬ number (d.map asciiDigit) > lastDayOfHijriMonth lib (number (y.map asciiDigit)) (number (m.map asciiDigit)) := by
    unfold lastDayOfHijriMonth
    rcases v4 with v4 | ⟨v4, v5 | ⟨v5, v6⟩⟩
    · split
      · omega
      · split <;> omega
    · rw [if_neg (by omega), if_neg]
      · omega
      · rw [Int.tmod_eq_emod_of_nonneg (by omega)]; omega
    · rw [if_pos ⟨v5, v6⟩]; omega
  rw [if_neg hlast]
  rfl

/-- **C35** (finding) The 30th of an even month other than the last is always read as the 29th, also in the years in which the Umm
al-Qura calendar has 30 days in that month. -/
theorem C35_hijri_even_month_clipped (lib : HijriLib) (am : Bool) (o w : Order) (ho : toLower (calendarOrder c) = o.letters) (hw : o.Agrees w)
    (d m y : List Char) (hd : d.map asciiDigit = "30".toList) (hm : Short (m.map asciiDigit)) (hy : Four (y.map asciiDigit))
    (sep : Char) (hsep : NumericSep w sep) (v1 : 1 ≤ number (m.map asciiDigit)) (v2 : number (m.map asciiDigit) < 12)
    (heven : number (m.map asciiDigit) % 2 = 0) (hy1 : 1 ≤ number (y.map asciiDigit)) :
    let g := lib.toGregorian (number (y.map asciiDigit)) (number (m.map asciiDigit)) 29
    E.parseHijri lib am (some c) (w.write d m y [sep] [sep]) =
      .ok { period := .day, time := goDate g.1 g.2.1 g.2.2 0 0 0 0 (baseTime c E.now).loc } := by
  have hds : Short (d.map asciiDigit) := by rw [hd]; exact ⟨by unfold IsNumeral; decide, by decide⟩
  have hv : number (d.map asciiDigit) = 30 := by rw [hd]; decide
  obtain ⟨cfg, _, h⟩ := hijri_numeric hE hc lib am o w ho hw d m y hds hm hy sep hsep v1 (by omega) (by omega) (by omega) hy1
  intro g
  rw [h, hv]
  unfold hijriCreate
  rw [if_neg (by omega)]
  simp only [bind, pure, Except.bind, Except.pure]
  have hlast : lastDayOfHijriMonth lib (number (y.map asciiDigit)) (number (m.map asciiDigit)) = 29 := by
    unfold lastDayOfHijriMonth
    rw [if_neg (by omega), if_pos]
    rw [Int.tmod_eq_emod_of_nonneg (by omega)]; omega
  rw [hlast, if_pos (by decide)]
  rfl

/-- **C35** (finding) Every day above 30 is refused. -/
theorem C35_hijri_late_day_refused (lib : HijriLib) (am : Bool) (o w : Order) (ho : toLower (calendarOrder c) = o.letters) (hw : o.Agrees w)
    (d m y : List Char) (hd : Short (d.map asciiDigit)) (hm : Short (m.map asciiDigit)) (hy : Four (y.map asciiDigit))
    (sep : Char) (hsep : NumericSep w sep) (v1 : 1 ≤ number (m.map asciiDigit)) (v2 : number (m.map asciiDigit) ≤ 12)
    (v3 : 30 < number (d.map asciiDigit)) (hy1 : 1 ≤ number (y.map asciiDigit)) :
    E.parseHijri lib am (some c) (w.write d m y [sep] [sep]) = .error .error := by
  obtain ⟨cfg, h1, h2, h3, h4, _⟩ := calendar_cfg hc E.now
  obtain ⟨⟨_, t1⟩, t2⟩ := cal_numeric_text hE hc w d m y hd hm hy sep hsep am
  have v3' : 30 < (natOfDigits (d.map asciiDigit) : Int) := v3
  unfold Env.parseHijri
  rw [h1]
  dsimp only
  unfold hijriParse
  rw [t1, (cal_numeric_parse hE hc (hijriFns E.uni lib) rfl cfg o w (by rw [h2]; exact ho) hw h3 _ _ _ hd hm hy sep hsep v1 v2 (by omega) hy1 t2).2 v3
    (by unfold hijriTwoDigits; split <;> omega)]
end

/-! ## Examples -/

example : persianEnv.parseJalali demoJalali (some {}) "1/1/1394".toList = .ok { period := .day, time := goDate 2015 3 21 0 0 0 0 Loc.utc } :=
  C35_jalali_numeric persian_sound rfl demoJalali .dmy .dmy (by decide) (Order.agrees_self _) "1".toList "1".toList "1394".toList
    ⟨by unfold IsNumeral; decide, by decide⟩ ⟨by unfold IsNumeral; decide, by decide⟩ ⟨by unfold IsNumeral; decide, by decide⟩ '/' (Or.inl rfl)
    (by decide) (by decide) (by decide) (by decide) (by decide) (2015, 3, 21)
    ⟨⟨31, by decide +kernel, by decide⟩, ⟨false, by decide +kernel, by decide⟩, by decide +kernel⟩

/-- 30 Esfand 1400 does not exist; the next is in 1403. -/
example : persianEnv.parseJalali demoJalali (some { dateSource := 2 }) "30/12/1400".toList = .ok { period := .day, time := goDate 2025 3 20 0 0 0 0 Loc.utc } :=
  C35_jalali_next_leap_year persian_sound rfl demoJalali .dmy .dmy (by decide) (Order.agrees_self _) "30".toList "12".toList "1400".toList
    (by decide) (by decide) ⟨by unfold IsNumeral; decide, by decide⟩ '/' (Or.inl rfl) (by decide) rfl 1403 (by decide) (by decide)
    (fun z h1 h2 => by
      have h1 : (1400 : Int) ≤ z := h1
      have : z = 1400 ∨ z = 1401 ∨ z = 1402 := by omega
      rcases this with rfl | rfl | rfl <;> decide +kernel) (by decide +kernel) 30 (by decide +kernel) (by decide) (2025, 3, 20) (by decide +kernel)

/-- ۳۰ اسفند ۱۳۹۹, the last day of a leap year. -/
example : persianEnv.parseJalali demoJalali (some {}) "۳۰ اسفند ۱۳۹۹".toList = .ok { period := .day, time := goDate 2021 3 20 0 0 0 0 Loc.utc } :=
  C35_jalali_month_name persian_sound rfl demoJalali .dmy (by decide) (Or.inl rfl) "۳۰".toList "اسفند".toList "۱۳۹۹".toList 12
    ⟨by unfold IsNumeral; decide, by decide⟩ (by decide +kernel) ⟨by unfold IsNumeral; decide, by decide⟩
    (by decide) (by decide) (by decide) (2021, 3, 20)
    ⟨⟨30, by decide +kernel, by decide⟩, ⟨true, by decide +kernel, by decide⟩, by decide +kernel⟩

/-- 31 Ordibehesht 1394 is 21 May 2015, but it is refused. -/
example : demoJalali.toGregorian 1394 2 31 = some (2015, 5, 21) ∧ persianEnv.parseJalali demoJalali (some {}) "۳۱ اردیبهشت ۱۳۹۴".toList = .error .error :=
  ⟨by decide +kernel, C35_jalali_month_name_day31_refused persian_sound rfl demoJalali "۳۱".toList "اردیبهشت".toList "۱۳۹۴".toList 2
    (by decide +kernel) (by decide +kernel) ⟨by unfold IsNumeral; decide, by decide⟩ (by decide)⟩

example : persianEnv.parseHijri demoHijri true (some {}) "١/٩/١٤٤٥".toList = .ok { period := .day, time := goDate 2024 3 11 0 0 0 0 Loc.utc } :=
  C35_hijri_numeric persian_sound rfl demoHijri true .dmy .dmy (by decide) (Order.agrees_self _) "١".toList "٩".toList "١٤٤٥".toList
    ⟨by unfold IsNumeral; decide, by decide⟩ ⟨by unfold IsNumeral; decide, by decide⟩ ⟨by unfold IsNumeral; decide, by decide⟩ '/' (Or.inl rfl)
    (by decide) (by decide) (by decide) (by decide) (Or.inl (by decide))

end Verif.Props
