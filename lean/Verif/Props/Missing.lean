import Verif.Props.MonthDay
import Verif.Props.TimeOnly
import Verif.Props.Weekday
/-! # C09, C10: missing day and month, and the period -/
set_option autoImplicit false
namespace Verif.Props
open Verif.Go Verif.Model Verif.Lemmas Verif.Spec

theorem monthLen_bounds (y m : Int) : 28 ≤ monthLen y m ∧ monthLen y m ≤ 31 := by
  unfold monthLen; split <;> (try split) <;> omega

theorem chosenDay_isDate (p : DayOfMonth) (today y m : Int) (h1 : 1 ≤ m) (h2 : m ≤ 12) (ht : 1 ≤ today) :
    IsDate y m (chosenDay p today (monthLen y m)) := by
  have := monthLen_bounds y m
  refine ⟨h1, h2, ?_, ?_⟩ <;> unfold chosenDay <;> split <;> (try split) <;> omega

/-- `ApplyDayFromConfig` on a date. -/
theorem applyDay_eq (cfg : Cfg) (sysNow t : Time) (today y m d H M S ns : Int) (hs : Shows t y m d H M S ns)
    (hc : IsClock H M S ns) (hf : t.loc.IsFixed) (hd : IsDate y m d) (ht : 1 ≤ today) :
    applyDayFromConfig cfg sysNow t (some today) =
      goDate y m (chosenDay cfg.dayOfMonth today (monthLen y m)) H M S ns t.loc := by
  unfold applyDayFromConfig
  have hl : getLastDayOfMonth t.year t.month = monthLen y m := by
    rw [hs.year, hs.month, getLastDayOfMonth_valid _ _ hd.1 hd.2.1, daysIn_eq]
  have hb := monthLen_bounds y m
  rw [hs.day]
  have lastDay : (t.addDate 0 1 (-d)).day = monthLen y m := by
    unfold Time.addDate
    rw [hs.year, hs.month, hs.day, hs.hour, hs.minute, hs.second, hs.nanosecond]
    have G := (goDate_fields (l := t.loc) (y := y + 0) (m := m + 1) (d := d + -d) hc (hf.noJump _)).1
    unfold Time.day Time.civil
    rw [G]
    have e : daysOfCivil (y + 0 + (m + 1 - 1) / 12) ((m + 1 - 1) % 12 + 1) (d + -d)
        = daysOfCivil y m (daysIn y m) := by
      rw [← monthEnd y m hd.1 hd.2.1]
      rw [Int.add_zero, Int.add_sub_cancel, Int.add_right_neg]
    rw [e, civilOfDays_daysOfCivil _ _ _ hd.1 hd.2.1 (by rw [daysIn_eq]; omega) (by omega), daysIn_eq]
  rw [hl]
  simp only [lastDay, hs.year, hs.month, hs.hour, hs.minute, hs.second, hs.nanosecond]
  congr 1
  unfold chosenDay
  cases cfg.dayOfMonth <;> simp only
  · split <;> split <;> omega
  · rw [if_neg (by omega)]
  · rw [if_neg (by omega)]

/-- `createDateTime` with a day that may not exist in the month. -/
theorem gregCreate_clip (cfg : Cfg) (Y m d H M S ns : Int) (l : Loc) (h1 : 1 ≤ m) (h2 : m ≤ 12)
    (hn : ¬ (d = 29 ∧ m = 2 ∧ ¬ Leap Y)) :
    gregCreate cfg Y m d H M S ns l =
      .ok (goDate Y m (if d ≤ monthLen Y m then d else monthLen Y m) H M S ns l) := by
  unfold gregCreate
  have e1 : ¬ (d = 29 ∧ m = 2 ∧ (!isLeapYear Y) = true) := by
    rintro ⟨a, b, c⟩
    refine hn ⟨a, b, ?_⟩
    intro hl
    rw [leap_bool hl] at c
    cases c
  simp only [e1, if_false]
  rw [getLastDayOfMonth_valid _ _ h1 h2, daysIn_eq]
  congr 2
  split <;> split <;> omega

theorem lenient_check {cfg : Cfg} (h : Lenient cfg) (l : List (List Char)) : checkStrictParsing cfg l = true := by
  simp [checkStrictParsing, h.1, h.2]

/-- **C09** For every string in which the parser finds a month and a (four digit) year but no day,
weekday or time: the result is in that month of that year, on the day `PreferredDayOfMonth` asks for.
The exception (29th of the month today, February of a common year) is the finding
`C09_february_on_the_29th`. -/
theorem C09_day_filled (cfg : Cfg) (sysNow : Time) (mf : Nat → Bool) (tz : Option Tz)
    (str : List Char) (s : ASt) (hs : partsOf cfg sysNow mf str = .ok s) (m y : Int)
    (hm : s.vals.month = some m) (hd : s.vals.day = none) (hy : s.vals.year = some y)
    (hm1 : 1 ≤ m) (hm2 : m ≤ 12) (hy0 : y ≠ 0) (hlen : ∀ t, s.ctoks.year = some t → t.text.length ≠ 2)
    (hw : s.ctoks.weekday = none) (ht : s.ctoks.time = none)
    (hf : (nowOf cfg sysNow).loc.IsFixed)
    (hx : ¬ ((nowOf cfg sysNow).day = 29 ∧ m = 2 ∧ ¬ Leap y)) (hl : Lenient cfg) :
    absoluteParse cfg sysNow mf str tz =
      .ok { period := .month
            time := goDate y m (chosenDay cfg.dayOfMonth (nowOf cfg sysNow).day (monthLen y m)) 0 0 0 0
              (nowOf cfg sysNow).loc } := by
  unfold absoluteParse
  unfold partsOf at hs
  simp only [hs]
  have found := absInit_found hs
  generalize he : (AEnv.mk gregFns cfg sysNow mf) = e at hs found
  have hfn : e.fns = gregFns := by rw [← he]
  have hcfg : e.cfg = cfg := by rw [← he]
  have hnow : e.now = nowOf cfg sysNow := by rw [← he]; rfl
  generalize nowOf cfg sysNow = now at *
  have hd1 : 1 ≤ now.day := now.year_month_day_valid.2.2.1
  have cm : s.ctoks.month.isSome = true := by have := found.isSome .month; simpa [CToks.get, Vals.get, hm] using this
  have cd : s.ctoks.day = none := by
    have := found.isSome .day
    simpa [CToks.get, Vals.get, hd] using this
  have cm' : s.ctoks.month.isNone = false := by cases h : s.ctoks.month <;> simp_all
  have hb := monthLen_bounds y m
  have hm0 : m ≠ 0 := by omega
  have hD : IsDate y m (if now.day ≤ monthLen y m then now.day else monthLen y m) := by
    refine ⟨hm1, hm2, ?_, ?_⟩ <;> split <;> omega
  have hcr := gregCreate_clip cfg y m now.day 0 0 0 0 now.loc hm1 hm2 hx
  generalize (if now.day ≤ monthLen y m then now.day else monthLen y m) = D at *
  have fr : correctForTimeFrame e.cfg e.now s tz (goDate y m D 0 0 0 0 now.loc) =
      .ok (goDate y m D 0 0 0 0 now.loc) := by
    unfold correctForTimeFrame
    rw [frameWeekday_skip _ s _ (Or.inr (Or.inl cm))]
    have f2 : ∀ t, frameYear2 e.cfg e.now s t = t := by
      intro t
      unfold frameYear2
      cases h : s.ctoks.year with
      | none => rfl
      | some tk => simp only [hlen tk h, if_false]
    simp only [frameMonth, hy, Option.isNone_some, Bool.and_false, Bool.false_eq_true, if_false, f2, frameTime, ht,
      Option.isSome_none, Bool.false_and]
  rw [absParse_intro (e := e) (H := 0) (M := 0) (S := 0) (ns := 0) (p := none) (tz := tz)
    (Or.inl ⟨ht, rfl, rfl, rfl, rfl, rfl⟩) (by
      rw [hfn, hcfg, hnow]
      simp only [hm, hd, hy, orNow, hm0, hy0, if_false, gregFns]
      exact hcr) fr (by rw [hcfg]; exact lenient_check hl _)]
  congr 1
  have hper : periodFor e.cfg s none = .month := by simp [periodFor, getPeriod, hd, hm]
  rw [hper]
  congr 1
  simp only [correctForDay, correctForMonth, cm, cd, ht, hw, Option.isSome_none, Bool.or_self, Bool.false_eq_true,
    if_false, if_true]
  rw [hcfg, hnow]
  exact applyDay_eq cfg e.sysNow _ now.day y m D 0 0 0 0 (shows_goDate hD clock0 (hf.noJump _)) clock0 hf hD hd1

/-- **C09** For every string in which the parser finds only a (four digit) year: the result is in that
year, in the month and on the day the two preferences ask for. -/
theorem C09_month_and_day_filled (cfg : Cfg) (sysNow : Time) (mf : Nat → Bool) (tz : Option Tz)
    (str : List Char) (s : ASt) (hs : partsOf cfg sysNow mf str = .ok s) (y : Int)
    (hm : s.vals.month = none) (hd : s.vals.day = none) (hy : s.vals.year = some y)
    (hy0 : y ≠ 0) (hlen : ∀ t, s.ctoks.year = some t → t.text.length ≠ 2)
    (hw : s.ctoks.weekday = none) (ht : s.ctoks.time = none)
    (hf : (nowOf cfg sysNow).loc.IsFixed)
    (hx : ¬ ((nowOf cfg sysNow).day = 29 ∧ (nowOf cfg sysNow).month = 2 ∧ ¬ Leap y)) (hl : Lenient cfg) :
    let m := chosenMonth cfg.monthOfYear (nowOf cfg sysNow).month
    absoluteParse cfg sysNow mf str tz =
      .ok { period := .year
            time := goDate y m (chosenDay cfg.dayOfMonth (nowOf cfg sysNow).day (monthLen y m)) 0 0 0 0
              (nowOf cfg sysNow).loc } := by
  intro m
  have hmdef : m = chosenMonth cfg.monthOfYear (nowOf cfg sysNow).month := rfl
  clear_value m
  unfold absoluteParse
  unfold partsOf at hs
  simp only [hs]
  have found := absInit_found hs
  generalize he : (AEnv.mk gregFns cfg sysNow mf) = e at hs found
  have hfn : e.fns = gregFns := by rw [← he]
  have hcfg : e.cfg = cfg := by rw [← he]
  have hnow : e.now = nowOf cfg sysNow := by rw [← he]; rfl
  generalize hN : nowOf cfg sysNow = now at *
  obtain ⟨hM1, hM2, hd1, _⟩ := now.year_month_day_valid
  have cm : s.ctoks.month = none := by
    have := found.isSome .month
    simpa [CToks.get, Vals.get, hm] using this
  have cd : s.ctoks.day = none := by
    have := found.isSome .day
    simpa [CToks.get, Vals.get, hd] using this
  have cy : s.ctoks.year.isSome = true := by have := found.isSome .year; simpa [CToks.get, Vals.get, hy] using this
  have cy' : s.ctoks.year.isNone = false := by cases h : s.ctoks.year <;> simp_all
  have hb := monthLen_bounds y now.month
  have hD : IsDate y now.month (if now.day ≤ monthLen y now.month then now.day else monthLen y now.month) := by
    refine ⟨hM1, hM2, ?_, ?_⟩ <;> split <;> omega
  have hcr := gregCreate_clip cfg y now.month now.day 0 0 0 0 now.loc hM1 hM2 hx
  generalize (if now.day ≤ monthLen y now.month then now.day else monthLen y now.month) = D at *
  have fr : correctForTimeFrame e.cfg e.now s tz (goDate y now.month D 0 0 0 0 now.loc) =
      .ok (goDate y now.month D 0 0 0 0 now.loc) := by
    unfold correctForTimeFrame
    rw [frameWeekday_skip _ s _ (Or.inl cy)]
    have f2 : ∀ t, frameYear2 e.cfg e.now s t = t := by
      intro t
      unfold frameYear2
      cases h : s.ctoks.year with
      | none => rfl
      | some tk => simp only [hlen tk h, if_false]
    simp only [frameMonth, hy, Option.isNone_some, Bool.and_false, Bool.false_eq_true, if_false, f2, frameTime, ht,
      Option.isSome_none, Bool.false_and]
  rw [absParse_intro (e := e) (H := 0) (M := 0) (S := 0) (ns := 0) (p := none) (tz := tz)
    (Or.inl ⟨ht, rfl, rfl, rfl, rfl, rfl⟩) (by
      rw [hfn, hcfg, hnow]
      simp only [hm, hd, hy, orNow, hy0, if_false, gregFns]
      exact hcr) fr (by rw [hcfg]; exact lenient_check hl _)]
  congr 1
  have hper : periodFor e.cfg s none = .year := by simp [periodFor, getPeriod, hd, hm, hy]
  rw [hper]
  congr 1
  simp only [correctForDay, correctForMonth, cm, cd, ht, hw, Option.isSome_none, Bool.or_self, Bool.false_eq_true,
    if_false, Bool.false_and]
  rw [hcfg, hnow]
  have S0 := shows_goDate (l := now.loc) hD clock0 (hf.noJump _)
  have hmm : 1 ≤ m ∧ m ≤ 12 := by
    rw [hmdef]
    unfold chosenMonth; split <;> omega
  have hD2 : IsDate y m D := by
    refine ⟨hmm.1, hmm.2, hD.2.2.1, ?_⟩
    have := hD.2.2.2
    rw [hmdef]
    unfold chosenMonth
    split
    · have : monthLen y 1 = 31 := rfl
      omega
    · have : monthLen y 12 = 31 := rfl
      omega
    · exact this
  have am : applyMonthFromConfig cfg e.sysNow (goDate y now.month D 0 0 0 0 now.loc) (some now.month) =
      goDate y m D 0 0 0 0 now.loc := by
    unfold applyMonthFromConfig
    rw [S0.year, S0.day, S0.hour, S0.minute, S0.second, S0.nanosecond, hmdef]
    rfl
  rw [am]
  exact applyDay_eq cfg e.sysNow _ now.day y m D 0 0 0 0 (shows_goDate hD2 clock0 (hf.noJump _)) clock0 hf hD2 hd1

set_option maxHeartbeats 4000000 in
/-- What is found in "March 2015" and "2015 March". -/
theorem monthYear_parts (cfg : Cfg) (sysNow : Time) (mf : Nat → Bool) (o : Order)
    (ho : toLower cfg.dateOrder = o.letters) (mon y sep str : List Char) (n : Int) (hy : Four y)
    (hmon : IsMonthName mon n) (hs : IsSeparator sep) (hstr : MonthYear mon y sep str) (hy2 : 2 ≤ number y) :
    ∃ s, partsOf cfg sysNow mf str = .ok s ∧ s.vals = { month := some n, year := some (number y) } ∧
      s.ctoks = { month := some ⟨mon, .letter⟩, year := some ⟨y, .digit⟩ } := by
  unfold partsOf
  generalize he : (AEnv.mk gregFns cfg sysNow mf) = e
  have hf : e.fns = gregFns := by rw [← he]
  have hfp : e.fns.partValue = gregPartValue := by rw [hf]; rfl
  have hcfg : e.cfg = cfg := by rw [← he]
  rw [number_eq] at hy2 ⊢
  have y_d : gregPartValue .day y .d2 = none := by
    rw [partValue_day hy.1.2 hy.1.1, if_neg]; have := hy.2; omega
  have y_m : gregPartValue .month y .m1 = none := by
    rw [partValue_month hy.1.2 hy.1.1, if_neg]; have := hy.2; omega
  have y_y : gregPartValue .year y .y2006 = some (natOfDigits y) := by
    rw [partValue_year4 hy.1.2 hy.1.1, if_pos ⟨hy.2, by omega⟩]
  have y0 : natOfDigits y ≠ 0 := by omega
  have n0 : n ≠ 0 := by have := (monthNames_facts _ hmon).2.2.2.2.2.2.2.1; dsimp only at this; omega
  have ly : y.length = 4 := hy.2
  have hnd : numberDirectives cfg.dateOrder = o.letters.filterMap fun c =>
      if c == 'd' then some (.day, [.d2])
      else if c == 'm' then some (.month, [.m1])
      else if c == 'y' then some (.year, [.y2006, .y06])
      else none := by unfold numberDirectives; rw [ho]
  have hL := letter_month e hfp mon n hmon
  cases hstr with
  | my =>
    rw [absInit_pieces2 e (.name mon n hmon) (.four y hy) sep hs (by simp [Piece.apart]) (mon ++ sep ++ y) rfl]
    cases o <;>
      simp [Piece.text, Piece.wd, valueSteps, valueStep, hcfg, hnd, Order.letters, parseDigitToken,
          digitDirLoop, hfp, y_d, y_m, y_y, Vals.get0, Vals.get, setAndReturn, CToks.set,
          CToks.get, saveResults, Vals.set, y0, n0, ly, hL, replaceMonthByDay, fallbacks, fallback1]
  | ym =>
    rw [absInit_pieces2 e (.four y hy) (.name mon n hmon) sep hs (by simp [Piece.apart]) (y ++ sep ++ mon) rfl]
    cases o <;>
      simp [Piece.text, Piece.wd, valueSteps, valueStep, hcfg, hnd, Order.letters, parseDigitToken,
          digitDirLoop, hfp, y_d, y_m, y_y, Vals.get0, Vals.get, setAndReturn, CToks.set,
          CToks.get, saveResults, Vals.set, y0, n0, ly, hL, replaceMonthByDay, fallbacks, fallback1]

/-- What is found in "2015". -/
theorem year_parts (cfg : Cfg) (sysNow : Time) (mf : Nat → Bool) (o : Order)
    (ho : toLower cfg.dateOrder = o.letters) (y : List Char) (hy : Four y) (hy2 : 2 ≤ number y) :
    ∃ s, partsOf cfg sysNow mf y = .ok s ∧ s.vals = { year := some (number y) } ∧
      s.ctoks = { year := some ⟨y, .digit⟩ } := by
  unfold partsOf
  generalize he : (AEnv.mk gregFns cfg sysNow mf) = e
  have hf : e.fns = gregFns := by rw [← he]
  have hfp : e.fns.partValue = gregPartValue := by rw [hf]; rfl
  have hcfg : e.cfg = cfg := by rw [← he]
  rw [number_eq] at hy2 ⊢
  have y_d : gregPartValue .day y .d2 = none := by
    rw [partValue_day hy.1.2 hy.1.1, if_neg]; have := hy.2; omega
  have y_m : gregPartValue .month y .m1 = none := by
    rw [partValue_month hy.1.2 hy.1.1, if_neg]; have := hy.2; omega
  have y_y : gregPartValue .year y .y2006 = some (natOfDigits y) := by
    rw [partValue_year4 hy.1.2 hy.1.1, if_pos ⟨hy.2, by omega⟩]
  have hnd : numberDirectives cfg.dateOrder = o.letters.filterMap fun c =>
      if c == 'd' then some (.day, [.d2])
      else if c == 'm' then some (.month, [.m1])
      else if c == 'y' then some (.year, [.y2006, .y06])
      else none := by unfold numberDirectives; rw [ho]
  have := absInit_one e ⟨y, .digit⟩ (wdOK_digits hy.1) (digits_no_colon hy.1.2) (digits_not_skipped hy.1)
  dsimp only at this
  rw [this]
  cases o <;>
    simp [valueStep, hcfg, hnd, Order.letters, parseDigitToken,
          digitDirLoop, hfp, y_d, y_m, y_y, Vals.get0, Vals.get, setAndReturn, CToks.set,
          saveResults, Vals.set, fallbacks, fallback1, hy.2]

/-- **C09** "March 2015", "2015 March". -/
theorem C09_month_year (cfg : Cfg) (sysNow : Time) (mf : Nat → Bool) (tz : Option Tz) (o : Order)
    (ho : toLower cfg.dateOrder = o.letters) (mon y sep str : List Char) (n : Int) (hy : Four y)
    (hmon : IsMonthName mon n) (hs : IsSeparator sep) (hstr : MonthYear mon y sep str) (hy2 : 2 ≤ number y)
    (hf : (nowOf cfg sysNow).loc.IsFixed)
    (hx : ¬ ((nowOf cfg sysNow).day = 29 ∧ n = 2 ∧ ¬ Leap (number y))) (hl : Lenient cfg) :
    ∃ r, absoluteParse cfg sysNow mf str tz = .ok r ∧ r.period = .month ∧
      Shows r.time (number y) n
        (chosenDay cfg.dayOfMonth (nowOf cfg sysNow).day (monthLen (number y) n)) 0 0 0 0 ∧
      r.time.loc = (nowOf cfg sysNow).loc := by
  obtain ⟨s, h1, h2, h3⟩ := monthYear_parts cfg sysNow mf o ho mon y sep str n hy hmon hs hstr hy2
  have b := (monthNames_facts _ hmon).2.2.2.2.2.2.2
  have := C09_day_filled cfg sysNow mf tz str s h1 n (number y) (by rw [h2]) (by rw [h2]) (by rw [h2]) b.1 b.2
    (by omega) (by
      intro t ht
      rw [h3] at ht
      cases ht
      show y.length ≠ 2
      rw [hy.2]; omega) (by rw [h3]) (by rw [h3]) hf hx hl
  refine ⟨_, this, rfl, shows_goDate (chosenDay_isDate _ _ _ _ b.1 b.2 ?_) clock0 (hf.noJump _), rfl⟩
  exact (nowOf cfg sysNow).year_month_day_valid.2.2.1

/-- **C09** "2015". -/
theorem C09_year (cfg : Cfg) (sysNow : Time) (mf : Nat → Bool) (tz : Option Tz) (o : Order)
    (ho : toLower cfg.dateOrder = o.letters) (y : List Char) (hy : Four y) (hy2 : 2 ≤ number y)
    (hf : (nowOf cfg sysNow).loc.IsFixed)
    (hx : ¬ ((nowOf cfg sysNow).day = 29 ∧ (nowOf cfg sysNow).month = 2 ∧ ¬ Leap (number y))) (hl : Lenient cfg) :
    ∃ r, absoluteParse cfg sysNow mf y tz = .ok r ∧ r.period = .year ∧
      Shows r.time (number y) (chosenMonth cfg.monthOfYear (nowOf cfg sysNow).month)
        (chosenDay cfg.dayOfMonth (nowOf cfg sysNow).day
          (monthLen (number y) (chosenMonth cfg.monthOfYear (nowOf cfg sysNow).month))) 0 0 0 0 ∧
      r.time.loc = (nowOf cfg sysNow).loc := by
  obtain ⟨s, h1, h2, h3⟩ := year_parts cfg sysNow mf o ho y hy hy2
  have := C09_month_and_day_filled cfg sysNow mf tz y s h1 (number y) (by rw [h2]) (by rw [h2]) (by rw [h2])
    (by omega) (by
      intro t ht
      rw [h3] at ht
      cases ht
      show y.length ≠ 2
      rw [hy.2]; omega) (by rw [h3]) (by rw [h3]) hf hx hl
  obtain ⟨b1, b2, b3, _⟩ := (nowOf cfg sysNow).year_month_day_valid
  have hmm : 1 ≤ chosenMonth cfg.monthOfYear (nowOf cfg sysNow).month ∧
      chosenMonth cfg.monthOfYear (nowOf cfg sysNow).month ≤ 12 := by
    unfold chosenMonth; split <;> omega
  exact ⟨_, this, rfl, shows_goDate (chosenDay_isDate _ _ _ _ hmm.1 hmm.2 b3) clock0 (hf.noJump _), rfl⟩

example : Four "2015".toList ∧ IsMonthName "Feb".toList 2 ∧ IsSeparator " ".toList ∧
    MonthYear "Feb".toList "2015".toList " ".toList "2015 Feb".toList ∧
    [DayOfMonth.first, .last, .current].map (fun p => dayOf (absoluteParse
      { dateOrder := "DMY".toList, dayOfMonth := p, currentTime := goDate 2016 3 31 10 0 0 0 Loc.utc }
      Time.zero (fun _ => true) "2015 Feb".toList none)) =
    [some (2015, 2, 1, .month), some (2015, 2, 28, .month), some (2015, 2, 28, .month)] ∧
    [MonthOfYear.first, .last, .current].map (fun p => dayOf (absoluteParse
      { dateOrder := "DMY".toList, monthOfYear := p, currentTime := goDate 2016 3 31 10 0 0 0 Loc.utc }
      Time.zero (fun _ => true) "2015".toList none)) =
    [some (2015, 1, 31, .year), some (2015, 12, 31, .year), some (2015, 3, 31, .year)] := by
  refine ⟨?_, ?_, ?_, MonthYear.ym, ?_, ?_⟩
  · unfold Four; decide
  · unfold IsMonthName; decide
  · unfold IsSeparator; decide
  · decide +kernel
  · decide +kernel

/-- Finding: on the 29th of any month "February 2015" is a day of another year: the current day is put
in before the leap year search. -/
theorem C09_february_on_the_29th : dayOf (absoluteParse
    { dateOrder := "DMY".toList, currentTime := goDate 2015 5 29 10 0 0 0 Loc.utc }
    Time.zero (fun _ => true) "February 2015".toList none) = some (2016, 2, 29, .month) := by decide +kernel

/-- Finding: with a time in the string PreferredDayOfMonth is not followed. -/
theorem C09_time_hides_preference : dayOf (absoluteParse
    { dateOrder := "DMY".toList, dayOfMonth := .first, currentTime := goDate 2015 5 20 10 0 0 0 Loc.utc }
    Time.zero (fun _ => true) "March 2015 10:00".toList none) = some (2015, 3, 20, .month) := by decide +kernel

end Verif.Props
