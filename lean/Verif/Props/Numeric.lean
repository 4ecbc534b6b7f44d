import Verif.Spec.Preferences
import Verif.Lemmas.Steps
/-! # C03: complete numeric dates -/
set_option autoImplicit false
namespace Verif.Props
open Verif.Go Verif.Model Verif.Lemmas Verif.Spec

theorem digits_not_skipped {s : List Char} (h : IsNumeral s) : skippedTokens.contains s = false := by
  rw [← Bool.not_eq_true, List.contains_iff_mem]
  intro hm
  simp only [skippedTokens, List.mem_cons, List.not_mem_nil, or_false] at hm
  rcases hm with rfl | rfl | rfl | rfl
  · exact absurd (h.2 't' (by decide)) (by decide)
  · exact absurd (h.2 'y' (by decide)) (by decide)
  · exact absurd (h.2 'h' (by decide)) (by decide)
  · exact absurd (h.2 'm' (by decide)) (by decide)

/-- `Init` on three numbers. -/
theorem absInit_digits3 (e : AEnv) (a b c s1 s2 : List Char) (ha : IsNumeral a) (hb : IsNumeral b)
    (hc : IsNumeral c) (hs : SepPair s1 s2) (str : List Char) (hstr : str = a ++ s1 ++ b ++ s2 ++ c) :
    absInit e str =
      match valueSteps e 0 [⟨a, .digit⟩, ⟨b, .digit⟩, ⟨c, .digit⟩] {} with
      | none => .error .error
      | some s => .ok (fallbacks s) := by
  refine absInit_three e ⟨a, .digit⟩ ⟨b, .digit⟩ ⟨c, .digit⟩ s1 s2 (wdOK_digits ha) (wdOK_digits hb)
    (wdOK_digits hc) (sepOK_of hs.1) (sepOK_of hs.2.1) ?_
    ⟨digits_not_skipped ha, digits_not_skipped hb, digits_not_skipped hc⟩ str hstr
  intro t1 t2 r1 r2 toks fl i ft hft
  have nodot : ∀ s t, SepRel s t → '.' ∉ s → t ≠ ['.'] := by
    rintro s t hr hn rfl
    rcases hr.mem '.' (by simp) with h | h
    · exact hn h
    · exact absurd h (by decide)
  have h1 : tokTextAt toks 1 = t1 := rfl
  have h3 : tokTextAt toks 3 = t2 := rfl
  have h5 : tokTextAt toks 5 = [] := rfl
  apply captureTime_none
  · match i, hft with
    | 0, hft => cases hft; exact digits_no_colon ha.2
    | 1, hft => cases hft; exact digits_no_colon hb.2
    | 2, hft => cases hft; exact digits_no_colon hc.2
  · match i, hft with
    | 0, hft =>
      cases hft
      rcases hs.2.2 with ⟨d1, d2⟩ | ⟨d1, d2⟩
      · left; exact nodot _ _ r1 d1
      · right; right; right
        intro n hn
        cases hn
        exact ⟨by show (1 : Nat) ≠ 2; decide, r2.dot d2⟩
    | 1, hft =>
      cases hft
      rcases hs.2.2 with ⟨d1, d2⟩ | ⟨d1, d2⟩
      · left; exact nodot _ _ r2 d2
      · right; right; left; exact ⟨by simp, r1.dot d1⟩
    | 2, hft => cases hft; left; simp [h5]
  · match i, hft with
    | 0, hft => intro m hm; cases hm; exact findMeridian_digits hb.2
    | 1, hft => intro m hm; cases hm; exact findMeridian_digits hc.2
    | 2, hft => intro m hm; cases hm

/-- What the token loop finds in a complete numeric date. -/
theorem numeric_steps (e : AEnv) (hfp : e.fns.partValue = gregPartValue) (o w : Order)
    (ho : toLower e.cfg.dateOrder = o.letters) (hw : o.Agrees w) (d m y : List Char) (hd : Short d) (hm : Short m)
    (hy : Four y) (hdate : IsDate (number y) (number m) (number d)) (hy2 : 2 ≤ number y) :
    ∃ s : ASt, valueSteps e 0 [⟨(w.pick d m y).1, .digit⟩, ⟨(w.pick d m y).2.1, .digit⟩, ⟨(w.pick d m y).2.2, .digit⟩] {} =
        some s ∧
      s.vals = { day := some (natOfDigits d), month := some (natOfDigits m), year := some (natOfDigits y) } ∧
      s.ctoks = { day := some ⟨d, .digit⟩, month := some ⟨m, .digit⟩, year := some ⟨y, .digit⟩ } := by
  have hv := (valid_iff _ _ _).mpr hdate
  rw [number_eq, number_eq, number_eq] at hv
  rw [number_eq] at hy2
  obtain ⟨v1, v2, v3, v4⟩ := hv
  dsimp only at v1 v2 v3 v4
  have v5 := daysIn_le (natOfDigits y) (natOfDigits m)
  -- values of the tokens
  have d_d : gregPartValue .day d .d2 = some (natOfDigits d) := by
    rw [partValue_day hd.1.2 hd.1.1, if_pos ⟨hd.2, v3, by omega⟩]
  have m_d : gregPartValue .day m .d2 = some (natOfDigits m) := by
    rw [partValue_day hm.1.2 hm.1.1, if_pos ⟨hm.2, v1, by omega⟩]
  have y_d : gregPartValue .day y .d2 = none := by
    rw [partValue_day hy.1.2 hy.1.1, if_neg]; have := hy.2; omega
  have m_m : gregPartValue .month m .m1 = some (natOfDigits m) := by
    rw [partValue_month hm.1.2 hm.1.1, if_pos ⟨hm.2, v1, by omega⟩]
  have d_m : gregPartValue .month d .m1 = if natOfDigits d ≤ 12 then some (natOfDigits d) else none := by
    rw [partValue_month hd.1.2 hd.1.1]
    by_cases h : natOfDigits d ≤ 12
    · rw [if_pos ⟨hd.2, v3, h⟩, if_pos h]
    · rw [if_neg (by omega), if_neg h]
  have y_m : gregPartValue .month y .m1 = none := by
    rw [partValue_month hy.1.2 hy.1.1, if_neg]; have := hy.2; omega
  have y_y : gregPartValue .year y .y2006 = some (natOfDigits y) := by
    rw [partValue_year4 hy.1.2 hy.1.1, if_pos ⟨hy.2, by omega⟩]
  have d0 : natOfDigits d ≠ 0 := by omega
  have m0 : natOfDigits m ≠ 0 := by omega
  have y0 : natOfDigits y ≠ 0 := by omega
  have ly : y.length = 4 := hy.2
  have ld : d.length ≠ 4 := by have := hd.2; omega
  have lm : m.length ≠ 4 := by have := hm.2; omega
  have hnd : numberDirectives e.cfg.dateOrder = o.letters.filterMap fun c =>
      if c == 'd' then some (.day, [.d2])
      else if c == 'm' then some (.month, [.m1])
      else if c == 'y' then some (.year, [.y2006, .y06])
      else none := by unfold numberDirectives; rw [ho]
  have hdm : gregPartValue .month d .m1 = some (natOfDigits d) ∨ gregPartValue .month d .m1 = none := by
    rw [d_m]; split <;> simp
  cases o <;> cases w <;> first | (exact absurd hw.1 (by decide)) | (exact absurd hw.2 (by decide)) |
    (rcases hdm with hdm | hdm <;>
    simp [Order.pick, valueSteps, valueStep, hnd, Order.letters, parseDigitToken, digitDirLoop, hfp, d_d, m_d,
      y_d, m_m, y_m, y_y, Vals.get0, Vals.get, setAndReturn, CToks.set, CToks.get, saveResults, Vals.set,
      d0, m0, y0, ly, ld, lm, hdm])

/-- **C03** A complete numeric date in the configured order, or with the year earlier (such as 2015-03-05 where the order is
month, day, year), is exactly that day at midnight, with
Period Day, for every configuration with this order, every current time, every time zone, and
whatever Go's map iteration order is.  `y ≥ 2`: the years 0000 and 0001 are misread, see
`C03_year_zero`, `C03_year_one`. -/
theorem C03_numeric_date_order (cfg : Cfg) (sysNow : Time) (mf : Nat → Bool) (tz : Option Tz) (o w : Order)
    (ho : toLower cfg.dateOrder = o.letters) (hw : o.Agrees w) (d m y s1 s2 : List Char) (hd : Short d) (hm : Short m)
    (hy : Four y) (hs : SepPair s1 s2) (hdate : IsDate (number y) (number m) (number d))
    (hy2 : 2 ≤ number y) :
    absoluteParse cfg sysNow mf (w.write d m y s1 s2) tz =
      .ok { period := .day
            time := goDate (number y) (number m) (number d) 0 0 0 0
              (if cfg.currentTime.isZero then sysNow else cfg.currentTime).loc } := by
  unfold absoluteParse
  simp only
  generalize he : (AEnv.mk gregFns cfg sysNow mf) = e
  have hf : e.fns = gregFns := by rw [← he]
  have hfp : e.fns.partValue = gregPartValue := by rw [hf]; rfl
  have hcfg : e.cfg = cfg := by rw [← he]
  have hnow : e.now = if cfg.currentTime.isZero then sysNow else cfg.currentTime := by rw [← he]; rfl
  rw [← hnow]
  have hv := (valid_iff _ _ _).mpr hdate
  rw [number_eq, number_eq, number_eq] at hv ⊢
  rw [number_eq] at hy2
  obtain ⟨v1, v2, v3, v4⟩ := hv
  dsimp only at v1 v2 v3 v4
  have v5 := daysIn_le (natOfDigits y) (natOfDigits m)
  have d0 : natOfDigits y ≠ 0 := by omega
  obtain ⟨s, hst, hvals, hct⟩ := numeric_steps e hfp o w (by rw [hcfg]; exact ho) hw d m y hd hm hy hdate
    (by rw [number_eq]; exact hy2)
  have hnum : IsNumeral (w.pick d m y).1 ∧ IsNumeral (w.pick d m y).2.1 ∧ IsNumeral (w.pick d m y).2.2 := by
    cases w <;> simp [Order.pick, hd.1, hm.1, hy.1]
  have hi := absInit_digits3 e _ _ _ s1 s2 hnum.1 hnum.2.1 hnum.2.2 hs _ (Order.write_pick w d m y s1 s2)
  rw [hst] at hi
  rw [hi]
  have hfb : fallbacks s = s := by
    simp [fallbacks, fallback1, hvals, Vals.get]
  dsimp only
  rw [hfb]
  refine absParse_full e hf s tz (natOfDigits y) (natOfDigits m) (natOfDigits d) (by rw [hvals])
    (by rw [hvals]) (by rw [hvals]) ⟨v1, v2, v3, v4⟩ d0 (by rw [hct]) ⟨d, .digit⟩ ⟨m, .digit⟩
    (by rw [hct]) (by rw [hct]) ?_
  intro t ht
  rw [hct] at ht
  simp only [Option.some.injEq] at ht
  rw [← ht]
  show y.length ≠ 2
  have := hy.2
  omega

/-- **C03** in the configured order. -/
theorem C03_numeric_date (cfg : Cfg) (sysNow : Time) (mf : Nat → Bool) (tz : Option Tz) (o : Order)
    (ho : toLower cfg.dateOrder = o.letters) (d m y s1 s2 : List Char) (hd : Short d) (hm : Short m)
    (hy : Four y) (hs : SepPair s1 s2) (hdate : IsDate (number y) (number m) (number d))
    (hy2 : 2 ≤ number y) :
    absoluteParse cfg sysNow mf (o.write d m y s1 s2) tz =
      .ok { period := .day
            time := goDate (number y) (number m) (number d) 0 0 0 0
              (if cfg.currentTime.isZero then sysNow else cfg.currentTime).loc } :=
  C03_numeric_date_order cfg sysNow mf tz o o ho o.agrees_self d m y s1 s2 hd hm hy hs hdate hy2

/-- **C03**, as seen on the result: the day written, at midnight (in any zone without a jump at this
midnight, so in every fixed-offset zone). -/
theorem C03_numeric_date_shows (cfg : Cfg) (sysNow : Time) (mf : Nat → Bool) (tz : Option Tz) (o : Order)
    (ho : toLower cfg.dateOrder = o.letters) (d m y s1 s2 : List Char) (hd : Short d) (hm : Short m)
    (hy : Four y) (hs : SepPair s1 s2) (hdate : IsDate (number y) (number m) (number d))
    (hy2 : 2 ≤ number y)
    (hj : (if cfg.currentTime.isZero then sysNow else cfg.currentTime).loc.NoJump
      (wallOf (number y) (number m) (number d) 0 0 0 0)) :
    ∃ r, absoluteParse cfg sysNow mf (o.write d m y s1 s2) tz = .ok r ∧ r.period = .day ∧
      Shows r.time (number y) (number m) (number d) 0 0 0 0 :=
  ⟨_, C03_numeric_date cfg sysNow mf tz o ho d m y s1 s2 hd hm hy hs hdate hy2, rfl,
    shows_goDate hdate clock0 hj⟩

/-- The hypotheses are met by e.g. "29/02/2024" with order DMY, "12.5.2015" with MDY. -/
example : Short "29".toList ∧ Short "2".toList ∧ Four "2024".toList ∧
    SepPair "/".toList " - ".toList ∧ SepPair ".".toList ".".toList ∧
    IsDate (number "2024".toList) (number "2".toList) (number "29".toList) ∧
    2 ≤ number "2024".toList ∧ toLower "DmY".toList = Order.dmy.letters := by
  unfold Short Four IsNumeral SepPair IsSeparator
  decide

/-- Year, month, day and period of a result. -/
def dayOf (r : Except Fault DateRes) : Option (Int × Int × Int × Period) :=
  r.toOption.map fun r => (r.time.year, r.time.month, r.time.day, r.period)

/-- The bound on the year is needed.  Finding: the year 0001 is not understood at all … -/
theorem C03_year_one : dayOf (absoluteParse { dateOrder := "DMY".toList } Time.zero (fun _ => true)
    "05/06/0001".toList none) = none := by decide +kernel

/-- … and 0000 means the current year. -/
theorem C03_year_zero :
    dayOf (absoluteParse
      { dateOrder := "DMY".toList, currentTime := goDate 2015 1 1 0 0 0 0 Loc.utc } Time.zero
      (fun _ => true) "05/06/0000".toList none) = some (2015, 6, 5, .day) := by decide +kernel

/-- The condition on periods is needed: "1.12/2015" is read as the time 01:12 in the year 2015. -/
theorem C03_mixed_period :
    dayOf (absoluteParse
      { dateOrder := "DMY".toList, currentTime := goDate 2014 7 20 0 0 0 0 Loc.utc } Time.zero
      (fun _ => true) "1.12/2015".toList none) = some (2015, 7, 20, .year) := by decide +kernel

/-- 2015-03-05 agrees with the order month, day, year. -/
example : Order.mdy.Agrees .ymd ∧ Order.dmy.Agrees .ydm ∧ ¬ Order.dmy.Agrees .ymd ∧ ¬ Order.ymd.Agrees .mdy := by
  unfold Order.Agrees
  decide

/-- The conditions on the order are needed: with day, month, year the text "2015-03-05" is the 3rd of May. -/
theorem C03_year_first_swapped :
    dayOf (absoluteParse
      { dateOrder := "DMY".toList, currentTime := goDate 2014 7 20 0 0 0 0 Loc.utc } Time.zero
      (fun _ => true) "2015-03-05".toList none) = some (2015, 5, 3, .day) := by decide +kernel

/-- Finding: with the order year, month, day a leading zero changes the date: "3/5/2015" is the 5th of March, "03/05/2015" the
3rd of May. -/
theorem C03_padding_matters :
    dayOf (absoluteParse
      { dateOrder := "YMD".toList, currentTime := goDate 2014 7 20 0 0 0 0 Loc.utc } Time.zero
      (fun _ => true) "3/5/2015".toList none) = some (2015, 3, 5, .day) ∧
    dayOf (absoluteParse
      { dateOrder := "YMD".toList, currentTime := goDate 2014 7 20 0 0 0 0 Loc.utc } Time.zero
      (fun _ => true) "03/05/2015".toList none) = some (2015, 5, 3, .day) := by decide +kernel

end Verif.Props
