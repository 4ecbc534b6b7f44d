import Verif.Props.MonthDay
/-! # C07: two digit years -/
set_option autoImplicit false
namespace Verif.Props
open Verif.Go Verif.Model Verif.Lemmas Verif.Spec

theorem C07_pivot (n : Int) (h : 0 ≤ n ∧ n ≤ 99) :
    1969 ≤ pivotYear n ∧ pivotYear n ≤ 2068 ∧ pivotYear n % 100 = n := by
  unfold pivotYear; split <;> omega

/-- **C07** for every string in which the absolute parser finds a day, a month and a year written with
two characters. -/
theorem C07_century_follows_preference (cfg : Cfg) (sysNow : Time) (mf : Nat → Bool) (tz : Option Tz)
    (str : List Char) (s : ASt) (hs : partsOf cfg sysNow mf str = .ok s) (y m d : Int) (ty : Tok)
    (hm : s.vals.month = some m) (hd : s.vals.day = some d) (hy : s.vals.year = some y)
    (hty : s.ctoks.year = some ty) (hlen : ty.text.length = 2) (hy0 : y ≠ 0)
    (hdate : IsDate y m d) (hf : (nowOf cfg sysNow).loc.IsFixed) (r : DateRes)
    (hr : absoluteParse cfg sysNow mf str tz = .ok r) :
    ∃ H M S ns p, ClockFor s H M S ns p ∧
      (let now := nowOf cfg sysNow
       let Y := centuryFor cfg.dateSource (now.before (goDate y m d H M S ns now.loc)) y
       r.time = goDate Y m d H M S ns now.loc ∧ (IsDate Y m d → Shows r.time Y m d H M S ns)) := by
  unfold absoluteParse at hr
  unfold partsOf at hs
  simp only [hs] at hr
  have found := absInit_found hs
  generalize he : (AEnv.mk gregFns cfg sysNow mf) = e at hr hs found
  have hfn : e.fns = gregFns := by rw [← he]
  have hcfg : e.cfg = cfg := by rw [← he]
  have hnow : e.now = nowOf cfg sysNow := by rw [← he]; rfl
  obtain ⟨H, M, S, ns, p, dt, dt2, hc, hcr, hfr, hres, _⟩ := absParse_ok hr
  rw [hfn, hcfg, hnow] at hcr
  rw [hcfg, hnow] at hfr
  generalize hnn : nowOf cfg sysNow = now at *
  have hm0 : m ≠ 0 := by have := hdate.1; omega
  have hd0 : d ≠ 0 := by have := hdate.2.2.1; omega
  simp only [hm, hd, hy, orNow, hm0, hd0, hy0, if_false] at hcr
  have hcr' : gregCreate cfg y m d H M S ns now.loc = .ok dt := hcr
  rw [gregCreate_valid cfg y m d H M S ns now.loc hdate.1 hdate.2.1 hdate] at hcr'
  have hdt := Except.ok.inj hcr'
  have cd : s.ctoks.day.isSome = true := by have := found.isSome .day; simpa [CToks.get, Vals.get, hd] using this
  have cm : s.ctoks.month.isSome = true := by have := found.isSome .month; simpa [CToks.get, Vals.get, hm] using this
  have cm' : s.ctoks.month.isNone = false := by cases h : s.ctoks.month <;> simp_all
  have S1 := shows_goDate (l := now.loc) hdate hc.ok (hf.noJump _)
  have addY : ∀ k, (goDate y m d H M S ns now.loc).addDate k 0 0 = goDate (y + k) m d H M S ns now.loc := by
    intro k
    unfold Time.addDate
    rw [S1.year, S1.month, S1.day, S1.hour, S1.minute, S1.second, S1.nanosecond, Int.add_zero, Int.add_zero]
    rfl
  have fr : correctForTimeFrame cfg now s tz dt =
      .ok (goDate (centuryFor cfg.dateSource (now.before (goDate y m d H M S ns now.loc)) y) m d H M S ns now.loc) := by
    unfold correctForTimeFrame
    rw [frameWeekday_skip cfg s dt (Or.inr (Or.inl cm))]
    simp only [frameMonth, hy, Option.isNone_some, Bool.and_false, Bool.false_eq_true, if_false, frameYear2, hty,
      hlen, if_true, frameTime, cm', Bool.false_and, ← hdt, addY]
    unfold centuryFor
    cases now.before (goDate y m d H M S ns now.loc) <;> cases cfg.dateSource <;> simp <;> rfl
  rw [fr] at hfr
  have hdt2 := Except.ok.inj hfr
  have ht : r.time = goDate (centuryFor cfg.dateSource (now.before (goDate y m d H M S ns now.loc)) y) m d H M S ns now.loc := by
    rw [hres]
    simp only [correctForDay, correctForMonth, cd, cm, Bool.true_or, if_true, ← hdt2]
  refine ⟨H, M, S, ns, p, hc, ht, ?_⟩
  intro hd'
  rw [ht]
  exact shows_goDate hd' hc.ok (hf.noJump _)

set_option maxHeartbeats 4000000 in
theorem twoDigit_parts (cfg : Cfg) (sysNow : Time) (mf : Nat → Bool) (o : Order)
    (ho : toLower cfg.dateOrder = o.letters) (d m y s1 s2 : List Char) (hd : Short d) (hm : Short m)
    (hy : Two y) (hs : SepPair s1 s2)
    (hdate : IsDate (pivotYear (number y)) (number m) (number d)) :
    ∃ s, partsOf cfg sysNow mf (o.write d m y s1 s2) = .ok s ∧
      s.vals = { day := some (number d), month := some (number m), year := some (pivotYear (number y)) } ∧
      s.ctoks.year = some ⟨y, .digit⟩ ∧ s.ctoks.time = none := by
  unfold partsOf
  generalize he : (AEnv.mk gregFns cfg sysNow mf) = e
  have hf : e.fns = gregFns := by rw [← he]
  have hfp : e.fns.partValue = gregPartValue := by rw [hf]; rfl
  have hcfg : e.cfg = cfg := by rw [← he]
  have hv := (valid_iff _ _ _).mpr hdate
  rw [number_eq, number_eq, number_eq] at hv ⊢
  obtain ⟨v1, v2, v3, v4⟩ := hv
  dsimp only at v1 v2 v3 v4
  have v5 := daysIn_le (pivotYear (natOfDigits y)) (natOfDigits m)
  have d_d : gregPartValue .day d .d2 = some (natOfDigits d) := by
    rw [partValue_day hd.1.2 hd.1.1, if_pos ⟨hd.2, v3, by omega⟩]
  have m_d : gregPartValue .day m .d2 = some (natOfDigits m) := by
    rw [partValue_day hm.1.2 hm.1.1, if_pos ⟨hm.2, v1, by omega⟩]
  have m_m : gregPartValue .month m .m1 = some (natOfDigits m) := by
    rw [partValue_month hm.1.2 hm.1.1, if_pos ⟨hm.2, v1, by omega⟩]
  have y_y4 : gregPartValue .year y .y2006 = none := by
    rw [partValue_year4 hy.1.2 hy.1.1, if_neg]; have := hy.2; omega
  have d_y4 : gregPartValue .year d .y2006 = none := by
    rw [partValue_year4 hd.1.2 hd.1.1, if_neg]; have := hd.2; omega
  have m_y4 : gregPartValue .year m .y2006 = none := by
    rw [partValue_year4 hm.1.2 hm.1.1, if_neg]; have := hm.2; omega
  have y_y : gregPartValue .year y .y06 = some (pivotYear (natOfDigits y)) := by
    rw [partValue_year2 hy.1.2 hy.1.1, if_pos hy.2]
    unfold pivotYear
    split <;> rw [Int.add_comm]
  have d_m : gregPartValue .month d .m1 = some (natOfDigits d) ∨ gregPartValue .month d .m1 = none := by
    rw [partValue_month hd.1.2 hd.1.1]; split <;> simp
  have y_d : gregPartValue .day y .d2 = some (natOfDigits y) ∨ gregPartValue .day y .d2 = none := by
    rw [partValue_day hy.1.2 hy.1.1]; split <;> simp
  have y_m : gregPartValue .month y .m1 = some (natOfDigits y) ∨ gregPartValue .month y .m1 = none := by
    rw [partValue_month hy.1.2 hy.1.1]; split <;> simp
  have d_y : (∃ v, gregPartValue .year d .y06 = some v) ∨ gregPartValue .year d .y06 = none := by
    cases gregPartValue .year d .y06 <;> simp
  have m_y : (∃ v, gregPartValue .year m .y06 = some v) ∨ gregPartValue .year m .y06 = none := by
    cases gregPartValue .year m .y06 <;> simp
  have d0 : natOfDigits d ≠ 0 := by omega
  have m0 : natOfDigits m ≠ 0 := by omega
  have hyr := (natOfDigits_range hy.1.2).1
  have y0 : pivotYear (natOfDigits y) ≠ 0 := by unfold pivotYear; split <;> omega
  have ly : y.length ≠ 4 := by have := hy.2; omega
  have ld : d.length ≠ 4 := by have := hd.2; omega
  have lm : m.length ≠ 4 := by have := hm.2; omega
  have hnd : numberDirectives cfg.dateOrder = o.letters.filterMap fun c =>
      if c == 'd' then some (.day, [.d2])
      else if c == 'm' then some (.month, [.m1])
      else if c == 'y' then some (.year, [.y2006, .y06])
      else none := by unfold numberDirectives; rw [ho]
  have fin : ∀ a b c str, IsNumeral a → IsNumeral b → IsNumeral c → str = a ++ s1 ++ b ++ s2 ++ c →
      (∃ s : ASt, valueSteps e 0 [⟨a, .digit⟩, ⟨b, .digit⟩, ⟨c, .digit⟩] {} = some s ∧
        s.vals = { day := some (natOfDigits d), month := some (natOfDigits m), year := some (pivotYear (natOfDigits y)) } ∧
        s.ctoks.year = some ⟨y, .digit⟩ ∧ s.ctoks.time = none) →
      ∃ s : ASt, absInit e str = .ok s ∧
        s.vals = { day := some (natOfDigits d), month := some (natOfDigits m), year := some (pivotYear (natOfDigits y)) } ∧
        s.ctoks.year = some ⟨y, .digit⟩ ∧ s.ctoks.time = none := by
    rintro a b c str ha hb hc hstr ⟨s, h1, h2⟩
    refine ⟨s, ?_, h2⟩
    rw [absInit_digits3 e a b c s1 s2 ha hb hc hs str hstr, h1]
    simp [fallbacks, fallback1, h2.1, Vals.get]
  cases o
  case dmy =>
    refine fin d m y _ hd.1 hm.1 hy.1 rfl ?_
    rcases d_m with d_m | d_m <;> rcases y_d with y_d | y_d <;> rcases y_m with y_m | y_m <;>
    simp [valueSteps, valueStep, hcfg, hnd, Order.letters, parseDigitToken, digitDirLoop, hfp, d_d, m_d,
      y_d, m_m, y_m, y_y, y_y4, Vals.get0, Vals.get, setAndReturn, CToks.set, CToks.get, saveResults, Vals.set,
      d0, m0, y0, ly, ld, lm, d_m]
  case dym =>
    refine fin d y m _ hd.1 hy.1 hm.1 rfl ?_
    rcases d_m with d_m | d_m <;> rcases y_d with y_d | y_d <;> rcases m_y with ⟨v, m_y⟩ | m_y <;>
    simp [valueSteps, valueStep, hcfg, hnd, Order.letters, parseDigitToken, digitDirLoop, hfp, d_d, m_d,
      y_d, m_m, m_y, y_y, y_y4, m_y4, Vals.get0, Vals.get, setAndReturn, CToks.set, CToks.get, saveResults, Vals.set,
      d0, m0, y0, ly, ld, lm, d_m]
  case mdy =>
    refine fin m d y _ hm.1 hd.1 hy.1 rfl ?_
    rcases d_m with d_m | d_m <;> rcases y_d with y_d | y_d <;> rcases y_m with y_m | y_m <;>
    simp [valueSteps, valueStep, hcfg, hnd, Order.letters, parseDigitToken, digitDirLoop, hfp, d_d, m_d,
      y_d, m_m, y_m, y_y, y_y4, Vals.get0, Vals.get, setAndReturn, CToks.set, CToks.get, saveResults, Vals.set,
      d0, m0, y0, ly, ld, lm, d_m]
  case myd =>
    refine fin m y d _ hm.1 hy.1 hd.1 rfl ?_
    rcases d_m with d_m | d_m <;> rcases y_m with y_m | y_m <;> rcases d_y with ⟨v, d_y⟩ | d_y <;>
    simp [valueSteps, valueStep, hcfg, hnd, Order.letters, parseDigitToken, digitDirLoop, hfp, d_d, m_d,
      d_y, m_m, y_m, y_y, y_y4, d_y4, Vals.get0, Vals.get, setAndReturn, CToks.set, CToks.get, saveResults, Vals.set,
      d0, m0, y0, ly, ld, lm, d_m]
  case ymd =>
    refine fin y m d _ hy.1 hm.1 hd.1 rfl ?_
    rcases d_m with d_m | d_m <;> rcases m_y with ⟨v, m_y⟩ | m_y <;> rcases d_y with ⟨w, d_y⟩ | d_y <;>
    simp [valueSteps, valueStep, hcfg, hnd, Order.letters, parseDigitToken, digitDirLoop, hfp, d_d, m_d,
      d_y, m_y, m_m, y_y, y_y4, d_y4, m_y4, Vals.get0, Vals.get, setAndReturn, CToks.set, CToks.get, saveResults, Vals.set,
      d0, m0, y0, ly, ld, lm, d_m]
  case ydm =>
    refine fin y d m _ hy.1 hd.1 hm.1 rfl ?_
    rcases d_m with d_m | d_m <;> rcases m_y with ⟨v, m_y⟩ | m_y <;> rcases d_y with ⟨w, d_y⟩ | d_y <;>
    simp [valueSteps, valueStep, hcfg, hnd, Order.letters, parseDigitToken, digitDirLoop, hfp, d_d, m_d,
      d_y, m_y, m_m, y_y, y_y4, d_y4, m_y4, Vals.get0, Vals.get, setAndReturn, CToks.set, CToks.get, saveResults, Vals.set,
      d0, m0, y0, ly, ld, lm, d_m]

/-- **C07** A numeric date with a two digit year in the configured order: the year of 1969..2068 with
these last digits, moved by exactly a century as the preference says. -/
theorem C07_two_digit_year (cfg : Cfg) (sysNow : Time) (mf : Nat → Bool) (tz : Option Tz) (o : Order)
    (ho : toLower cfg.dateOrder = o.letters) (d m y s1 s2 : List Char) (hd : Short d) (hm : Short m)
    (hy : Two y) (hs : SepPair s1 s2)
    (hdate : IsDate (pivotYear (number y)) (number m) (number d)) (hf : (nowOf cfg sysNow).loc.IsFixed) :
    let now := nowOf cfg sysNow
    let Y := centuryFor cfg.dateSource
      (now.before (goDate (pivotYear (number y)) (number m) (number d) 0 0 0 0 now.loc)) (pivotYear (number y))
    ∃ r, absoluteParse cfg sysNow mf (o.write d m y s1 s2) tz = .ok r ∧ r.period = .day ∧
      r.time = goDate Y (number m) (number d) 0 0 0 0 now.loc ∧
      (IsDate Y (number m) (number d) → Shows r.time Y (number m) (number d) 0 0 0 0) := by
  intro now Y
  obtain ⟨s, hi, hv, hty, ht⟩ := twoDigit_parts cfg sysNow mf o ho d m y s1 s2 hd hm hy hs hdate
  have hn : ClockFor s 0 0 0 0 none := Or.inl ⟨ht, rfl, rfl, rfl, rfl, rfl⟩
  have hyr := (natOfDigits_range hy.1.2).1
  have y0 : pivotYear (number y) ≠ 0 := by rw [number_eq]; unfold pivotYear; split <;> omega
  have hok : ∃ r, absoluteParse cfg sysNow mf (o.write d m y s1 s2) tz = .ok r ∧ r.period = .day := by
    unfold absoluteParse
    unfold partsOf at hi
    simp only [hi]
    generalize he : (AEnv.mk gregFns cfg sysNow mf) = e at hi
    have hfn : e.fns = gregFns := by rw [← he]
    have hcfg : e.cfg = cfg := by rw [← he]
    have m0 : number m ≠ 0 := by have := hdate.1; omega
    have d0 : number d ≠ 0 := by have := hdate.2.2.1; omega
    have fr : ∀ dt, correctForTimeFrame e.cfg e.now s tz dt =
        .ok (frameTime e.cfg e.now s tz (frameYear2 e.cfg e.now s (frameMonth e.cfg e.now s dt))) := by
      intro dt
      unfold correctForTimeFrame
      rw [frameWeekday_skip e.cfg s dt (Or.inl (by rw [hty]; rfl))]
    have := absParse_intro (e := e) (tz := tz) hn (by
      rw [hfn]
      simp only [hv, orNow, m0, d0, y0, if_false]
      exact gregCreate_valid _ _ _ _ _ _ _ _ _ hdate.1 hdate.2.1 hdate) (fr _)
      (by simp [checkStrictParsing, missingParts, hv, Vals.get])
    refine ⟨_, this, ?_⟩
    simp [periodFor, getPeriod, hv]
  obtain ⟨r, hr, hp⟩ := hok
  obtain ⟨H, M, S, ns, p, hc, h1, h2⟩ := C07_century_follows_preference cfg sysNow mf tz _ s hi
    (pivotYear (number y)) (number m) (number d) ⟨y, .digit⟩ (by simp [hv]) (by simp [hv]) (by simp [hv]) hty hy.2
    y0 hdate hf r hr
  have hz : H = 0 ∧ M = 0 ∧ S = 0 ∧ ns = 0 := by
    rcases hc with ⟨_, a, b, c, dd, _⟩ | ⟨tk, t, q, h5, _⟩
    · exact ⟨a, b, c, dd⟩
    · rw [ht] at h5; cases h5
  obtain ⟨rfl, rfl, rfl, rfl⟩ := hz
  exact ⟨r, hr, hp, h1, h2⟩

/-- The date after the move exists except for 29 February 2000. -/
theorem C07_only_exception (src : DateSource) (later : Bool) (n m d : Int) (hn : 0 ≤ n ∧ n ≤ 99)
    (h : IsDate (pivotYear n) m d) (hx : ¬ (n = 0 ∧ m = 2 ∧ d = 29)) :
    IsDate (centuryFor src later (pivotYear n)) m d := by
  by_cases h29 : m = 2 ∧ d = 29
  · obtain ⟨rfl, rfl⟩ := h29
    rw [isDate_feb29] at h ⊢
    have n0 : n ≠ 0 := fun h => hx ⟨h, rfl, rfl⟩
    have hk : ∀ k, k = 0 ∨ k = 100 ∨ k = -100 → Leap (pivotYear n + k) := by
      intro k hk
      unfold Leap pivotYear at *
      split at h <;> omega
    unfold centuryFor
    split
    · exact hk (-100) (by simp)
    · exact hk 100 (by simp)
    · have := hk 0 (by simp); simpa using this
  · exact isDate_other h h29

example : Short "5".toList ∧ Two "85".toList ∧ SepPair "/".toList "/".toList ∧
    IsDate (pivotYear (number "85".toList)) 2 28 := by
  unfold Short Two IsNumeral SepPair IsSeparator
  decide

/-- On 2015-07-20 "01/08/15" is 2015, but 1915 when the past is preferred; "01/07/15" becomes 2115 when the
future is. -/
example : ([("01/08/15".toList, DateSource.current), ("01/08/15".toList, .past), ("01/07/15".toList, .future)]).map
    (fun x => dayOf (absoluteParse
      { dateOrder := "DMY".toList, dateSource := x.2, currentTime := goDate 2015 7 20 10 0 0 0 Loc.utc }
      Time.zero (fun _ => true) x.1 none)) =
    [some (2015, 8, 1, .day), some (1915, 8, 1, .day), some (2115, 7, 1, .day)] := by decide +kernel

/-- Finding, the exception: 29 February 2000 is moved to 1 March 2100. -/
theorem C07_exception : dayOf (absoluteParse
    { dateOrder := "DMY".toList, dateSource := .future, currentTime := goDate 2016 7 20 10 0 0 0 Loc.utc }
    Time.zero (fun _ => true) "29/02/00".toList none) = some (2100, 3, 1, .day) := by decide +kernel

end Verif.Props
