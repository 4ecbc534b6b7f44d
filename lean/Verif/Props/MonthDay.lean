import Verif.Props.Frames
import Verif.Props.MonthName
/-! # C06: a day and month without year -/
set_option autoImplicit false
namespace Verif.Props
open Verif.Go Verif.Model Verif.Lemmas Verif.Spec

/-- **C06**, for every string in which the absolute parser finds a month `m` and a day `d` but no
year: whatever it returns is this day, at the time of day given (or midnight), in the year that
`PreferredDateSource` asks for. -/
theorem C06_year_follows_preference (cfg : Cfg) (sysNow : Time) (mf : Nat → Bool) (tz : Option Tz)
    (str : List Char) (s : ASt) (hs : partsOf cfg sysNow mf str = .ok s) (m d : Int)
    (hm : s.vals.month = some m) (hd : s.vals.day = some d) (hy : s.vals.year = none)
    (hex : ∃ y, IsDate y m d) (hf : (nowOf cfg sysNow).loc.IsFixed) (r : DateRes)
    (hr : absoluteParse cfg sysNow mf str tz = .ok r) :
    ∃ Y H M S ns p, ClockFor s H M S ns p ∧ IsDate Y m d ∧
      Shows r.time Y m d H M S ns ∧ r.time.loc = (nowOf cfg sysNow).loc ∧
      RightYear cfg.dateSource (nowOf cfg sysNow) m d H M S ns Y := by
  unfold absoluteParse at hr
  unfold partsOf at hs
  simp only [hs] at hr
  have found := absInit_found hs
  generalize he : (AEnv.mk gregFns cfg sysNow mf) = e at hr hs found
  have hfn : e.fns = gregFns := by rw [← he]
  have hcfg : e.cfg = cfg := by rw [← he]
  have hnow : e.now = nowOf cfg sysNow := by rw [← he]; rfl
  obtain ⟨H, M, S, ns, p, dt, dt2, hc, hcr, hfr, hres, _⟩ := absParse_ok hr
  rw [hfn, hcfg, hnow] at hcr
  rw [hcfg, hnow] at hfr
  have hm0 : m ≠ 0 := by obtain ⟨y, h⟩ := hex; have := h.1; omega
  have hd0 : d ≠ 0 := by obtain ⟨y, h⟩ := hex; have := h.2.2.1; omega
  simp only [hm, hd, hy, orNow, hm0, hd0, if_false] at hcr
  obtain ⟨dt', Y, h1, h2, h3, h4⟩ := frameMonth_year cfg (nowOf cfg sysNow) s m d H M S ns (by simp [hm]) hy
    hex hf hc.ok
  have : dt' = dt := by
    have := h1.symm.trans hcr
    exact Except.ok.inj this
  subst this
  have cd : s.ctoks.day.isSome = true := by have := found.isSome .day; simpa [CToks.get, Vals.get, hd] using this
  have cm : s.ctoks.month.isSome = true := by have := found.isSome .month; simpa [CToks.get, Vals.get, hm] using this
  have cy : s.ctoks.year = none := by
    have := found.isSome .year
    simpa [CToks.get, Vals.get, hy] using this
  have cm' : s.ctoks.month.isNone = false := by cases h : s.ctoks.month <;> simp_all
  have cd' : s.ctoks.day.isNone = false := by cases h : s.ctoks.day <;> simp_all
  have fr : correctForTimeFrame cfg (nowOf cfg sysNow) s tz dt' = .ok (goDate Y m d H M S ns (nowOf cfg sysNow).loc) := by
    unfold correctForTimeFrame
    rw [frameWeekday_skip cfg s dt' (Or.inr (Or.inl cm))]
    simp only [h2, frameYear2, cy, frameTime, cm', Bool.and_false, Bool.false_and, Bool.false_eq_true, if_false]
  rw [fr] at hfr
  have hdt2 := Except.ok.inj hfr
  refine ⟨Y, H, M, S, ns, p, hc, h3, ?_, ?_, h4⟩
  · rw [hres]
    simp only [correctForDay, correctForMonth, cd, cm, Bool.true_or, if_true, ← hdt2]
    exact shows_goDate h3 hc.ok (hf.noJump _)
  · rw [hres]
    simp only [correctForDay, correctForMonth, cd, cm, Bool.true_or, if_true, ← hdt2]
    rfl

theorem absInit_pieces2 (e : AEnv) (p q : Piece) (s1 : List Char) (h1 : IsSeparator s1)
    (hpq : p.apart q) (str : List Char)
    (hstr : str = p.text ++ s1 ++ q.text) :
    absInit e str =
      match valueSteps e 0 [⟨p.text, p.wd.typ⟩, ⟨q.text, q.wd.typ⟩] {} with
      | none => .error .error
      | some s => .ok (fallbacks s) := by
  have := absInit_two e p.wd q.wd s1 p.ok q.ok (sepOK_of h1) ?_
    (by simp only [Piece.wd_text]; exact ⟨p.noskip, q.noskip⟩) str
    (by simp only [Piece.wd_text]; exact hstr)
  · simp only [Piece.wd_text] at this
    exact this
  · intro t1 r1 toks fl i ft hft
    apply captureTime_none
    · match i, hft with
      | 0, hft => cases hft; simp only [Piece.wd_text]; exact p.nocolon
      | 1, hft => cases hft; simp only [Piece.wd_text]; exact q.nocolon
    · right; left
      match i, hft with
      | 0, hft => cases hft; intro n hn; cases hn; simp only [Piece.wd_text]; exact p.not_time q hpq
      | 1, hft => intro n hn; cases hn
    · match i, hft with
      | 0, hft => intro m hm; cases hm; simp only [Piece.wd_text]; exact q.meridian
      | 1, hft => intro m hm; cases hm

set_option maxHeartbeats 4000000 in
/-- What is found in "12 March" and "March 12". -/
theorem dayMonth_parts (cfg : Cfg) (sysNow : Time) (mf : Nat → Bool) (o : Order)
    (ho : toLower cfg.dateOrder = o.letters) (d mon sep str : List Char) (n : Int) (hd : Short d)
    (hmon : IsMonthName mon n) (hs : IsSeparator sep) (hstr : DayMonth d mon sep str)
    (hday : 1 ≤ number d ∧ number d ≤ 31) (hord : Order.dayBeforeYear o ∨ d.length = 1) :
    ∃ s, partsOf cfg sysNow mf str = .ok s ∧ s.vals = { day := some (number d), month := some n } ∧
      s.ctoks.time = none := by
  unfold partsOf
  generalize he : (AEnv.mk gregFns cfg sysNow mf) = e
  have hf : e.fns = gregFns := by rw [← he]
  have hfp : e.fns.partValue = gregPartValue := by rw [hf]; rfl
  have hcfg : e.cfg = cfg := by rw [← he]
  rw [number_eq] at hday ⊢
  have d_d : gregPartValue .day d .d2 = some (natOfDigits d) := by
    rw [partValue_day hd.1.2 hd.1.1, if_pos ⟨hd.2, hday.1, by omega⟩]
  have d_y : gregPartValue .year d .y2006 = none := by
    rw [partValue_year4 hd.1.2 hd.1.1, if_neg]; have := hd.2; omega
  have d_m : gregPartValue .month d .m1 = some (natOfDigits d) ∨ gregPartValue .month d .m1 = none := by
    rw [partValue_month hd.1.2 hd.1.1]; split <;> simp
  have d_y2 : Order.dayBeforeYear o ∨ gregPartValue .year d .y06 = none := by
    rcases hord with h | h
    · exact Or.inl h
    · right; rw [partValue_year2 hd.1.2 hd.1.1, if_neg]; omega
  have d0 : natOfDigits d ≠ 0 := by omega
  have n0 : n ≠ 0 := by have := (monthNames_facts _ hmon).2.2.2.2.2.2.2.1; dsimp only at this; omega
  have ld : d.length ≠ 4 := by have := hd.2; omega
  have hnd : numberDirectives cfg.dateOrder = o.letters.filterMap fun c =>
      if c == 'd' then some (.day, [.d2])
      else if c == 'm' then some (.month, [.m1])
      else if c == 'y' then some (.year, [.y2006, .y06])
      else none := by unfold numberDirectives; rw [ho]
  have hL := letter_month e hfp mon n hmon
  cases hstr with
  | dm =>
    rw [absInit_pieces2 e (.short d hd) (.name mon n hmon) sep hs (by simp [Piece.apart]) (d ++ sep ++ mon) rfl]
    rcases d_y2 with hb | d_y2
    · cases o <;> simp only [Order.dayBeforeYear] at hb <;> rcases d_m with d_m | d_m <;>
      simp [Piece.text, Piece.wd, valueSteps, valueStep, hcfg, hnd, Order.letters, parseDigitToken,
          digitDirLoop, hfp, d_d, d_m, Vals.get0, Vals.get, setAndReturn, CToks.set,
          CToks.get, saveResults, Vals.set, d0, n0, ld, hL, replaceMonthByDay, fallbacks, fallback1]
    · cases o <;> rcases d_m with d_m | d_m <;>
      simp [Piece.text, Piece.wd, valueSteps, valueStep, hcfg, hnd, Order.letters, parseDigitToken,
          digitDirLoop, hfp, d_d, d_m, d_y, d_y2, Vals.get0, Vals.get, setAndReturn, CToks.set,
          CToks.get, saveResults, Vals.set, d0, n0, ld, hL, replaceMonthByDay, fallbacks, fallback1]
  | md =>
    rw [absInit_pieces2 e (.name mon n hmon) (.short d hd) sep hs (by simp [Piece.apart]) (mon ++ sep ++ d) rfl]
    rcases d_y2 with hb | d_y2
    · cases o <;> simp only [Order.dayBeforeYear] at hb <;> rcases d_m with d_m | d_m <;>
      simp [Piece.text, Piece.wd, valueSteps, valueStep, hcfg, hnd, Order.letters, parseDigitToken,
          digitDirLoop, hfp, d_d, d_m, Vals.get0, Vals.get, setAndReturn, CToks.set,
          CToks.get, saveResults, Vals.set, d0, n0, ld, hL, replaceMonthByDay, fallbacks, fallback1]
    · cases o <;> rcases d_m with d_m | d_m <;>
      simp [Piece.text, Piece.wd, valueSteps, valueStep, hcfg, hnd, Order.letters, parseDigitToken,
          digitDirLoop, hfp, d_d, d_m, d_y, d_y2, Vals.get0, Vals.get, setAndReturn, CToks.set,
          CToks.get, saveResults, Vals.set, d0, n0, ld, hL, replaceMonthByDay, fallbacks, fallback1]

/-- **C06** "12 March", "March 12" and the like: the day at midnight in the right year.  The bound on
the order is needed, see `C06_two_digits_taken_as_year`. -/
theorem C06_day_month (cfg : Cfg) (sysNow : Time) (mf : Nat → Bool) (tz : Option Tz) (o : Order)
    (ho : toLower cfg.dateOrder = o.letters) (d mon sep str : List Char) (n : Int) (hd : Short d)
    (hmon : IsMonthName mon n) (hs : IsSeparator sep) (hstr : DayMonth d mon sep str)
    (hex : ∃ y, IsDate y n (number d)) (hord : Order.dayBeforeYear o ∨ d.length = 1)
    (hf : (nowOf cfg sysNow).loc.IsFixed) (hstrict : cfg.strict = false) (hreq : cfg.requiredParts = []) :
    ∃ r Y, absoluteParse cfg sysNow mf str tz = .ok r ∧ r.period = .day ∧
      IsDate Y n (number d) ∧ Shows r.time Y n (number d) 0 0 0 0 ∧ r.time.loc = (nowOf cfg sysNow).loc ∧
      RightYear cfg.dateSource (nowOf cfg sysNow) n (number d) 0 0 0 0 Y := by
  have hday : 1 ≤ number d ∧ number d ≤ 31 := by
    obtain ⟨y, h1, h2, h3, h4⟩ := hex
    rw [← daysIn_eq] at h4
    have := daysIn_le y n
    omega
  obtain ⟨s, hi, hv, ht⟩ := dayMonth_parts cfg sysNow mf o ho d mon sep str n hd hmon hs hstr hday hord
  have hn : ClockFor s 0 0 0 0 none := Or.inl ⟨ht, rfl, rfl, rfl, rfl, rfl⟩
  -- a result is returned
  have hok : ∃ r, absoluteParse cfg sysNow mf str tz = .ok r ∧ r.period = .day := by
    unfold absoluteParse
    unfold partsOf at hi
    simp only [hi]
    have found := absInit_found hi
    generalize he : (AEnv.mk gregFns cfg sysNow mf) = e at hi found
    have hfn : e.fns = gregFns := by rw [← he]
    have hcfg : e.cfg = cfg := by rw [← he]
    have hnow : e.now = nowOf cfg sysNow := by rw [← he]; rfl
    obtain ⟨dt, Y, h1, h2, h3, h4⟩ := frameMonth_year cfg (nowOf cfg sysNow) s n (number d) 0 0 0 0
      (by simp [hv]) (by simp [hv]) hex hf clock0
    have n0 : n ≠ 0 := by obtain ⟨y, h⟩ := hex; have := h.1; omega
    have d0 : number d ≠ 0 := by omega
    have cm : s.ctoks.month.isNone = false := by
      have := found.isSome .month
      cases h : s.ctoks.month <;> simp_all [CToks.get, Vals.get]
    have fr : correctForTimeFrame e.cfg e.now s tz dt =
        .ok (frameTime cfg (nowOf cfg sysNow) s tz (frameYear2 cfg (nowOf cfg sysNow) s (frameMonth cfg (nowOf cfg sysNow) s dt))) := by
      unfold correctForTimeFrame frameWeekday
      rw [hcfg, hnow, cm]
      cases s.ctoks.weekday <;> simp
    have := absParse_intro (e := e) (tz := tz) hn (by
      rw [hfn, hcfg, hnow]
      simp only [hv, orNow, n0, d0, if_false]
      exact h1) fr (by simp [checkStrictParsing, hcfg, hstrict, hreq])
    refine ⟨_, this, ?_⟩
    simp [periodFor, getPeriod, hv]
  obtain ⟨r, hr, hp⟩ := hok
  obtain ⟨Y, H, M, S, ns, p, hc, h1, h2, h3, h4⟩ := C06_year_follows_preference cfg sysNow mf tz str s hi n
    (number d) (by simp [hv]) (by simp [hv]) (by simp [hv]) hex hf r hr
  have hz : H = 0 ∧ M = 0 ∧ S = 0 ∧ ns = 0 := by
    rcases hc with ⟨_, a, b, c, dd, _⟩ | ⟨tk, t, q, h5, _⟩
    · exact ⟨a, b, c, dd⟩
    · rw [ht] at h5; cases h5
  obtain ⟨rfl, rfl, rfl, rfl⟩ := hz
  exact ⟨r, Y, hr, hp, h1, h2, h3, h4⟩

/-- What `RightYear` gives a user: never on the wrong side of the current time. -/
theorem C06_side (src : DateSource) (now : Time) (m d H M S ns Y : Int)
    (h : RightYear src now m d H M S ns Y) :
    (src = .past → now.before (goDate Y m d H M S ns now.loc) = false) ∧
    (src = .future → now.before (goDate Y m d H M S ns now.loc) = true) := by
  constructor
  · rintro rfl; exact h.1
  · rintro rfl; exact h.1

example : Short "29".toList ∧ IsMonthName "FEB".toList 2 ∧ IsSeparator " ".toList ∧
    DayMonth "29".toList "FEB".toList " ".toList "29 FEB".toList ∧
    (∃ y, IsDate y 2 (number "29".toList)) ∧ Order.dayBeforeYear .dmy ∧ Loc.utc.IsFixed := by
  refine ⟨?_, ?_, ?_, DayMonth.dm, ⟨2024, ?_⟩, trivial, Loc.utc_isFixed⟩
  · unfold Short IsNumeral; decide
  · unfold IsMonthName; decide
  · unfold IsSeparator; decide
  · decide

/-- On 2015-03-01 "29 FEB" is 2012 with Past, 2016 with Future and the nearest, 2016, otherwise. -/
example : (["current", "past", "future"].zip [DateSource.current, .past, .future]).map (fun x =>
    dayOf (absoluteParse
      { dateOrder := "DMY".toList, dateSource := x.2, currentTime := goDate 2015 3 1 10 0 0 0 Loc.utc }
      Time.zero (fun _ => true) "29 FEB".toList none)) =
    [some (2016, 2, 29, .day), some (2012, 2, 29, .day), some (2016, 2, 29, .day)] := by decide +kernel

/-- Finding: with the order YMD (also YDM, and MYD for `March 12`) two digits beside a month name are
taken for a year. -/
theorem C06_two_digits_taken_as_year : dayOf (absoluteParse
    { dateOrder := "YMD".toList, currentTime := goDate 2015 7 20 10 0 0 0 Loc.utc }
    Time.zero (fun _ => true) "12 March".toList none) = some (2012, 3, 20, .month) := by decide +kernel

/-- Finding: without a day the preference is applied before the day is filled in, so that "March" can
be later than now although `Past` is preferred. -/
theorem C06_month_only_wrong_side : dayOf (absoluteParse
    { dateOrder := "MDY".toList, dateSource := .past, dayOfMonth := .last,
      currentTime := goDate 2016 3 20 10 0 0 0 Loc.utc }
    Time.zero (fun _ => true) "March".toList none) = some (2016, 3, 31, .month) := by decide +kernel

end Verif.Props
