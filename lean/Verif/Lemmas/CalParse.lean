import Verif.Spec.Calendars
import Verif.Props.MonthName
import Verif.Lemmas.WholeParse
/-! Helper lemmas: the absolute parser in other calendars. -/
set_option autoImplicit false
namespace Verif.Lemmas
open Verif.Go Verif.Model Verif.Spec Verif.Props

/-- What `Parse` makes of complete values, in any calendar. -/
theorem absParse_create (e : AEnv) (s : ASt) (tz : Option Tz) (y m d : Int)
    (hy : s.vals.year = some y) (hm : s.vals.month = some m) (hd : s.vals.day = some d)
    (hy0 : y ≠ 0) (hm0 : m ≠ 0) (hd0 : d ≠ 0) (ht : s.ctoks.time = none)
    (td tm : Tok) (hctd : s.ctoks.day = some td) (hctm : s.ctoks.month = some tm)
    (hcty : ∀ t, s.ctoks.year = some t → t.text.length ≠ 2) :
    absParse e s tz = (e.fns.create e.cfg y m d 0 0 0 0 e.now.loc).map fun t => { period := .day, time := t } := by
  have hmiss : missingParts s = [] := by
    simp [missingParts, Vals.get, hy, hm, hd]
  have hstrict : checkStrictParsing e.cfg ((missingParts s).map Comp.name) = true := by
    rw [hmiss]; simp [checkStrictParsing]
  unfold absParse
  rw [hstrict]
  simp only [Bool.not_true, Bool.false_eq_true, if_false, ht, hy, hm, hd, orNow]
  rw [if_neg hy0, if_neg hm0, if_neg hd0]
  cases hcreate : e.fns.create e.cfg y m d 0 0 0 0 e.now.loc with
  | error f => rfl
  | ok t =>
    simp only [correctForTimeFrame, frameWeekday, frameMonth, frameYear2, frameTime, hctd, hctm, ht,
      Option.isNone_some, Bool.and_false, Bool.false_eq_true, if_false, Option.isSome_none, Bool.false_and,
      hy, correctForDay, correctForMonth, Option.isSome_some, Bool.true_or, if_true, getPeriod, hd, Except.map]
    cases hw : s.ctoks.weekday <;> cases hyt : s.ctoks.year with
    | none => simp
    | some t => simp [hcty t hyt]

section
variable {isDigit : Char → Bool} {two : Int → Int} {month : List Char → Option Int}

/-- `unicode.IsDigit` is right about ASCII. -/
def DigitsOk (isDigit : Char → Bool) : Prop := ∀ c : Char, c.toNat < 128 → isDigit c = c.isDigit

theorem digit_ascii {c : Char} (h : c.isDigit = true) : c.toNat < 128 := by
  have := digit_range h; omega

theorem byteLen_digits : ∀ {s : List Char}, (∀ c ∈ s, c.isDigit = true) → byteLen s = s.length
  | [], _ => rfl
  | c :: s, h => by
    have ih := byteLen_digits (s := s) fun x hx => h x (by simp [hx])
    have hc := digit_ascii (h c (by simp))
    unfold byteLen at ih ⊢
    simp only [List.map_cons, List.sum_cons, List.length_cons]
    have : c.utf8Size = 1 := by
      unfold Char.utf8Size
      have h' : c.val ≤ 127 := by
        have : c.val.toNat < 128 := hc
        exact UInt32.le_iff_toNat_le.mpr (by show c.val.toNat ≤ 127; omega)
      simp [h']
    first | omega | (rw [this, ih]; omega)

theorem all_ok (hok : DigitsOk isDigit) {s : List Char} (h : ∀ c ∈ s, c.isDigit = true) : s.all isDigit = true ∧ s.all Char.isDigit = true := by
  constructor
  · exact List.all_eq_true.mpr fun c hc => by rw [hok c (digit_ascii (h c hc))]; exact h c hc
  · exact List.all_eq_true.mpr h

theorem cal_day (hok : DigitsOk isDigit) {s : List Char} (h : ∀ c ∈ s, c.isDigit = true) (dir : Dir) :
    calPartValue isDigit two month .day s dir = if s.length ≤ 2 ∧ 1 ≤ natOfDigits s ∧ natOfDigits s ≤ 30 then some (natOfDigits s) else none := by
  simp [calPartValue, all_ok hok h, byteLen_digits h]

theorem cal_month (hok : DigitsOk isDigit) {s : List Char} (h : ∀ c ∈ s, c.isDigit = true) :
    calPartValue isDigit two month .month s .m1 = if s.length ≤ 2 ∧ 1 ≤ natOfDigits s ∧ natOfDigits s ≤ 12 then some (natOfDigits s) else none := by
  simp [calPartValue, all_ok hok h, byteLen_digits h]

theorem cal_year4 (hok : DigitsOk isDigit) {s : List Char} (h : ∀ c ∈ s, c.isDigit = true) (hl : s.length = 4) (dir : Dir) :
    calPartValue isDigit two month .year s dir = some (natOfDigits s) := by
  simp [calPartValue, all_ok hok h, byteLen_digits h, hl]

theorem cal_year2 (hok : DigitsOk isDigit) {s : List Char} (h : ∀ c ∈ s, c.isDigit = true) (hl : s.length ≤ 2) (dir : Dir) :
    calPartValue isDigit two month .year s dir = if s.length = 2 then some (two (natOfDigits s)) else none := by
  have : s.length ≠ 4 := by omega
  simp [calPartValue, all_ok hok h, byteLen_digits h, this]

/-- What the token loop finds in a complete numeric date. -/
theorem cal_numeric_steps (e : AEnv) (hok : DigitsOk isDigit) (hfp : e.fns.partValue = calPartValue isDigit two month) (o w : Order)
    (ho : toLower e.cfg.dateOrder = o.letters) (hw : o.Agrees w) (d m y : List Char) (hd : Short d) (hm : Short m)
    (hy : Four y) (v1 : 1 ≤ natOfDigits m) (v2 : natOfDigits m ≤ 12) (v3 : 1 ≤ natOfDigits d) (v4 : natOfDigits d ≤ 30) (hy1 : 1 ≤ natOfDigits y) :
    ∃ s : ASt, valueSteps e 0 [⟨(w.pick d m y).1, .digit⟩, ⟨(w.pick d m y).2.1, .digit⟩, ⟨(w.pick d m y).2.2, .digit⟩] {} =
        some s ∧
      s.vals = { day := some (natOfDigits d), month := some (natOfDigits m), year := some (natOfDigits y) } ∧
      s.ctoks = { day := some ⟨d, .digit⟩, month := some ⟨m, .digit⟩, year := some ⟨y, .digit⟩ } := by
  have d_d : calPartValue isDigit two month .day d .d2 = some (natOfDigits d) := by
    rw [cal_day hok hd.1.2, if_pos ⟨hd.2, v3, v4⟩]
  have m_d : calPartValue isDigit two month .day m .d2 = some (natOfDigits m) := by
    rw [cal_day hok hm.1.2, if_pos ⟨hm.2, v1, by omega⟩]
  have y_d : calPartValue isDigit two month .day y .d2 = none := by
    rw [cal_day hok hy.1.2, if_neg]; have := hy.2; omega
  have m_m : calPartValue isDigit two month .month m .m1 = some (natOfDigits m) := by
    rw [cal_month hok hm.1.2, if_pos ⟨hm.2, v1, by omega⟩]
  have d_m : calPartValue isDigit two month .month d .m1 = if natOfDigits d ≤ 12 then some (natOfDigits d) else none := by
    rw [cal_month hok hd.1.2]
    by_cases h : natOfDigits d ≤ 12
    · rw [if_pos ⟨hd.2, v3, h⟩, if_pos h]
    · rw [if_neg (by omega), if_neg h]
  have y_m : calPartValue isDigit two month .month y .m1 = none := by
    rw [cal_month hok hy.1.2, if_neg]; have := hy.2; omega
  have y_y : calPartValue isDigit two month .year y .y2006 = some (natOfDigits y) := cal_year4 hok hy.1.2 hy.2 _
  have d0 : natOfDigits d ≠ 0 := by omega
  have m0 : natOfDigits m ≠ 0 := by omega
  have y0 : natOfDigits y ≠ 0 := by omega
  have ly : y.length = 4 := hy.2
  have ld : d.length ≠ 4 := by have := hd.2; omega
  have lm : m.length ≠ 4 := by have := hm.2; omega
  have hnd : numberDirectives e.cfg.dateOrder = o.letters.filterMap fun c =>
      if c == 'd' then some (.day, [.d2])
      else if c == 'm' then some (.month, [.m1])
      else if c == 'y' then some (.year, [.y2006, .y06])
      else none := by unfold numberDirectives; rw [ho]
  have hdm : calPartValue isDigit two month .month d .m1 = some (natOfDigits d) ∨ calPartValue isDigit two month .month d .m1 = none := by
    rw [d_m]; split <;> simp
  cases o <;> cases w <;> first | (exact absurd hw.1 (by decide)) | (exact absurd hw.2 (by decide)) |
    (rcases hdm with hdm | hdm <;>
    simp [Order.pick, valueSteps, valueStep, hnd, Order.letters, parseDigitToken, digitDirLoop, hfp, d_d, m_d,
      y_d, m_m, y_m, y_y, Vals.get0, Vals.get, setAndReturn, CToks.set, CToks.get, saveResults, Vals.set,
      d0, m0, y0, ly, ld, lm, hdm])

/-- A day above 30 is refused. -/
theorem cal_late_steps (e : AEnv) (hok : DigitsOk isDigit) (hfp : e.fns.partValue = calPartValue isDigit two month) (o w : Order)
    (ho : toLower e.cfg.dateOrder = o.letters) (hw : o.Agrees w) (d m y : List Char) (hd : Short d) (hm : Short m)
    (hy : Four y) (v1 : 1 ≤ natOfDigits m) (v2 : natOfDigits m ≤ 12) (v3 : 30 < natOfDigits d) (hy1 : 1 ≤ natOfDigits y)
    (htwo : two (natOfDigits d) ≠ 0) :
    valueSteps e 0 [⟨(w.pick d m y).1, .digit⟩, ⟨(w.pick d m y).2.1, .digit⟩, ⟨(w.pick d m y).2.2, .digit⟩] {} = none := by
  have d_d : calPartValue isDigit two month .day d .d2 = none := by
    rw [cal_day hok hd.1.2, if_neg (by omega)]
  have m_d : calPartValue isDigit two month .day m .d2 = some (natOfDigits m) := by
    rw [cal_day hok hm.1.2, if_pos ⟨hm.2, v1, by omega⟩]
  have y_d : calPartValue isDigit two month .day y .d2 = none := by
    rw [cal_day hok hy.1.2, if_neg]; have := hy.2; omega
  have m_m : calPartValue isDigit two month .month m .m1 = some (natOfDigits m) := by
    rw [cal_month hok hm.1.2, if_pos ⟨hm.2, v1, by omega⟩]
  have d_m : calPartValue isDigit two month .month d .m1 = none := by
    rw [cal_month hok hd.1.2, if_neg (by omega)]
  have y_m : calPartValue isDigit two month .month y .m1 = none := by
    rw [cal_month hok hy.1.2, if_neg]; have := hy.2; omega
  have y_y : ∀ dir, calPartValue isDigit two month .year y dir = some (natOfDigits y) := cal_year4 hok hy.1.2 hy.2
  have d_y : (∀ dir, calPartValue isDigit two month .year d dir = some (two (natOfDigits d))) ∨
      ∀ dir, calPartValue isDigit two month .year d dir = none := by
    by_cases h : d.length = 2
    · left; intro dir; rw [cal_year2 hok hd.1.2 hd.2, if_pos h]
    · right; intro dir; rw [cal_year2 hok hd.1.2 hd.2, if_neg h]
  have m_y : (∀ dir, calPartValue isDigit two month .year m dir = some (two (natOfDigits m))) ∨
      ∀ dir, calPartValue isDigit two month .year m dir = none := by
    by_cases h : m.length = 2
    · left; intro dir; rw [cal_year2 hok hm.1.2 hm.2, if_pos h]
    · right; intro dir; rw [cal_year2 hok hm.1.2 hm.2, if_neg h]
  have m0 : natOfDigits m ≠ 0 := by omega
  have y0 : natOfDigits y ≠ 0 := by omega
  have ly : y.length = 4 := hy.2
  have ld : d.length ≠ 4 := by have := hd.2; omega
  have lm : m.length ≠ 4 := by have := hm.2; omega
  have hnd : numberDirectives e.cfg.dateOrder = o.letters.filterMap fun c =>
      if c == 'd' then some (.day, [.d2])
      else if c == 'm' then some (.month, [.m1])
      else if c == 'y' then some (.year, [.y2006, .y06])
      else none := by unfold numberDirectives; rw [ho]
  cases o <;> cases w <;> first | (exact absurd hw.1 (by decide)) | (exact absurd hw.2 (by decide)) |
    (rcases d_y with d_y | d_y <;>
    simp [Order.pick, valueSteps, valueStep, hnd, Order.letters, parseDigitToken, digitDirLoop, hfp, d_d, m_d,
      y_d, m_m, d_m, y_m, y_y, d_y, Vals.get0, Vals.get, setAndReturn, CToks.set, CToks.get, saveResults, Vals.set,
      m0, y0, ly, ld, lm, htwo])

/-! ## Month names -/

/-- What the token loop finds in a date with a month name, day first. -/
theorem cal_name_steps (e : AEnv) (hok : DigitsOk isDigit) (hfp : e.fns.partValue = calPartValue isDigit two month) (o : Order)
    (ho : toLower e.cfg.dateOrder = o.letters) (hod : o = .dmy ∨ o = .dym ∨ o = .mdy) (d mon y : List Char) (n : Int) (hd : Short d)
    (hmon : month mon = some n) (hy : Four y)
    (v1 : 1 ≤ n) (v3 : 1 ≤ natOfDigits d) (v4 : natOfDigits d ≤ 30) (hy1 : 1 ≤ natOfDigits y) :
    ∃ s : ASt, valueSteps e 0 [⟨d, .digit⟩, ⟨mon, .letter⟩, ⟨y, .digit⟩] {} = some s ∧
      s.vals = { day := some (natOfDigits d), month := some n, year := some (natOfDigits y) } ∧
      s.ctoks = { day := some ⟨d, .digit⟩, month := some ⟨mon, .letter⟩, year := some ⟨y, .digit⟩ } := by
  have d_d : calPartValue isDigit two month .day d .d2 = some (natOfDigits d) := by
    rw [cal_day hok hd.1.2, if_pos ⟨hd.2, v3, v4⟩]
  have y_d : calPartValue isDigit two month .day y .d2 = none := by
    rw [cal_day hok hy.1.2, if_neg]; have := hy.2; omega
  have d_m : calPartValue isDigit two month .month d .m1 = some (natOfDigits d) ∨ calPartValue isDigit two month .month d .m1 = none := by
    rw [cal_month hok hd.1.2]; split <;> simp
  have y_m : calPartValue isDigit two month .month y .m1 = none := by
    rw [cal_month hok hy.1.2, if_neg]; have := hy.2; omega
  have y_y : calPartValue isDigit two month .year y .y2006 = some (natOfDigits y) := cal_year4 hok hy.1.2 hy.2 _
  have m_m : calPartValue isDigit two month .month mon .mJanuary = some n := by simp [calPartValue, hmon]
  have m_w : ∀ dir, calPartValue isDigit two month .weekday mon dir = none := fun _ => rfl
  have d0 : natOfDigits d ≠ 0 := by omega
  have n0 : n ≠ 0 := by omega
  have y0 : natOfDigits y ≠ 0 := by omega
  have ly : y.length = 4 := hy.2
  have ld : d.length ≠ 4 := by have := hd.2; omega
  have hnd : numberDirectives e.cfg.dateOrder = o.letters.filterMap fun c =>
      if c == 'd' then some (.day, [.d2])
      else if c == 'm' then some (.month, [.m1])
      else if c == 'y' then some (.year, [.y2006, .y06])
      else none := by unfold numberDirectives; rw [ho]
  rcases hod with rfl | rfl | rfl <;> rcases d_m with d_m | d_m <;> cases hmf : e.monthFirst 1 <;>
    simp [valueSteps, valueStep, hnd, Order.letters, parseDigitToken, digitDirLoop, hfp, d_d, d_m, m_m, m_w, hmf,
      y_d, y_m, y_y, Vals.get0, Vals.get, setAndReturn, CToks.set, CToks.get, saveResults, Vals.set, alphaDirectives, parseLetterToken, letterDirLoop,
      replaceMonthByDay, d0, n0, y0, ly, ld]

/-- A day above 30 is refused. -/
theorem cal_late_name_steps (e : AEnv) (hok : DigitsOk isDigit) (hfp : e.fns.partValue = calPartValue isDigit two month) (o : Order)
    (ho : toLower e.cfg.dateOrder = o.letters) (d mon y : List Char) (n : Int) (hd : Short d)
    (hmon : month mon = some n) (hy : Four y)
    (v1 : 1 ≤ n) (v3 : 30 < natOfDigits d) (hy1 : 1 ≤ natOfDigits y) (htwo : two (natOfDigits d) ≠ 0) :
    valueSteps e 0 [⟨d, .digit⟩, ⟨mon, .letter⟩, ⟨y, .digit⟩] {} = none := by
  have d_d : calPartValue isDigit two month .day d .d2 = none := by
    rw [cal_day hok hd.1.2, if_neg (by omega)]
  have y_d : calPartValue isDigit two month .day y .d2 = none := by
    rw [cal_day hok hy.1.2, if_neg]; have := hy.2; omega
  have d_m : calPartValue isDigit two month .month d .m1 = none := by
    rw [cal_month hok hd.1.2, if_neg (by omega)]
  have y_m : calPartValue isDigit two month .month y .m1 = none := by
    rw [cal_month hok hy.1.2, if_neg]; have := hy.2; omega
  have y_y : ∀ dir, calPartValue isDigit two month .year y dir = some (natOfDigits y) := cal_year4 hok hy.1.2 hy.2
  have d_y : (∀ dir, calPartValue isDigit two month .year d dir = some (two (natOfDigits d))) ∨
      ∀ dir, calPartValue isDigit two month .year d dir = none := by
    by_cases h : d.length = 2
    · left; intro dir; rw [cal_year2 hok hd.1.2 hd.2, if_pos h]
    · right; intro dir; rw [cal_year2 hok hd.1.2 hd.2, if_neg h]
  have m_m : calPartValue isDigit two month .month mon .mJanuary = some n := by simp [calPartValue, hmon]
  have m_w : ∀ dir, calPartValue isDigit two month .weekday mon dir = none := fun _ => rfl
  have n0 : n ≠ 0 := by omega
  have y0 : natOfDigits y ≠ 0 := by omega
  have ly : y.length = 4 := hy.2
  have ld : d.length ≠ 4 := by have := hd.2; omega
  have hnd : numberDirectives e.cfg.dateOrder = o.letters.filterMap fun c =>
      if c == 'd' then some (.day, [.d2])
      else if c == 'm' then some (.month, [.m1])
      else if c == 'y' then some (.year, [.y2006, .y06])
      else none := by unfold numberDirectives; rw [ho]
  cases o <;> rcases d_y with d_y | d_y <;> cases hmf : e.monthFirst 1 <;>
    simp [valueSteps, valueStep, hnd, Order.letters, parseDigitToken, digitDirLoop, hfp, d_d, d_m, m_m, m_w, hmf,
      y_d, y_m, y_y, d_y, Vals.get0, Vals.get, setAndReturn, CToks.set, CToks.get, saveResults, Vals.set, alphaDirectives, parseLetterToken, letterDirLoop,
      replaceMonthByDay, n0, y0, ly, ld, htwo]

/-- `Init` on a number, a word that is no meridian, and a year. -/
theorem absInit_name (e : AEnv) (d mon y : List Char) (hd : Short d) (hmon : mon.all isLetterTok = true) (hne : mon ≠ [])
    (hskip : skippedTokens.contains mon = false) (hmer : findMeridian mon = []) (hy : Four y) :
    absInit e (d ++ ' ' :: (mon ++ ' ' :: y)) =
      match valueSteps e 0 [⟨d, .digit⟩, ⟨mon, .letter⟩, ⟨y, .digit⟩] {} with
      | none => .error .error
      | some s => .ok (fallbacks s) := by
  have hrun : Run .letter mon := fun c hc => by
    have hl := List.all_eq_true.mp hmon c hc
    exact classOf_letter hl
  have hmok : (Wd.mk mon .letter).OK := ⟨hne, hrun, by simp⟩
  have hletter : ∃ c ∈ mon, classOf c = .letter := by
    cases h : mon with
    | nil => exact absurd h hne
    | cons c cs => exact ⟨c, by simp, hrun c (by simp [h])⟩
  have hs : IsSeparator [' '] := by unfold IsSeparator; decide
  refine absInit_three e ⟨d, .digit⟩ ⟨mon, .letter⟩ ⟨y, .digit⟩ [' '] [' '] (wdOK_digits hd.1) hmok (wdOK_digits hy.1) (sepOK_of hs) (sepOK_of hs) ?_
    ⟨digits_not_skipped hd.1, hskip, digits_not_skipped hy.1⟩ _ (by simp)
  intro t1 t2 r1 r2 toks fl i ft hft
  apply captureTime_none
  · match i, hft with
    | 0, hft => cases hft; exact digits_no_colon hd.1.2
    | 1, hft => cases hft; exact letter_no_colon hrun
    | 2, hft => cases hft; exact digits_no_colon hy.1.2
  · right; left
    match i, hft with
    | 0, hft => cases hft; intro n hn; cases hn; exact not_hm_letter (Or.inr hletter)
    | 1, hft => cases hft; intro n hn; cases hn; exact not_hm_letter (Or.inl hletter)
    | 2, hft => intro n hn; cases hn
  · match i, hft with
    | 0, hft => intro m hm; cases hm; exact hmer
    | 1, hft => intro m hm; cases hm; exact findMeridian_digits hy.1.2
    | 2, hft => intro m hm; cases hm

end
end Verif.Lemmas
