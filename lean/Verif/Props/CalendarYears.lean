import Verif.Props.Calendars
import Verif.Props.TwoDigitYear
/-! # C35: Jalali and Hijri years of two digits -/
set_option autoImplicit false
namespace Verif.Props
open Verif.Go Verif.Model Verif.Data Verif.Lemmas Verif.Spec

/-- The Hijri date as it is. -/
theorem hijri_create {lib : HijriLib} {y m d : Int} (v1 : 1 ≤ m) (v2 : m ≤ 12)
    (v4 : d ≤ 29 ∨ (d = 30 ∧ (m % 2 = 1 ∨ (m = 12 ∧ isHijriLeap lib y = true)))) (cfg : Cfg) (H M S ns : Int) (l : Loc) :
    hijriCreate lib cfg y m d H M S ns l =
      .ok (goDate (lib.toGregorian y m d).1 (lib.toGregorian y m d).2.1 (lib.toGregorian y m d).2.2 H M S ns l) := by
  unfold hijriCreate
  have hno : ¬ (d = 30 ∧ m = 12 ∧ (!isHijriLeap lib y) = true) := by
    rintro ⟨h1, h2, h3⟩
    rcases v4 with v4 | ⟨_, v4 | ⟨_, v4⟩⟩
    · omega
    · omega
    · rw [v4] at h3; simp at h3
  rw [if_neg hno]
  simp only [bind, pure, Except.bind, Except.pure]
  have hlast : ¬ d > lastDayOfHijriMonth lib y m := by
    unfold lastDayOfHijriMonth
    rcases v4 with v4 | ⟨v4, v5 | ⟨v5, v6⟩⟩
    · split
      · omega
      · split <;> omega
    · rw [if_neg (by omega), if_neg]
      · omega
      · rw [Int.tmod_eq_emod_of_nonneg (by omega)]; omega
    · rw [if_pos ⟨v5, v6⟩]; omega
  rw [if_neg hlast]

/-- What `Parse` makes of complete values, in any calendar, if the century is left alone. -/
theorem absParse_create2 (e : AEnv) (s : ASt) (tz : Option Tz) (y m d : Int)
    (hy : s.vals.year = some y) (hm : s.vals.month = some m) (hd : s.vals.day = some d)
    (hy0 : y ≠ 0) (hm0 : m ≠ 0) (hd0 : d ≠ 0) (ht : s.ctoks.time = none)
    (td tm : Tok) (hctd : s.ctoks.day = some td) (hctm : s.ctoks.month = some tm) (t : Time)
    (hcreate : e.fns.create e.cfg y m d 0 0 0 0 e.now.loc = .ok t)
    (hfr : frameYear2 e.cfg e.now s t = t) :
    absParse e s tz = .ok { period := .day, time := t } := by
  have hmiss : missingParts s = [] := by simp [missingParts, Vals.get, hy, hm, hd]
  have hstrict : checkStrictParsing e.cfg ((missingParts s).map Comp.name) = true := by
    rw [hmiss]; simp [checkStrictParsing]
  have hctf : correctForTimeFrame e.cfg e.now s tz t = .ok t := by
    unfold correctForTimeFrame
    rw [frameWeekday_skip _ _ _ (by simp [hctd])]
    have h1 : ∀ t, frameMonth e.cfg e.now s t = t := by intro t; simp [frameMonth, hy]
    have h3 : ∀ t, frameTime e.cfg e.now s tz t = t := by intro t; simp [frameTime, hctd]
    dsimp only
    rw [h1, hfr, h3]
  rw [absParse_intro (Or.inl ⟨ht, rfl, rfl, rfl, rfl, rfl⟩) (by
    rw [hy, hm, hd]
    simp only [orNow]
    rw [if_neg hy0, if_neg hm0, if_neg hd0]
    exact hcreate) hctf hstrict]
  have h4 : ∀ t, correctForMonth e s t = t := by intro t; simp [correctForMonth, hctm]
  have h5 : ∀ t, correctForDay e s t = t := by intro t; simp [correctForDay, hctd]
  rw [h4, h5]
  simp [periodFor, getPeriod, hd]

section
variable {isDigit : Char → Bool} {two : Int → Int} {month : List Char → Option Int}

set_option maxHeartbeats 4000000 in
/-- What the token loop finds in a numeric date with a year of two digits. -/
theorem cal_two_steps (e : AEnv) (hok : DigitsOk isDigit) (hfp : e.fns.partValue = calPartValue isDigit two month) (o : Order)
    (ho : toLower e.cfg.dateOrder = o.letters) (d m y : List Char) (hd : Short d) (hm : Short m)
    (hy : Two y) (v1 : 1 ≤ natOfDigits m) (v2 : natOfDigits m ≤ 12) (v3 : 1 ≤ natOfDigits d) (v4 : natOfDigits d ≤ 30) (hy1 : two (natOfDigits y) ≠ 0) :
    ∃ s : ASt, valueSteps e 0 [⟨(o.pick d m y).1, .digit⟩, ⟨(o.pick d m y).2.1, .digit⟩, ⟨(o.pick d m y).2.2, .digit⟩] {} =
        some s ∧
      s.vals = { day := some (natOfDigits d), month := some (natOfDigits m), year := some (two (natOfDigits y)) } ∧
      s.ctoks = { day := some ⟨d, .digit⟩, month := some ⟨m, .digit⟩, year := some ⟨y, .digit⟩ } := by
  have d_d : calPartValue isDigit two month .day d .d2 = some (natOfDigits d) := by
    rw [cal_day hok hd.1.2, if_pos ⟨hd.2, v3, v4⟩]
  have m_m : calPartValue isDigit two month .month m .m1 = some (natOfDigits m) := by
    rw [cal_month hok hm.1.2, if_pos ⟨hm.2, v1, by omega⟩]
  have y_y : ∀ dir, calPartValue isDigit two month .year y dir = some (two (natOfDigits y)) := by
    intro dir
    rw [cal_year2 hok hy.1.2 (by have := hy.2; omega), if_pos hy.2]
  have d0 : natOfDigits d ≠ 0 := by omega
  have m0 : natOfDigits m ≠ 0 := by omega
  have ly : y.length ≠ 4 := by have := hy.2; omega
  have ld : d.length ≠ 4 := by have := hd.2; omega
  have lm : m.length ≠ 4 := by have := hm.2; omega
  have hnd : numberDirectives e.cfg.dateOrder = o.letters.filterMap fun c =>
      if c == 'd' then some (.day, [.d2])
      else if c == 'm' then some (.month, [.m1])
      else if c == 'y' then some (.year, [.y2006, .y06])
      else none := by unfold numberDirectives; rw [ho]
  have m_d : calPartValue isDigit two month .day m .d2 = some (natOfDigits m) := by
    rw [cal_day hok hm.1.2, if_pos ⟨hm.2, v1, by omega⟩]
  have some_none : ∀ c t dir, (∃ v, calPartValue isDigit two month c t dir = some v) ∨ calPartValue isDigit two month c t dir = none := by
    intro c t dir
    cases calPartValue isDigit two month c t dir <;> simp
  have y_d := some_none .day y .d2
  have y_m := some_none .month y .m1
  have d_m := some_none .month d .m1
  have d_y : (∃ v, ∀ dir, calPartValue isDigit two month .year d dir = some v) ∨ ∀ dir, calPartValue isDigit two month .year d dir = none := by
    by_cases h : d.length = 2
    · left; exact ⟨_, fun dir => by rw [cal_year2 hok hd.1.2 hd.2, if_pos h]⟩
    · right; intro dir; rw [cal_year2 hok hd.1.2 hd.2, if_neg h]
  have m_y : (∃ v, ∀ dir, calPartValue isDigit two month .year m dir = some v) ∨ ∀ dir, calPartValue isDigit two month .year m dir = none := by
    by_cases h : m.length = 2
    · left; exact ⟨_, fun dir => by rw [cal_year2 hok hm.1.2 hm.2, if_pos h]⟩
    · right; intro dir; rw [cal_year2 hok hm.1.2 hm.2, if_neg h]
  cases o
  case dmy =>
    rcases y_d with ⟨_, y_d⟩ | y_d <;> rcases y_m with ⟨_, y_m⟩ | y_m <;>
    simp [Order.pick, valueSteps, valueStep, hnd, Order.letters, parseDigitToken, digitDirLoop, hfp, d_d, m_d, y_d, y_m,
      m_m, y_y, Vals.get0, Vals.get, setAndReturn, CToks.set, CToks.get, saveResults, Vals.set,
      d0, m0, hy1, ly, ld, lm]
  case dym =>
    rcases y_d with ⟨_, y_d⟩ | y_d <;> rcases y_m with ⟨_, y_m⟩ | y_m <;> rcases m_y with ⟨_, m_y⟩ | m_y <;>
    simp [Order.pick, valueSteps, valueStep, hnd, Order.letters, parseDigitToken, digitDirLoop, hfp, d_d, m_d, y_d, y_m, m_y,
      m_m, y_y, Vals.get0, Vals.get, setAndReturn, CToks.set, CToks.get, saveResults, Vals.set,
      d0, m0, hy1, ly, ld, lm]
  case mdy =>
    rcases d_m with ⟨_, d_m⟩ | d_m <;> rcases y_m with ⟨_, y_m⟩ | y_m <;> rcases y_d with ⟨_, y_d⟩ | y_d <;>
    simp [Order.pick, valueSteps, valueStep, hnd, Order.letters, parseDigitToken, digitDirLoop, hfp, d_d, m_d, d_m, y_m, y_d,
      m_m, y_y, Vals.get0, Vals.get, setAndReturn, CToks.set, CToks.get, saveResults, Vals.set,
      d0, m0, hy1, ly, ld, lm]
  case myd =>
    rcases y_m with ⟨_, y_m⟩ | y_m <;> rcases y_d with ⟨_, y_d⟩ | y_d <;> rcases d_m with ⟨_, d_m⟩ | d_m <;> rcases d_y with ⟨_, d_y⟩ | d_y <;>
    simp [Order.pick, valueSteps, valueStep, hnd, Order.letters, parseDigitToken, digitDirLoop, hfp, d_d, m_d, y_m, y_d, d_m, d_y,
      m_m, y_y, Vals.get0, Vals.get, setAndReturn, CToks.set, CToks.get, saveResults, Vals.set,
      d0, m0, hy1, ly, ld, lm]
  case ymd =>
    rcases m_y with ⟨_, m_y⟩ | m_y <;> rcases d_y with ⟨_, d_y⟩ | d_y <;> rcases d_m with ⟨_, d_m⟩ | d_m <;>
    simp [Order.pick, valueSteps, valueStep, hnd, Order.letters, parseDigitToken, digitDirLoop, hfp, d_d, m_d, m_y, d_y, d_m,
      m_m, y_y, Vals.get0, Vals.get, setAndReturn, CToks.set, CToks.get, saveResults, Vals.set,
      d0, m0, hy1, ly, ld, lm]
  case ydm =>
    rcases d_y with ⟨_, d_y⟩ | d_y <;> rcases m_y with ⟨_, m_y⟩ | m_y <;> rcases d_m with ⟨_, d_m⟩ | d_m <;>
    simp [Order.pick, valueSteps, valueStep, hnd, Order.letters, parseDigitToken, digitDirLoop, hfp, d_d, m_d, d_y, m_y, d_m,
      m_m, y_y, Vals.get0, Vals.get, setAndReturn, CToks.set, CToks.get, saveResults, Vals.set,
      d0, m0, hy1, ly, ld, lm]
end

/-! ## The texts -/

def shapes2 : List (Nat × Nat × Nat) := [(1, 1, 1), (1, 1, 2), (1, 2, 1), (1, 2, 2), (2, 1, 1), (2, 1, 2), (2, 2, 1), (2, 2, 2)]

theorem cal_passes2 : (['/', '.'].all fun p => shapes2.all fun x =>
    let a := tmpl3 x.1 x.2.1 x.2.2 p
    jalaliPass a a && hijriPass a a) = true := by decide +kernel

theorem tmpl3_sub2 {A B C : List Char} (h : (A.length, B.length, C.length) ∈ shapes2) {sep : Char} (hsep : sep.isDigit = false) :
    (tmpl3 A.length B.length C.length sep).map (sub ('0' :: (A ++ B ++ C))) = A ++ sep :: (B ++ sep :: C) := by
  have hs : ∀ ds, sub ds sep = sep := fun ds => sub_other hsep
  have key : ∀ {i j k : Nat}, (i = 1 ∨ i = 2) → (j = 1 ∨ j = 2) → (k = 1 ∨ k = 2) → A.length = i → B.length = j → C.length = k →
      (tmpl3 i j k sep).map (sub ('0' :: (A ++ B ++ C))) = A ++ sep :: (B ++ sep :: C) := by
    intro i j k hi hj hk hA hB hC
    rcases hi with rfl | rfl <;> rcases hj with rfl | rfl <;> rcases hk with rfl | rfl <;>
      first
      | (obtain ⟨a1, rfl⟩ := len1 hA)
      | (obtain ⟨a1, a2, rfl⟩ := len2 hA)
    all_goals first
      | (obtain ⟨b1, rfl⟩ := len1 hB)
      | (obtain ⟨b1, b2, rfl⟩ := len2 hB)
    all_goals first
      | (obtain ⟨c1, rfl⟩ := len1 hC)
      | (obtain ⟨c1, c2, rfl⟩ := len2 hC)
    all_goals (simp [tmpl3, hs]; and_intros <;> rfl)
  have h' : (A.length = 1 ∨ A.length = 2) ∧ (B.length = 1 ∨ B.length = 2) ∧ (C.length = 1 ∨ C.length = 2) := by
    simp only [shapes2, List.mem_cons, List.not_mem_nil, or_false, Prod.mk.injEq] at h
    omega
  exact key h'.1 h'.2.1 h'.2.2 rfl rfl rfl

section
variable {E : Env} (hE : PersianSurroundings E) {c : PCfg} (hc : c.validate = .ok ())
include hE hc

theorem cal_two_text (w : Order) (d m y : List Char) (hd : Short (d.map asciiDigit)) (hm : Short (m.map asciiDigit))
    (hy : Two (y.map asciiDigit)) (sep : Char) (hsep : sep = '/' ∨ sep = '.') (am : Bool) :
    (jalaliText E.uni (w.write d m y [sep] [sep]) = w.write (d.map asciiDigit) (m.map asciiDigit) (y.map asciiDigit) [sep] [sep] ∧
    hijriText E.uni am (w.write d m y [sep] [sep]) = w.write (d.map asciiDigit) (m.map asciiDigit) (y.map asciiDigit) [sep] [sep]) ∧
    popTzOffset E.table (w.write (d.map asciiDigit) (m.map asciiDigit) (y.map asciiDigit) [sep] [sep]) =
      (w.write (d.map asciiDigit) (m.map asciiDigit) (y.map asciiDigit) [sep] [sep], none) := by
  have hns : NumericSep w sep := hsep.elim Or.inl fun h => Or.inr (Or.inl h)
  have hnorm := numeric_normal hE.persian w (short_any hd.1) (short_any hm.1) (short_any hy.1) hns
  generalize d.map asciiDigit = D at *
  generalize m.map asciiDigit = M at *
  generalize y.map asciiDigit = Y at *
  have hnum : IsNumeral (w.pick D M Y).1 ∧ IsNumeral (w.pick D M Y).2.1 ∧ IsNumeral (w.pick D M Y).2.2 := by
    cases w <;> simp [Order.pick, hd.1, hm.1, hy.1]
  have hsepd : sep.isDigit = false := by rcases hsep with rfl | rfl <;> decide
  have hshape : ((w.pick D M Y).1.length, (w.pick D M Y).2.1.length, (w.pick D M Y).2.2.length) ∈ shapes2 := by
    have h4 := hy.2
    rcases short_len hd with h1 | h1 <;> rcases short_len hm with h2 | h2 <;> cases w <;> simp [Order.pick, h1, h2, h4, shapes2]
  have hone := List.all_eq_true.mp (List.all_eq_true.mp cal_passes2 sep (by rcases hsep with rfl | rfl <;> decide)) _ hshape
  simp only [Bool.and_eq_true] at hone
  have htext := tmpl3_sub2 hshape hsepd
  rw [← write_sep] at htext
  have hds : ∀ x ∈ '0' :: ((w.pick D M Y).1 ++ (w.pick D M Y).2.1 ++ (w.pick D M Y).2.2), x.isDigit = true := by
    intro x hx
    simp only [List.mem_cons, List.mem_append] at hx
    rcases hx with rfl | (hx | hx) | hx
    · decide
    · exact hnum.1.2 x hx
    · exact hnum.2.1.2 x hx
    · exact hnum.2.2.2 x hx
  obtain ⟨h1, h2⟩ := jalali_text hE.persian hds hone.1 (by rw [hnorm, htext]) hE.table
  obtain ⟨h3, _⟩ := hijri_text hE.persian hds hone.2 (by rw [hnorm, htext]) hE.table am
  rw [htext] at h1 h2 h3
  exact ⟨⟨h1, h3⟩, h2⟩

/-- No preference for the past or the future asks for another century. -/
def KeepsCentury (c : PCfg) (now t : Time) : Prop :=
  (DateSource.ofCode c.dateSource = .past → now.before t = false) ∧ (DateSource.ofCode c.dateSource = .future → now.before t = true)

theorem cal_two_parse (fns : Fns) {two : Int → Int} {month : List Char → Option Int} (hfp : fns.partValue = calPartValue E.uni.isDigit two month) (cfg : Cfg)
    (o : Order) (ho : toLower cfg.dateOrder = o.letters) (hnow : cfg.currentTime = baseTime c E.now) (hsrc : cfg.dateSource = DateSource.ofCode c.dateSource)
    (d m y : List Char) (hd : Short d) (hm : Short m) (hy : Two y) (sep : Char) (hsep : sep = '/' ∨ sep = '.')
    (v1 : 1 ≤ natOfDigits m) (v2 : natOfDigits m ≤ 12) (v3 : 1 ≤ natOfDigits d) (v4 : natOfDigits d ≤ 30) (hy1 : two (natOfDigits y) ≠ 0)
    (hpop : popTzOffset E.table (o.write d m y [sep] [sep]) = (o.write d m y [sep] [sep], none)) (t : Time)
    (hcr : fns.create cfg (two (natOfDigits y)) (natOfDigits m) (natOfDigits d) 0 0 0 0 (baseTime c E.now).loc = .ok t)
    (hk : KeepsCentury c (baseTime c E.now) t) :
    calParse fns E.table cfg E.now E.monthFirst (o.write d m y [sep] [sep]) = .ok { period := .day, time := t } := by
  generalize he : (AEnv.mk fns cfg E.now E.monthFirst) = e
  have hfp' : e.fns.partValue = calPartValue E.uni.isDigit two month := by rw [← he]; exact hfp
  have ho' : toLower e.cfg.dateOrder = o.letters := by rw [← he]; exact ho
  have hnum : IsNumeral (o.pick d m y).1 ∧ IsNumeral (o.pick d m y).2.1 ∧ IsNumeral (o.pick d m y).2.2 := by
    cases o <;> simp [Order.pick, hd.1, hm.1, hy.1]
  have hsp : SepPair [sep] [sep] := by
    rcases hsep with rfl | rfl <;> (unfold SepPair IsSeparator; decide)
  have hinit := absInit_digits3 e _ _ _ [sep] [sep] hnum.1 hnum.2.1 hnum.2.2 hsp (o.write d m y [sep] [sep]) (by cases o <;> simp [Order.write, Order.pick])
  have hloc : e.now = baseTime c E.now := by
    rw [← he]
    unfold AEnv.now
    simp only [hnow, base_notZero hE.toSurroundings, Bool.false_eq_true, if_false]
  obtain ⟨s, hs, hv, hct⟩ := cal_two_steps e (digits_ok hE hc) hfp' o ho' d m y hd hm hy v1 v2 v3 v4 hy1
  unfold calParse
  rw [hpop]
  dsimp only
  rw [he, hinit, hs]
  dsimp only
  have hfb : fallbacks s = s := by simp [fallbacks, fallback1, hv, Vals.get]
  have hfr : frameYear2 e.cfg e.now s t = t := by
    unfold frameYear2
    rw [hct]
    dsimp only
    rw [if_pos hy.2, hloc]
    have hsrc' : e.cfg.dateSource = DateSource.ofCode c.dateSource := by rw [← he]; exact hsrc
    cases hb : (baseTime c E.now).before t with
    | true =>
      rw [if_pos rfl, if_neg]
      intro h
      rw [hsrc'] at h
      rw [hk.1 h] at hb
      simp at hb
    | false =>
      rw [if_neg (by simp), if_neg]
      intro h
      rw [hsrc'] at h
      rw [hk.2 h] at hb
      simp at hb
  rw [hfb, absParse_create2 e s none (two (natOfDigits y)) (natOfDigits m) (natOfDigits d) (by rw [hv]) (by rw [hv]) (by rw [hv]) hy1 (by omega) (by omega)
    (by rw [hct]) ⟨d, .digit⟩ ⟨m, .digit⟩ (by rw [hct]) (by rw [hct]) t (by rw [hloc, ← he]; exact hcr) hfr]
  rfl

/-- **C35** A numeric Jalali date with a year of two digits, in the configured order: the years 61 to 99 are 1361 to 1399, 00 to 60 are 1400 to
1460 — unless the configuration prefers dates of the past and this one lies ahead, or the other way round. -/
theorem C35_jalali_two_digit_year (lib : JalaliLib) (o : Order) (ho : toLower (calendarOrder c) = o.letters)
    (d m y : List Char) (hd : Short (d.map asciiDigit)) (hm : Short (m.map asciiDigit)) (hy : Two (y.map asciiDigit))
    (sep : Char) (hsep : sep = '/' ∨ sep = '.') (v1 : 1 ≤ number (m.map asciiDigit)) (v2 : number (m.map asciiDigit) ≤ 12)
    (v3 : 1 ≤ number (d.map asciiDigit)) (v4 : number (d.map asciiDigit) ≤ 30) (g : Int × Int × Int)
    (hj : IsJalali lib (jalaliCentury (number (y.map asciiDigit))) (number (m.map asciiDigit)) (number (d.map asciiDigit)) g)
    (hk : KeepsCentury c (baseTime c E.now) (goDate g.1 g.2.1 g.2.2 0 0 0 0 (baseTime c E.now).loc)) :
    E.parseJalali lib (some c) (o.write d m y [sep] [sep]) =
      .ok { period := .day, time := goDate g.1 g.2.1 g.2.2 0 0 0 0 (baseTime c E.now).loc } := by
  obtain ⟨cfg, h1, h2, h3, h4, _⟩ := calendar_cfg hc E.now
  obtain ⟨⟨t1, _⟩, t2⟩ := cal_two_text hE hc o d m y hd hm hy sep hsep true
  have ht : jalaliTwoDigits (natOfDigits (y.map asciiDigit)) = jalaliCentury (number (y.map asciiDigit)) := by
    unfold jalaliTwoDigits jalaliCentury
    rw [number_eq]
    split <;> split <;> omega
  unfold Env.parseJalali
  rw [h1]
  dsimp only
  unfold jalaliParse
  rw [t1]
  refine cal_two_parse hE hc (jalaliFns E.uni lib) rfl cfg o (by rw [h2]; exact ho) h3 h4 _ _ _ hd hm hy sep hsep v1 v2 v3 v4 ?_ t2 _ ?_ hk
  · have := (natOfDigits_range hy.1.2).1
    unfold jalaliTwoDigits; split <;> omega
  · show jalaliCreate lib cfg _ _ _ 0 0 0 0 _ = _
    rw [ht]
    exact jalali_create hj cfg 0 0 0 0 _

/-- **C35** A numeric Hijri date with a year of two digits, in the configured order: the years 90 to 99 are 1390 to 1399, 00 to 89 are 1400 to
1489. -/
theorem C35_hijri_two_digit_year (lib : HijriLib) (am : Bool) (o : Order) (ho : toLower (calendarOrder c) = o.letters)
    (d m y : List Char) (hd : Short (d.map asciiDigit)) (hm : Short (m.map asciiDigit)) (hy : Two (y.map asciiDigit))
    (sep : Char) (hsep : sep = '/' ∨ sep = '.') (v1 : 1 ≤ number (m.map asciiDigit)) (v2 : number (m.map asciiDigit) ≤ 12)
    (v3 : 1 ≤ number (d.map asciiDigit))
    (v4 : number (d.map asciiDigit) ≤ 29 ∨ (number (d.map asciiDigit) = 30 ∧
      (number (m.map asciiDigit) % 2 = 1 ∨ (number (m.map asciiDigit) = 12 ∧ isHijriLeap lib (hijriCentury (number (y.map asciiDigit))) = true)))) :
    let g := lib.toGregorian (hijriCentury (number (y.map asciiDigit))) (number (m.map asciiDigit)) (number (d.map asciiDigit))
    KeepsCentury c (baseTime c E.now) (goDate g.1 g.2.1 g.2.2 0 0 0 0 (baseTime c E.now).loc) →
    E.parseHijri lib am (some c) (o.write d m y [sep] [sep]) =
      .ok { period := .day, time := goDate g.1 g.2.1 g.2.2 0 0 0 0 (baseTime c E.now).loc } := by
  intro g hk
  obtain ⟨cfg, h1, h2, h3, h4, _⟩ := calendar_cfg hc E.now
  obtain ⟨⟨_, t1⟩, t2⟩ := cal_two_text hE hc o d m y hd hm hy sep hsep am
  have ht : hijriTwoDigits (natOfDigits (y.map asciiDigit)) = hijriCentury (number (y.map asciiDigit)) := by
    unfold hijriTwoDigits hijriCentury
    rw [number_eq]
    split <;> split <;> omega
  unfold Env.parseHijri
  rw [h1]
  dsimp only
  unfold hijriParse
  rw [t1]
  refine cal_two_parse hE hc (hijriFns E.uni lib) rfl cfg o (by rw [h2]; exact ho) h3 h4 _ _ _ hd hm hy sep hsep v1 v2 v3 (by rw [number_eq] at v4; omega) ?_ t2 _ ?_ hk
  · have := (natOfDigits_range hy.1.2).1
    unfold hijriTwoDigits; split <;> omega
  · show hijriCreate lib cfg _ _ _ 0 0 0 0 _ = _
    rw [ht]
    exact hijri_create v1 v2 v4 cfg 0 0 0 0 _
end

/-! ## Examples -/

/-- 1/1/94 is 1 Farvardin 1394. -/
example : persianEnv.parseJalali demoJalali (some {}) "1/1/94".toList = .ok { period := .day, time := goDate 2015 3 21 0 0 0 0 Loc.utc } :=
  C35_jalali_two_digit_year (c := {}) persian_sound rfl demoJalali .dmy (by decide) "1".toList "1".toList "94".toList
    ⟨by unfold IsNumeral; decide, by decide⟩ ⟨by unfold IsNumeral; decide, by decide⟩ ⟨by unfold IsNumeral; decide, by decide⟩ '/' (Or.inl rfl)
    (by decide) (by decide) (by decide) (by decide) (2015, 3, 21)
    ⟨⟨31, by decide +kernel, by decide⟩, ⟨false, by decide +kernel, by decide⟩, by decide +kernel⟩ ⟨fun h => (nomatch h), fun h => (nomatch h)⟩

example : persianEnv.parseHijri demoHijri true (some {}) "١/٩/٤٥".toList = .ok { period := .day, time := goDate 2024 3 11 0 0 0 0 Loc.utc } :=
  C35_hijri_two_digit_year (c := {}) persian_sound rfl demoHijri true .dmy (by decide) "١".toList "٩".toList "٤٥".toList
    ⟨by unfold IsNumeral; decide, by decide⟩ ⟨by unfold IsNumeral; decide, by decide⟩ ⟨by unfold IsNumeral; decide, by decide⟩ '/' (Or.inl rfl)
    (by decide) (by decide) (by decide) (Or.inl (by decide)) ⟨fun h => (nomatch h), fun h => (nomatch h)⟩

end Verif.Props
