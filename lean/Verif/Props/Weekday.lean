import Verif.Props.MonthName
/-! # C05: lone weekday names -/
set_option autoImplicit false
namespace Verif.Props
open Verif.Go Verif.Model Verif.Lemmas Verif.Spec

theorem weekdays_facts : ∀ p ∈ weekdays,
    p.1.all isLetterTok = true ∧ p.1 ≠ [] ∧ skippedTokens.contains p.1 = false ∧
    gregPartValue .month p.1 .mJanuary = none ∧ gregPartValue .month p.1 .mJan = none ∧
    (gregPartValue .weekday p.1 .wMonday = some 6 ∨
      (gregPartValue .weekday p.1 .wMonday = none ∧ gregPartValue .weekday p.1 .wMon = some 6)) := by
  decide +kernel

/-- The shift found, as a checkable condition. -/
def shiftGood (src : DateSource) (i : Nat) (t : List Char) (w : Int) : Bool :=
  match weekdayShift src i t with
  | .ok k => decide (ShiftOK src k ∧ ((i : Int) + k) % 7 = w)
  | .error _ => false

theorem shifts_table : ∀ p ∈ weekdays, ∀ i : Fin 7, ∀ src ∈ [DateSource.current, .past, .future],
    shiftGood src i.val p.1 p.2 = true := by
  decide +kernel

theorem weekdayShift_lower (src : DateSource) (i : Nat) (t : List Char) :
    weekdayShift src i t = weekdayShift src i (toLower t) := by
  unfold weekdayShift
  have h1 : (toLower t).length = t.length := by simp [toLower]
  have h2 : toLower ((toLower t).take 3) = toLower (t.take 3) := by
    have : (toLower t).take 3 = toLower (t.take 3) := by simp [toLower, List.map_take]
    rw [this, toLower_idem]
  rw [h1, h2]

theorem weekdayShift_spec (src : DateSource) (i : Nat) (hi : i < 7) (t : List Char) (w : Int)
    (ht : IsWeekdayName t w) :
    ∃ k, weekdayShift src i t = .ok k ∧ ShiftOK src k ∧ ((i : Int) + k) % 7 = w := by
  have hsrc : src ∈ [DateSource.current, .past, .future] := by cases src <;> simp
  have h := shifts_table _ ht ⟨i, hi⟩ src hsrc
  rw [weekdayShift_lower]
  unfold shiftGood at h
  dsimp only at h
  cases hk : weekdayShift src i (toLower t) with
  | error f => rw [hk] at h; simp at h
  | ok k =>
    rw [hk] at h
    exact ⟨k, rfl, of_decide_eq_true h⟩

/-- Adding days in a zone without jumps: day number, weekday, midnight. -/
theorem addDays_midnight (y m d k : Int) (l : Loc) (hv : IsDate y m d)
    (hj0 : l.NoJump (wallOf y m d 0 0 0 0)) :
    let t := goDate y m d 0 0 0 0 l
    ∀ (_ : l.NoJump (wallOf y m (d + k) 0 0 0 0)),
    (t.addDate 0 0 k).civil.days = t.civil.days + k ∧
    (t.addDate 0 0 k).weekday = (t.weekday + k) % 7 ∧
    (t.addDate 0 0 k).hour = 0 ∧ (t.addDate 0 0 k).minute = 0 ∧ (t.addDate 0 0 k).second = 0 ∧
    (t.addDate 0 0 k).nsec = 0 := by
  intro t hj
  have S := shows_goDate hv clock0 hj0
  have F := goDate_fields (l := l) (y := y) (m := m) (d := d + k) clock0 hj
  have e : t.addDate 0 0 k = goDate y m (d + k) 0 0 0 0 l := by
    unfold Time.addDate
    show goDate (t.year + 0) (t.month + 0) (t.day + k) _ _ _ _ l = _
    rw [S.year, S.month, S.day, S.hour, S.minute, S.second, S.nanosecond, Int.add_zero, Int.add_zero]
  have hm := hv.1
  have hm2 := hv.2.1
  have e1 : (m - 1) / 12 = 0 := by omega
  have e2 : (m - 1) % 12 + 1 = m := by omega
  have F0 := goDate_fields (l := l) (y := y) (m := m) (d := d) clock0 hj0
  rw [e1, e2, Int.add_zero] at F F0
  rw [daysOfCivil_add] at F
  refine ⟨?_, ?_, ?_⟩
  · rw [e, Time.civil_days, Time.civil_days, F.1, F0.1]
  · rw [e]
    unfold Time.weekday weekdayOfDays
    rw [F.1, F0.1]; omega
  · rw [e]; exact F.2

/-- **C05** A lone weekday name, in any letter case, always gives a date (the loops stop, nothing
panics): the current day shifted by `k` days, where the preference bounds `k` and the weekday is the
named one. -/
theorem C05_weekday (cfg : Cfg) (sysNow : Time) (mf : Nat → Bool) (tz : Option Tz) (t : List Char) (w : Int)
    (ht : IsWeekdayName t w) (hstrict : cfg.strict = false) (hreq : cfg.requiredParts = []) :
    let now := if cfg.currentTime.isZero then sysNow else cfg.currentTime
    let today := goDate now.year now.month now.day 0 0 0 0 now.loc
    ∃ k, absoluteParse cfg sysNow mf t tz = .ok { period := .day, time := today.addDate 0 0 k } ∧
      ShiftOK cfg.dateSource k ∧ (today.weekday + k) % 7 = w := by
  intro now today
  unfold absoluteParse
  simp only
  generalize he : (AEnv.mk gregFns cfg sysNow mf) = e
  have hf : e.fns = gregFns := by rw [← he]
  have hfp : e.fns.partValue = gregPartValue := by rw [hf]; rfl
  have hcfg : e.cfg = cfg := by rw [← he]
  have hnow : e.now = now := by rw [← he]; rfl
  obtain ⟨f1, f2, f3, f4, f5, f6⟩ := weekdays_facts _ ht
  rw [← partValue_lower] at f4 f5
  simp only [← partValue_lower] at f6
  have hne : t ≠ [] := by rintro rfl; exact f2 rfl
  have hrun : Run .letter t := lower_run rfl f1
  -- Init
  have hstep : valueStep e 0 ⟨t, .letter⟩ {} =
      some { vals := { weekday := some 6 }, ctoks := { weekday := some ⟨t, .letter⟩ } } := by
    unfold valueStep alphaDirectives
    rcases f6 with h | ⟨h, h'⟩
    · cases e.monthFirst 0 <;>
        simp [parseLetterToken, letterDirLoop, hfp, f4, f5, h, Vals.get0, Vals.get, setAndReturn, CToks.set,
          saveResults, Vals.set]
    · cases e.monthFirst 0 <;>
        simp [parseLetterToken, letterDirLoop, hfp, f4, f5, h, h', Vals.get0, Vals.get, setAndReturn, CToks.set,
          saveResults, Vals.set]
  have hinit := absInit_one e ⟨t, .letter⟩ ⟨hne, hrun, by simp⟩ (letter_no_colon hrun)
    (not_skipped_of_lower f3)
  simp only [hstep] at hinit
  have hfb : fallbacks { vals := { weekday := some 6 }, ctoks := { weekday := some ⟨t, .letter⟩ } } =
      ({ vals := { weekday := some 6 }, ctoks := { weekday := some ⟨t, .letter⟩ } } : ASt) := by
    simp [fallbacks, fallback1, Vals.get]
  rw [hfb] at hinit
  rw [hinit]
  -- Parse
  have V := now.year_month_day_valid
  have hcreate : e.fns.create cfg now.year now.month now.day 0 0 0 0 now.loc = .ok today := by
    rw [hf]
    show gregCreate _ _ _ _ _ _ _ _ _ = _
    unfold gregCreate
    have e1 : ¬ (now.day = 29 ∧ now.month = 2 ∧ (!isLeapYear now.year) = true) := by
      rintro ⟨a, b, c⟩
      rw [isLeapYear_eq] at c
      simp only [Bool.not_eq_true'] at c
      have := V.2.2.2
      rw [a, b] at this
      simp [daysIn, c] at this
    simp only [e1, if_false]
    rw [getLastDayOfMonth_valid _ _ V.1 V.2.1, if_neg (by omega)]
  have hwr := weekdayOfDays_range (today.wall / 86400)
  have hwt : (today.weekday.toNat : Int) = today.weekday := by
    have : 0 ≤ today.weekday := hwr.1
    omega
  have hwl : today.weekday.toNat < 7 := by
    have h1 : 0 ≤ today.weekday := hwr.1
    have h2 : today.weekday ≤ 6 := by have := hwr.2; unfold Time.weekday; omega
    omega
  obtain ⟨k, hk, hok, hmod⟩ := weekdayShift_spec cfg.dateSource today.weekday.toNat hwl t w ht
  rw [hwt] at hmod
  refine ⟨k, ?_, hok, hmod⟩
  have hchk : checkStrictParsing e.cfg ((missingParts
      { vals := { weekday := some 6 }, ctoks := { weekday := some ⟨t, .letter⟩ } }).map Comp.name) = true := by
    simp [checkStrictParsing, hcfg, hstrict, hreq]
  have hnp : e.fns.nowParts now = (now.year, now.month, now.day) := by rw [hf]; rfl
  show absParse e _ tz = _
  unfold absParse
  rw [hchk]
  simp only [Bool.not_true, Bool.false_eq_true, if_false, orNow, hnp, hcfg, hnow]
  rw [hcreate]
  simp [correctForTimeFrame, frameWeekday, frameMonth, frameYear2, frameTime, hk, correctForDay,
    correctForMonth, getPeriod]

/-- **C05** as seen on the result, in zones without a jump at the two midnights involved (all
fixed-offset zones): midnight of a day with the named weekday, `k` days from the current day. -/
theorem C05_weekday_shows (cfg : Cfg) (sysNow : Time) (mf : Nat → Bool) (tz : Option Tz) (t : List Char)
    (w : Int) (ht : IsWeekdayName t w) (hstrict : cfg.strict = false) (hreq : cfg.requiredParts = [])
    (hfix : (if cfg.currentTime.isZero then sysNow else cfg.currentTime).loc.IsFixed) :
    let now := if cfg.currentTime.isZero then sysNow else cfg.currentTime
    ∃ r, absoluteParse cfg sysNow mf t tz = .ok r ∧ r.period = .day ∧ r.time.weekday = w ∧
      ShiftOK cfg.dateSource (r.time.civil.days - now.civil.days) ∧
      r.time.hour = 0 ∧ r.time.minute = 0 ∧ r.time.second = 0 ∧ r.time.nsec = 0 := by
  intro now
  obtain ⟨k, h1, h2, h3⟩ := C05_weekday cfg sysNow mf tz t w ht hstrict hreq
  have V : IsDate now.year now.month now.day := (valid_iff _ _ _).mp now.civil_valid
  obtain ⟨a, b, c⟩ := addDays_midnight now.year now.month now.day k now.loc V (hfix.noJump _) (hfix.noJump _)
  refine ⟨_, h1, rfl, ?_, ?_, c⟩
  · show (Time.addDate _ 0 0 k).weekday = w
    rw [b]; exact h3
  · show ShiftOK cfg.dateSource ((Time.addDate _ 0 0 k).civil.days - now.civil.days)
    have hc : (goDate now.year now.month now.day 0 0 0 0 now.loc).civil = now.civil :=
      (shows_goDate V clock0 (hfix.noJump _)).civil
    rw [a, hc, show now.civil.days + k - now.civil.days = k by omega]
    exact h2

/-- Met e.g. by "THURSDAY"; on Thursday 2015-01-01 Future gives January 8th. -/
example : IsWeekdayName "THURSDAY".toList 4 ∧ dayOf (absoluteParse
    { dateOrder := "DMY".toList, dateSource := .future, currentTime := goDate 2015 1 1 10 0 0 0 Loc.utc }
    Time.zero (fun _ => true) "THURSDAY".toList none) = some (2015, 1, 8, .day) := by
  unfold IsWeekdayName
  decide +kernel

end Verif.Props
