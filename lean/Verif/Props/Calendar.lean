import Verif.Lemmas.Absolute
import Verif.Spec.Calendar
/-! # C01, C02: calendar arithmetic and the search for leap years -/
set_option autoImplicit false
namespace Verif.Props
open Verif.Go Verif.Model Verif.Lemmas Verif.Spec

/-- **C01** fields given to `time.Date` are read back (any zone without a jump at that wall clock, in
particular every fixed-offset zone). -/
theorem C01_fields_roundtrip (l : Loc) (y m d H M S ns : Int) (hv : IsDate y m d)
    (hc : IsClock H M S ns) (hj : l.NoJump (wallOf y m d H M S ns)) :
    Shows (goDate y m d H M S ns l) y m d H M S ns := shows_goDate hv hc hj

/-- **C01** every instant shows a date of the calendar and a time of day. -/
theorem C01_shows_date (t : Time) (h : t.WF) :
    IsDate t.year t.month t.day ∧ IsClock t.hour t.minute t.second t.nsec :=
  ⟨(valid_iff _ _ _).mp t.civil_valid, t.clockOK h⟩

/-- **C01** the library's leap year test is the Gregorian rule, for negative years too. -/
theorem C01_leap (y : Int) : isLeapYear y = true ↔ Leap y := by
  rw [isLeapYear_eq, leap_iff]

/-- **C01** the library's month length is the Gregorian one. -/
theorem C01_month_length (y m : Int) (h1 : 1 ≤ m) (h2 : m ≤ 12) :
    getLastDayOfMonth y m = monthLen y m := by
  rw [getLastDayOfMonth_valid y m h1 h2, daysIn_eq]

/-- **C01** the month length for months outside 1..12 (as the code may pass) is that of the
normalised month. -/
theorem C01_month_length_normalised (y m : Int) :
    getLastDayOfMonth y m = monthLen (y + (m - 1) / 12) ((m - 1) % 12 + 1) := by
  rw [getLastDayOfMonth_eq, daysIn_eq]

/-- **C01** one day later is the next day of the calendar and the next weekday, at the same time of
day (fixed-offset zones). -/
theorem C01_next_day (t : Time) (h : t.WF) (hf : t.loc.IsFixed) :
    let u := t.addDate 0 0 1
    (u.year, u.month, u.day) = nextDay t.year t.month t.day ∧
    u.weekday = (t.weekday + 1) % 7 ∧ u.sec = t.sec + 86400 ∧
    u.hour = t.hour ∧ u.minute = t.minute ∧ u.second = t.second ∧ u.nsec = t.nsec := by
  intro u
  have hcl := t.clockOK h
  have V := t.year_month_day_valid
  have F : u.wall / 86400 = _ ∧ u.hour = _ ∧ u.minute = _ ∧ u.second = _ ∧ u.nsec = _ :=
    goDate_fields (l := t.loc) (y := t.year + 0) (m := t.month + 0) (d := t.day + 1) hcl
    (hf.noJump _)
  have W : u.wall = _ :=
    goDate_wall (l := t.loc) (y := t.year + 0) (m := t.month + 0) (d := t.day + 1)
      (H := t.hour) (M := t.minute) (S := t.second) (ns := t.nsec) (hf.noJump _)
  rw [wallOf_month_norm (by omega) (by omega)] at W
  have T := t.wall_eq
  have e1 : (t.month + 0 - 1) / 12 = 0 := by omega
  have e2 : (t.month + 0 - 1) % 12 + 1 = t.month := by omega
  have e3 : t.nsec / 1000000000 = 0 := by have := hcl.2.2.2.2.2.2; omega
  simp only [e1, e2, Int.add_zero] at F W
  rw [daysOfCivil_add] at F W
  have hdays : daysOfCivil t.year t.month t.day = t.wall / 86400 := t.civil_days
  refine ⟨?_, ?_, ?_, F.2⟩
  · have hn := Civil.next_days t.civil t.civil_valid
    have hu : u.civil = t.civil.next := by
      apply Civil.days_inj u.civil_valid (Civil.next_valid _ t.civil_valid)
      rw [u.civil_days, hn, t.civil_days]; omega
    have : (u.year, u.month, u.day) = (t.civil.next.y, t.civil.next.m, t.civil.next.d) := by
      rw [← hu]; rfl
    rw [this]
    unfold Civil.next nextDay
    have a : t.civil.y = t.year := rfl
    have b : t.civil.m = t.month := rfl
    have c : t.civil.d = t.day := rfl
    rw [a, b, c, ← daysIn_eq]
    split
    · rfl
    · split <;> rfl
  · unfold Time.weekday weekdayOfDays
    rw [F.1]; omega
  · have hw : u.wall = t.wall + 86400 := by omega
    have hl : u.loc = t.loc := rfl
    unfold Time.wall at hw
    rw [hl, hf u.sec t.sec] at hw
    omega

/-- **C01** weekdays are anchored correctly: 1970-01-01 was a Thursday. -/
theorem C01_epoch_thursday : (goDate 1970 1 1 0 0 0 0 Loc.utc).weekday = 4 := by decide

example : IsDate 2024 2 29 ∧ IsClock 23 59 59 999999999 ∧
    Loc.utc.NoJump (wallOf 2024 2 29 23 59 59 999999999) :=
  ⟨by decide, by unfold IsClock; omega, Loc.utc_isFixed.noJump _⟩
example : (goDate 2023 12 31 10 0 0 0 (Loc.fixed "X" 3600)).WF ∧ (Loc.fixed "X" 3600).IsFixed :=
  ⟨goDate_wf .., Loc.fixed_isFixed _ _⟩

/-- **C02** the loop of the leap year search finds a leap year within eight steps, from every year
and in both directions. -/
theorem C02_terminates (y : Int) (future : Bool) :
    ∃ r, leapLoop (if future then 1 else -1) 8 y = some r := leapLoop_some y future

/-- **C02** Future: the earliest later leap year. -/
theorem C02_future (y : Int) :
    let r := getCorrectLeapYear .future y
    Leap r ∧ y < r ∧ r ≤ y + 8 ∧ ∀ z, y < z → Leap z → r ≤ z := by
  intro r
  have ⟨h1, h2, h3, h4⟩ := getLeapYear_future y
  refine ⟨(leap_iff r).mp h1, h2, h3, ?_⟩
  intro z hz hl
  refine Int.not_lt.mp fun hc => ?_
  have := h4 z hz hc
  rw [(leap_iff z).mpr hl] at this
  simp at this

/-- **C02** Past: the latest earlier leap year. -/
theorem C02_past (y : Int) :
    let r := getCorrectLeapYear .past y
    Leap r ∧ r < y ∧ y - 8 ≤ r ∧ ∀ z, z < y → Leap z → z ≤ r := by
  intro r
  have ⟨h1, h2, h3, h4⟩ := getLeapYear_past y
  refine ⟨(leap_iff r).mp h1, h2, h3, ?_⟩
  intro z hz hl
  refine Int.not_lt.mp fun hc => ?_
  have := h4 z hz hc
  rw [(leap_iff z).mpr hl] at this
  simp at this

/-- **C02** CurrentPeriod: the closest leap year, the earlier one on a tie. -/
theorem C02_current (y : Int) :
    let r := getCorrectLeapYear .current y
    Leap r ∧ r ≠ y ∧ y - 8 ≤ r ∧ r ≤ y + 8 ∧
    ∀ z, z ≠ y → Leap z → (r - y).natAbs ≤ (z - y).natAbs ∧ ((r - y).natAbs = (z - y).natAbs → r ≤ z) := by
  intro r
  have F := C02_future y
  have P := C02_past y
  have er : r = if getCorrectLeapYear .future y - y < y - getCorrectLeapYear .past y
      then getCorrectLeapYear .future y else getCorrectLeapYear .past y := rfl
  dsimp only at F P
  generalize getCorrectLeapYear .future y = f at *
  generalize getCorrectLeapYear .past y = p at *
  obtain ⟨f1, f2, f3, f4⟩ := F
  obtain ⟨p1, p2, p3, p4⟩ := P
  split at er
  · refine ⟨er ▸ f1, by omega, by omega, by omega, ?_⟩
    intro z hz hl
    rcases Int.lt_or_gt_of_ne hz with h | h
    · have := p4 z h hl; omega
    · have := f4 z h hl; omega
  · refine ⟨er ▸ p1, by omega, by omega, by omega, ?_⟩
    intro z hz hl
    rcases Int.lt_or_gt_of_ne hz with h | h
    · have := p4 z h hl; omega
    · have := f4 z h hl; omega

/-- Concrete: 1900 was not a leap year; the neighbours are 8 years apart, and for 2022 the earlier
leap year wins the tie. -/
example : getCorrectLeapYear .future 1897 = 1904 ∧ getCorrectLeapYear .past 1903 = 1896 ∧
    getCorrectLeapYear .current 2022 = 2020 ∧ getCorrectLeapYear .current 2023 = 2024 := by decide

end Verif.Props
