import Verif.Go.Time
/-!
# Specification vocabulary: calendar

Written without the model's functions; used to state the properties.
-/
set_option autoImplicit false
namespace Verif.Spec
open Verif.Go

/-- Gregorian leap year. -/
def Leap (y : Int) : Prop := y % 4 = 0 ∧ (y % 100 ≠ 0 ∨ y % 400 = 0)

instance (y : Int) : Decidable (Leap y) := by unfold Leap; infer_instance

/-- Length of a Gregorian month. -/
def monthLen (y m : Int) : Int :=
  if m = 2 then (if Leap y then 29 else 28)
  else if m = 4 ∨ m = 6 ∨ m = 9 ∨ m = 11 then 30
  else 31

/-- A day of the Gregorian calendar. -/
def IsDate (y m d : Int) : Prop := 1 ≤ m ∧ m ≤ 12 ∧ 1 ≤ d ∧ d ≤ monthLen y m

instance (y m d : Int) : Decidable (IsDate y m d) := by unfold IsDate; infer_instance

/-- A time of day. -/
def IsClock (H M S ns : Int) : Prop :=
  0 ≤ H ∧ H < 24 ∧ 0 ≤ M ∧ M < 60 ∧ 0 ≤ S ∧ S < 60 ∧ 0 ≤ ns ∧ ns < 1000000000

/-- What calendar and clock on the wall show at `t`. -/
structure Shows (t : Time) (y m d H M S ns : Int) : Prop where
  year : t.year = y
  month : t.month = m
  day : t.day = d
  hour : t.hour = H
  minute : t.minute = M
  second : t.second = S
  nanosecond : t.nsec = ns

/-- The day after. -/
def nextDay (y m d : Int) : Int × Int × Int :=
  if d < monthLen y m then (y, m, d + 1)
  else if m < 12 then (y, m + 1, 1)
  else (y + 1, 1, 1)

theorem leap_iff (y : Int) : isLeap y = true ↔ Leap y := by
  rw [isLeap_iff]; unfold Leap; omega

theorem daysIn_eq (y m : Int) : daysIn y m = monthLen y m := by
  unfold daysIn monthLen
  have := leap_iff y
  by_cases h : m = 2
  · subst h
    by_cases hl : isLeap y = true
    · simp [hl, this.mp hl]
    · have hn : ¬ Leap y := fun h => hl (this.mpr h)
      simp [hl, hn]
  · simp [h]

theorem valid_iff (y m d : Int) : Civil.Valid ⟨y, m, d⟩ ↔ IsDate y m d := by
  unfold Civil.Valid IsDate
  simp only [daysIn_eq]

/-- `time.Date` of valid fields, where the zone has no jump, shows these fields. -/
theorem shows_goDate {l : Loc} {y m d H M S ns : Int} (hv : IsDate y m d) (hc : IsClock H M S ns)
    (h : l.NoJump (wallOf y m d H M S ns)) : Shows (goDate y m d H M S ns l) y m d H M S ns := by
  have F := goDate_fields hc h
  have C := goDate_civil hc ((valid_iff y m d).mpr hv) h
  exact ⟨by unfold Time.year; rw [C], by unfold Time.month; rw [C], by unfold Time.day; rw [C],
    F.2.1, F.2.2.1, F.2.2.2.1, F.2.2.2.2⟩

theorem Shows.civil {t : Time} {y m d H M S ns : Int} (h : Shows t y m d H M S ns) :
    t.civil = ⟨y, m, d⟩ := by
  have e : t.civil = ⟨t.year, t.month, t.day⟩ := rfl
  rw [e, h.year, h.month, h.day]

end Verif.Spec
