import Verif.Model.Absolute
/-! Helper lemmas on the calendar functions of the model. -/
set_option autoImplicit false
namespace Verif.Lemmas
open Verif.Go Verif.Model

theorem isLeapYear_eq (y : Int) : isLeapYear y = isLeap y := by
  have h1 : y.tmod 400 = 0 ↔ y % 400 = 0 := by
    rw [← Int.dvd_iff_tmod_eq_zero, ← Int.dvd_iff_emod_eq_zero]
  have h2 : y.tmod 100 = 0 ↔ y % 100 = 0 := by
    rw [← Int.dvd_iff_tmod_eq_zero, ← Int.dvd_iff_emod_eq_zero]
  have h3 : y.tmod 4 = 0 ↔ y % 4 = 0 := by
    rw [← Int.dvd_iff_tmod_eq_zero, ← Int.dvd_iff_emod_eq_zero]
  have : isLeapYear y = true ↔ isLeap y = true := by
    rw [isLeap_iff]
    unfold isLeapYear
    simp only [h1, h2, h3]
    split
    · simp; omega
    · split
      · simp; omega
      · split
        · simp; omega
        · simp; omega
  exact Bool.eq_iff_iff.mpr this

/-- Day 0 of the next month is the last day of the month. -/
theorem monthEnd (y m : Int) (h1 : 1 ≤ m) (h2 : m ≤ 12) :
    daysOfCivil (y + m / 12) (m % 12 + 1) 0 = daysOfCivil y m (daysIn y m) := by
  unfold daysOfCivil
  by_cases h : m = 12
  · subst h
    have a := daysBeforeMonth_december y
    have b := daysBeforeYear_succ y
    have e : daysBeforeMonth (y + 1) 1 = 0 := by simp [daysBeforeMonth]
    simp only [show (12 : Int) / 12 = 1 by decide, show (12 : Int) % 12 + 1 = 1 by decide, e]
    omega
  · have a := daysBeforeMonth_succ y m h1 (by omega)
    have e1 : m / 12 = 0 := by omega
    have e2 : m % 12 + 1 = m + 1 := by omega
    rw [e1, e2, Int.add_zero]
    omega

theorem clock0 : ClockOK 0 0 0 0 := by unfold ClockOK; omega

/-- `GetLastDayOfMonth` is the length of the (normalised) month. -/
theorem getLastDayOfMonth_eq (y m : Int) :
    getLastDayOfMonth y m = daysIn (y + (m - 1) / 12) ((m - 1) % 12 + 1) := by
  unfold getLastDayOfMonth Time.addDate
  have F := goDate_fields (l := Loc.utc) (y := y) (m := m) (d := 1) clock0
    (Loc.utc_isFixed.noJump _)
  generalize hy : y + (m - 1) / 12 = y' at *
  generalize hm : (m - 1) % 12 + 1 = m' at *
  have b1 : 1 ≤ m' := by omega
  have b2 : m' ≤ 12 := by omega
  have hc : (goDate y m 1 0 0 0 0 Loc.utc).civil = ⟨y', m', 1⟩ := by
    unfold Time.civil
    rw [F.1]
    exact civilOfDays_daysOfCivil _ _ _ b1 b2 (by omega) (by have := daysIn_pos y' m'; omega)
  have c1 : (goDate y m 1 0 0 0 0 Loc.utc).year = y' := by unfold Time.year; rw [hc]
  have c2 : (goDate y m 1 0 0 0 0 Loc.utc).month = m' := by unfold Time.month; rw [hc]
  have c3 : (goDate y m 1 0 0 0 0 Loc.utc).day = 1 := by unfold Time.day; rw [hc]
  rw [c1, c2, c3, F.2.1, F.2.2.1, F.2.2.2.1, F.2.2.2.2]
  show (goDate (y' + 0) (m' + 1) (1 + -1) 0 0 0 0 (goDate y m 1 0 0 0 0 Loc.utc).loc).day = _
  rw [goDate_loc]
  have G := (goDate_fields (l := Loc.utc) (y := y' + 0) (m := m' + 1) (d := 1 + -1) clock0
    (Loc.utc_isFixed.noJump _)).1
  unfold Time.day Time.civil
  rw [G]
  have e : daysOfCivil (y' + 0 + (m' + 1 - 1) / 12) ((m' + 1 - 1) % 12 + 1) (1 + -1)
      = daysOfCivil y' m' (daysIn y' m') := by
    rw [← monthEnd y' m' b1 b2]
    rw [Int.add_zero, Int.add_sub_cancel]
    rfl
  rw [e, civilOfDays_daysOfCivil _ _ _ b1 b2 (by have := daysIn_pos y' m'; omega) (by omega)]

theorem getLastDayOfMonth_valid (y m : Int) (h1 : 1 ≤ m) (h2 : m ≤ 12) :
    getLastDayOfMonth y m = daysIn y m := by
  rw [getLastDayOfMonth_eq]
  have e1 : (m - 1) / 12 = 0 := by omega
  have e2 : (m - 1) % 12 + 1 = m := by omega
  rw [e1, e2, Int.add_zero]

/-! ### The leap year search -/

theorem leapLoop_spec (step : Int) : ∀ (n : Nat) (y r : Int), leapLoop step n y = some r →
    isLeap r = true ∧ ∃ k : Nat, 0 < k ∧ k ≤ n ∧ r = y + step * k ∧
      ∀ j : Nat, 0 < j → j < k → isLeap (y + step * j) = false := by
  intro n
  induction n with
  | zero => intro y r h; simp [leapLoop] at h
  | succ n ih =>
    intro y r h
    unfold leapLoop at h
    split at h
    · rename_i hl
      injection h with h
      rw [isLeapYear_eq] at hl
      refine ⟨by rw [← h]; exact hl, 1, by omega, by omega, by rw [← h]; simp, ?_⟩
      intro j h1 h2; omega
    · rename_i hl
      rw [isLeapYear_eq, Bool.not_eq_true] at hl
      obtain ⟨a, k, k1, k2, k3, k4⟩ := ih _ _ h
      refine ⟨a, k + 1, by omega, by omega, ?_, ?_⟩
      · rw [k3]; push_cast; rw [Int.mul_add]; omega
      · intro j j1 j2
        rcases Nat.eq_or_lt_of_le j1 with e | e
        · have : j = 1 := by omega
          subst this; simpa using hl
        · have := k4 (j - 1) (by omega) (by omega)
          have e2 : y + step * (j : Int) = y + step + step * ((j - 1 : Nat) : Int) := by
            have : (j : Int) = ((j - 1 : Nat) : Int) + 1 := by omega
            rw [this, Int.mul_add]; omega
          rw [e2]; exact this

theorem leapLoop_none (step : Int) : ∀ (n : Nat) (y : Int), leapLoop step n y = none →
    ∀ j : Nat, 0 < j → j ≤ n → isLeap (y + step * j) = false := by
  intro n
  induction n with
  | zero => intro y h j; omega
  | succ n ih =>
    intro y h j j1 j2
    unfold leapLoop at h
    split at h
    · simp at h
    · rename_i hl
      rw [isLeapYear_eq, Bool.not_eq_true] at hl
      rcases Nat.eq_or_lt_of_le j1 with e | e
      · have : j = 1 := by omega
        subst this; simpa using hl
      · have := ih _ h (j - 1) (by omega) (by omega)
        have e2 : y + step * (j : Int) = y + step + step * ((j - 1 : Nat) : Int) := by
          have : (j : Int) = ((j - 1 : Nat) : Int) + 1 := by omega
          rw [this, Int.mul_add]; omega
        rw [e2]; exact this

theorem leap_within_8_fwd (y : Int) : ∃ j : Nat, 0 < j ∧ j ≤ 8 ∧ isLeap (y + 1 * j) = true := by
  by_cases h : isLeap (y + (4 - y % 4)) = true
  · refine ⟨(4 - y % 4).toNat, by omega, by omega, ?_⟩
    have : (((4 - y % 4).toNat : Nat) : Int) = 4 - y % 4 := by omega
    rw [this, Int.one_mul]; exact h
  · refine ⟨(8 - y % 4).toNat, by omega, by omega, ?_⟩
    have : (((8 - y % 4).toNat : Nat) : Int) = 8 - y % 4 := by omega
    rw [this, Int.one_mul]
    rw [isLeap_iff] at h ⊢
    omega

theorem leap_within_8_bwd (y : Int) : ∃ j : Nat, 0 < j ∧ j ≤ 8 ∧ isLeap (y + -1 * j) = true := by
  by_cases h : isLeap (y - ((y + 3) % 4 + 1)) = true
  · refine ⟨((y + 3) % 4 + 1).toNat, by omega, by omega, ?_⟩
    have : ((((y + 3) % 4 + 1).toNat : Nat) : Int) = (y + 3) % 4 + 1 := by omega
    rw [this, Int.neg_one_mul]; exact h
  · refine ⟨((y + 3) % 4 + 5).toNat, by omega, by omega, ?_⟩
    have : ((((y + 3) % 4 + 5).toNat : Nat) : Int) = (y + 3) % 4 + 5 := by omega
    rw [this, Int.neg_one_mul]
    rw [isLeap_iff] at h ⊢
    omega

/-- The loop of `GetLeapYear` stops within 8 iterations. -/
theorem leapLoop_some (y : Int) (fut : Bool) :
    ∃ r, leapLoop (if fut then 1 else -1) 8 y = some r := by
  cases h : leapLoop (if fut then 1 else -1) 8 y with
  | some r => exact ⟨r, rfl⟩
  | none =>
    exfalso
    cases fut
    · obtain ⟨j, j1, j2, j3⟩ := leap_within_8_bwd y
      have := leapLoop_none _ 8 y h j j1 j2
      simp only [Bool.false_eq_true, if_false] at this
      rw [this] at j3; cases j3
    · obtain ⟨j, j1, j2, j3⟩ := leap_within_8_fwd y
      have := leapLoop_none _ 8 y h j j1 j2
      simp only [if_true] at this
      rw [this] at j3; cases j3

theorem getLeapYear_future (y : Int) :
    isLeap (getLeapYear y true) = true ∧ y < getLeapYear y true ∧ getLeapYear y true ≤ y + 8 ∧
    ∀ z, y < z → z < getLeapYear y true → isLeap z = false := by
  obtain ⟨r, hr⟩ := leapLoop_some y true
  have e : getLeapYear y true = r := by unfold getLeapYear; rw [hr]; rfl
  rw [e]
  obtain ⟨a, k, k1, k2, k3, k4⟩ := leapLoop_spec _ _ _ _ hr
  simp only [if_true] at k3 k4
  refine ⟨a, by omega, by omega, ?_⟩
  intro z z1 z2
  have := k4 (z - y).toNat (by omega) (by omega)
  have e : y + 1 * ((z - y).toNat : Int) = z := by omega
  rwa [e] at this

theorem getLeapYear_past (y : Int) :
    isLeap (getLeapYear y false) = true ∧ getLeapYear y false < y ∧ y - 8 ≤ getLeapYear y false ∧
    ∀ z, z < y → getLeapYear y false < z → isLeap z = false := by
  obtain ⟨r, hr⟩ := leapLoop_some y false
  have e : getLeapYear y false = r := by unfold getLeapYear; rw [hr]; rfl
  rw [e]
  obtain ⟨a, k, k1, k2, k3, k4⟩ := leapLoop_spec _ _ _ _ hr
  simp only [Bool.false_eq_true, if_false] at k3 k4
  refine ⟨a, by omega, by omega, ?_⟩
  intro z z1 z2
  have := k4 (y - z).toNat (by omega) (by omega)
  have e : y + -1 * ((y - z).toNat : Int) = z := by omega
  rwa [e] at this

end Verif.Lemmas
