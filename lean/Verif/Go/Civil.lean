/-!
# The proleptic Gregorian calendar

Model of the calendar arithmetic of Go's `time` package that go-dateparser relies on
(`time.Date`, `Time.Date`, `Time.Weekday`).  The Go standard library is not part of /repo; it is a
trusted external component whose documented behaviour is modelled here.  Its use sites are cited in
the modules under `Verif/Model`.

Everything is `Int`-valued.  `daysOfCivil y m d` is the number of days from 1970-01-01 to the given
day, `civilOfDays` its inverse.
-/
set_option autoImplicit false
namespace Verif.Go

/-- Gregorian leap years. -/
def isLeap (y : Int) : Bool := y % 4 == 0 && (y % 100 != 0 || y % 400 == 0)

/-- Number of days in month `m` (1..12) of year `y`. -/
def daysIn (y m : Int) : Int :=
  if m = 2 then (if isLeap y then 29 else 28)
  else if m = 4 ∨ m = 6 ∨ m = 9 ∨ m = 11 then 30 else 31

/-- Days of the year before the first of month `m` (1..12). -/
def daysBeforeMonth (y m : Int) : Int :=
  let l : Int := if isLeap y then 1 else 0
  if m ≤ 1 then 0
  else if m = 2 then 31
  else if m = 3 then 59 + l
  else if m = 4 then 90 + l
  else if m = 5 then 120 + l
  else if m = 6 then 151 + l
  else if m = 7 then 181 + l
  else if m = 8 then 212 + l
  else if m = 9 then 243 + l
  else if m = 10 then 273 + l
  else if m = 11 then 304 + l
  else 334 + l

/-- Days from 1970-01-01 to January 1st of year `y`. -/
def daysBeforeYear (y : Int) : Int :=
  365 * (y - 1) + (y - 1) / 4 - (y - 1) / 100 + (y - 1) / 400 - 719162

/-- Day number of the (not necessarily valid) day `d` of month `m` (1..12) of year `y`. -/
def daysOfCivil (y m d : Int) : Int := daysBeforeYear y + daysBeforeMonth y m + (d - 1)

/-- A calendar date. -/
structure Civil where
  y : Int
  m : Int
  d : Int
deriving DecidableEq, Repr

/-- The date exists in the calendar. -/
def Civil.Valid (c : Civil) : Prop := 1 ≤ c.m ∧ c.m ≤ 12 ∧ 1 ≤ c.d ∧ c.d ≤ daysIn c.y c.m

instance (c : Civil) : Decidable c.Valid := by unfold Civil.Valid; infer_instance

/-- The year that contains day number `n`. -/
def yearOfDays (n : Int) : Int :=
  let a := n + 719162
  let q400 := a / 146097
  let r400 := a % 146097
  let q100 := min 3 (r400 / 36524)
  let r100 := r400 - q100 * 36524
  let q4 := r100 / 1461
  let r4 := r100 % 1461
  let q1 := min 3 (r4 / 365)
  400 * q400 + 100 * q100 + 4 * q4 + q1 + 1

/-- The month of the year that contains the `k`-th day (from 0) of year `y`. -/
def monthOfYearDay (y k : Int) : Int :=
  let l : Int := if isLeap y then 1 else 0
  if k < 31 then 1
  else if k < 59 + l then 2
  else if k < 90 + l then 3
  else if k < 120 + l then 4
  else if k < 151 + l then 5
  else if k < 181 + l then 6
  else if k < 212 + l then 7
  else if k < 243 + l then 8
  else if k < 273 + l then 9
  else if k < 304 + l then 10
  else if k < 334 + l then 11
  else 12

/-- The calendar date of day number `n`. -/
def civilOfDays (n : Int) : Civil :=
  let y := yearOfDays n
  let k := n - daysBeforeYear y
  let m := monthOfYearDay y k
  { y := y, m := m, d := k - daysBeforeMonth y m + 1 }

/-- Weekday of a day number, Sunday = 0 (Go's `time.Weekday`). 1970-01-01 was a Thursday. -/
def weekdayOfDays (n : Int) : Int := (n + 4) % 7

/-! ## Facts -/

theorem isLeap_iff (y : Int) :
    isLeap y = true ↔ (y % 4 = 0 ∧ (y % 100 ≠ 0 ∨ y % 400 = 0)) := by
  simp [isLeap]

theorem isLeap_false_iff (y : Int) :
    isLeap y = false ↔ ¬ (y % 4 = 0 ∧ (y % 100 ≠ 0 ∨ y % 400 = 0)) := by
  rw [← isLeap_iff]; simp

theorem daysBeforeYear_succ (y : Int) :
    daysBeforeYear (y + 1) = daysBeforeYear y + (if isLeap y then 366 else 365) := by
  unfold daysBeforeYear
  split
  · rename_i h; rw [isLeap_iff] at h; omega
  · rename_i h; rw [Bool.not_eq_true, isLeap_false_iff] at h; omega

theorem daysIn_pos (y m : Int) : 28 ≤ daysIn y m := by
  unfold daysIn; split <;> split <;> omega

theorem daysIn_le (y m : Int) : daysIn y m ≤ 31 := by
  unfold daysIn; split <;> split <;> omega

theorem month_cases {m : Int} (h1 : 1 ≤ m) (h2 : m ≤ 12) :
    m = 1 ∨ m = 2 ∨ m = 3 ∨ m = 4 ∨ m = 5 ∨ m = 6 ∨ m = 7 ∨ m = 8 ∨ m = 9 ∨ m = 10 ∨ m = 11 ∨
      m = 12 := by omega

theorem daysBeforeMonth_succ (y m : Int) (h1 : 1 ≤ m) (h2 : m ≤ 11) :
    daysBeforeMonth y (m + 1) = daysBeforeMonth y m + daysIn y m := by
  rcases month_cases h1 (by omega : m ≤ 12) with h|h|h|h|h|h|h|h|h|h|h|h <;> subst h <;>
    simp [daysBeforeMonth, daysIn] <;> (try split) <;> omega

theorem daysBeforeMonth_december (y : Int) :
    daysBeforeMonth y 12 + daysIn y 12 = (if isLeap y then 366 else 365) := by
  simp [daysBeforeMonth, daysIn]; split <;> omega

theorem daysBeforeMonth_nonneg (y m : Int) : 0 ≤ daysBeforeMonth y m := by
  unfold daysBeforeMonth
  dsimp only
  cases isLeap y <;> simp only [if_true, if_false, Bool.false_eq_true] <;> grind (splits := 20)

theorem daysBeforeYear_mono {a b : Int} (h : a ≤ b) :
    daysBeforeYear a + 365 * (b - a) ≤ daysBeforeYear b := by
  unfold daysBeforeYear; omega

theorem yearOfDays_spec (n : Int) :
    daysBeforeYear (yearOfDays n) ≤ n ∧ n < daysBeforeYear (yearOfDays n + 1) := by
  unfold yearOfDays daysBeforeYear
  dsimp only
  generalize hq400 : (n + 719162) / 146097 = q400
  generalize hr400 : (n + 719162) % 146097 = r400
  have hr : 0 ≤ r400 ∧ r400 < 146097 := by omega
  have hn : n = 146097 * q400 + r400 - 719162 := by omega
  generalize hq100 : min 3 (r400 / 36524) = q100
  have h100 : 0 ≤ q100 ∧ q100 ≤ 3 := by omega
  have h100' : 0 ≤ r400 - q100 * 36524 ∧ r400 - q100 * 36524 < 36525 ∧
      (q100 < 3 → r400 - q100 * 36524 < 36524) := by omega
  generalize hr100 : r400 - q100 * 36524 = r100 at *
  generalize hq4 : r100 / 1461 = q4
  generalize hr4 : r100 % 1461 = r4
  have h4 : 0 ≤ q4 ∧ q4 ≤ 24 ∧ 0 ≤ r4 ∧ r4 < 1461 ∧ r100 = 1461 * q4 + r4 := by omega
  generalize hq1 : min 3 (r4 / 365) = q1
  have h1 : 0 ≤ q1 ∧ q1 ≤ 3 ∧ 365 * q1 ≤ r4 ∧ (q1 < 3 → r4 < 365 * (q1 + 1)) := by omega
  have e1 : (400 * q400 + 100 * q100 + 4 * q4 + q1 + 1 - 1) / 4 = 100 * q400 + 25 * q100 + q4 := by
    omega
  have e2 : (400 * q400 + 100 * q100 + 4 * q4 + q1 + 1 - 1) / 100 = 4 * q400 + q100 := by omega
  have e3 : (400 * q400 + 100 * q100 + 4 * q4 + q1 + 1 - 1) / 400 = q400 := by omega
  rw [e1, e2, e3]
  clear hq400 hr400 hq100 hq4 hr4 hq1 e1 e2 e3
  constructor
  · omega
  · have e1 : 100 * q400 + 25 * q100 + q4 + (if q1 = 3 then 1 else 0) =
        (400 * q400 + 100 * q100 + 4 * q4 + q1 + 1 + 1 - 1) / 4 := by split <;> omega
    have e2 : 4 * q400 + q100 + (if q1 = 3 ∧ q4 = 24 then 1 else 0) =
        (400 * q400 + 100 * q100 + 4 * q4 + q1 + 1 + 1 - 1) / 100 := by split <;> omega
    have e3 : q400 + (if q1 = 3 ∧ q4 = 24 ∧ q100 = 3 then 1 else 0) =
        (400 * q400 + 100 * q100 + 4 * q4 + q1 + 1 + 1 - 1) / 400 := by split <;> omega
    rw [← e1, ← e2, ← e3]
    clear e1 e2 e3
    by_cases c1 : q1 = 3 <;> by_cases c2 : q4 = 24 <;> by_cases c3 : q100 = 3 <;>
      simp only [c1, c2, c3, if_true, if_false, and_true, and_false] <;> omega

theorem yearOfDays_unique {n y : Int} (h1 : daysBeforeYear y ≤ n) (h2 : n < daysBeforeYear (y + 1)) :
    yearOfDays n = y := by
  have ⟨h3, h4⟩ := yearOfDays_spec n
  rcases Int.lt_trichotomy (yearOfDays n) y with h | h | h
  · have := daysBeforeYear_mono (show yearOfDays n + 1 ≤ y by omega); omega
  · exact h
  · have := daysBeforeYear_mono (show y + 1 ≤ yearOfDays n by omega); omega

/-- The day after `c`, by the rules of the calendar (independent of day numbers). -/
def Civil.next (c : Civil) : Civil :=
  if c.d < daysIn c.y c.m then { c with d := c.d + 1 }
  else if c.m < 12 then { c with m := c.m + 1, d := 1 }
  else { y := c.y + 1, m := 1, d := 1 }

/-- Day number of a `Civil`. -/
def Civil.days (c : Civil) : Int := daysOfCivil c.y c.m c.d

theorem Civil.next_valid (c : Civil) (h : c.Valid) : c.next.Valid := by
  obtain ⟨h1, h2, h3, h4⟩ := h
  unfold Civil.next
  split
  · exact ⟨h1, h2, by dsimp only; omega, by dsimp only; omega⟩
  · split
    · refine ⟨?_, ?_, ?_, ?_⟩ <;> dsimp only
      · omega
      · omega
      · omega
      · have := daysIn_pos c.y (c.m + 1); omega
    · refine ⟨?_, ?_, ?_, ?_⟩ <;> dsimp only
      · omega
      · omega
      · omega
      · have := daysIn_pos (c.y + 1) 1; omega

theorem Civil.next_days (c : Civil) (h : c.Valid) : c.next.days = c.days + 1 := by
  obtain ⟨h1, h2, h3, h4⟩ := h
  unfold Civil.next Civil.days
  split
  · simp only [daysOfCivil]; omega
  · split
    · have := daysBeforeMonth_succ c.y c.m h1 (by omega)
      simp only [daysOfCivil]; omega
    · have hm : c.m = 12 := by omega
      have a := daysBeforeMonth_december c.y
      have b := daysBeforeYear_succ c.y
      have e : daysBeforeMonth (c.y + 1) 1 = 0 := by simp [daysBeforeMonth]
      simp only [daysOfCivil]
      rw [hm] at h4
      rename_i h5 _
      rw [hm] at h5 ⊢
      omega

theorem daysOfCivil_epoch : daysOfCivil 1970 1 1 = 0 := by decide

theorem monthOfYearDay_unique (y m k : Int) (h1 : 1 ≤ m) (h2 : m ≤ 12)
    (h3 : daysBeforeMonth y m ≤ k) (h4 : k < daysBeforeMonth y m + daysIn y m) :
    monthOfYearDay y k = m := by
  unfold monthOfYearDay
  rcases month_cases h1 h2 with h|h|h|h|h|h|h|h|h|h|h|h <;> subst h <;>
    simp [daysBeforeMonth, daysIn] at h3 h4 ⊢ <;> (cases hl : isLeap y <;> simp [hl] at h3 h4 ⊢) <;>
    omega

theorem monthOfYearDay_spec (y k : Int) (h0 : 0 ≤ k) (h1 : k < (if isLeap y then 366 else 365)) :
    1 ≤ monthOfYearDay y k ∧ monthOfYearDay y k ≤ 12 ∧
    daysBeforeMonth y (monthOfYearDay y k) ≤ k ∧
    k < daysBeforeMonth y (monthOfYearDay y k) + daysIn y (monthOfYearDay y k) := by
  have key : ∃ m, (1 ≤ m ∧ m ≤ 12) ∧ daysBeforeMonth y m ≤ k ∧
      k < daysBeforeMonth y m + daysIn y m := by
    by_cases a2 : daysBeforeMonth y 2 ≤ k
    · by_cases a3 : daysBeforeMonth y 3 ≤ k
      · by_cases a4 : daysBeforeMonth y 4 ≤ k
        · by_cases a5 : daysBeforeMonth y 5 ≤ k
          · by_cases a6 : daysBeforeMonth y 6 ≤ k
            · by_cases a7 : daysBeforeMonth y 7 ≤ k
              · by_cases a8 : daysBeforeMonth y 8 ≤ k
                · by_cases a9 : daysBeforeMonth y 9 ≤ k
                  · by_cases a10 : daysBeforeMonth y 10 ≤ k
                    · by_cases a11 : daysBeforeMonth y 11 ≤ k
                      · by_cases a12 : daysBeforeMonth y 12 ≤ k
                        · exact ⟨12, by omega, a12, by rw [daysBeforeMonth_december]; exact h1⟩
                        · exact ⟨11, by omega, a11, by rw [← daysBeforeMonth_succ _ _ (by omega) (by omega)]; exact Int.not_le.mp (by assumption)⟩
                      · exact ⟨10, by omega, a10, by rw [← daysBeforeMonth_succ _ _ (by omega) (by omega)]; exact Int.not_le.mp (by assumption)⟩
                    · exact ⟨9, by omega, a9, by rw [← daysBeforeMonth_succ _ _ (by omega) (by omega)]; exact Int.not_le.mp (by assumption)⟩
                  · exact ⟨8, by omega, a8, by rw [← daysBeforeMonth_succ _ _ (by omega) (by omega)]; exact Int.not_le.mp (by assumption)⟩
                · exact ⟨7, by omega, a7, by rw [← daysBeforeMonth_succ _ _ (by omega) (by omega)]; exact Int.not_le.mp (by assumption)⟩
              · exact ⟨6, by omega, a6, by rw [← daysBeforeMonth_succ _ _ (by omega) (by omega)]; exact Int.not_le.mp (by assumption)⟩
            · exact ⟨5, by omega, a5, by rw [← daysBeforeMonth_succ _ _ (by omega) (by omega)]; exact Int.not_le.mp (by assumption)⟩
          · exact ⟨4, by omega, a4, by rw [← daysBeforeMonth_succ _ _ (by omega) (by omega)]; exact Int.not_le.mp (by assumption)⟩
        · exact ⟨3, by omega, a3, by rw [← daysBeforeMonth_succ _ _ (by omega) (by omega)]; exact Int.not_le.mp (by assumption)⟩
      · exact ⟨2, by omega, a2, by rw [← daysBeforeMonth_succ _ _ (by omega) (by omega)]; exact Int.not_le.mp (by assumption)⟩
    · exact ⟨1, by omega, by simpa [daysBeforeMonth] using h0,
        by rw [← daysBeforeMonth_succ _ _ (by omega) (by omega)]; exact Int.not_le.mp (by assumption)⟩
  obtain ⟨m, ⟨m1, m2⟩, m3, m4⟩ := key
  rw [monthOfYearDay_unique y m k m1 m2 m3 m4]
  exact ⟨m1, m2, m3, m4⟩

theorem civilOfDays_valid (n : Int) : (civilOfDays n).Valid := by
  have ⟨h1, h2⟩ := yearOfDays_spec n
  rw [daysBeforeYear_succ] at h2
  have := monthOfYearDay_spec (yearOfDays n) (n - daysBeforeYear (yearOfDays n)) (by omega) (by omega)
  unfold civilOfDays Civil.Valid
  dsimp only
  omega

theorem days_civilOfDays (n : Int) : (civilOfDays n).days = n := by
  unfold civilOfDays Civil.days daysOfCivil
  dsimp only
  omega

theorem daysBeforeMonth_add_daysIn_le (y m : Int) (h1 : 1 ≤ m) (h2 : m ≤ 12) :
    daysBeforeMonth y m + daysIn y m ≤ (if isLeap y then 366 else 365) := by
  rcases month_cases h1 h2 with h|h|h|h|h|h|h|h|h|h|h|h <;> subst h <;>
    simp [daysBeforeMonth, daysIn] <;> (cases hl : isLeap y <;> simp)

theorem civilOfDays_days (c : Civil) (h : c.Valid) : civilOfDays c.days = c := by
  obtain ⟨h1, h2, h3, h4⟩ := h
  have hb := daysBeforeMonth_add_daysIn_le c.y c.m h1 h2
  have hs := daysBeforeYear_succ c.y
  have hn := daysBeforeMonth_nonneg c.y c.m
  have hy : yearOfDays c.days = c.y := by
    apply yearOfDays_unique <;> unfold Civil.days daysOfCivil <;> omega
  have hm : monthOfYearDay c.y (c.days - daysBeforeYear c.y) = c.m := by
    apply monthOfYearDay_unique _ _ _ h1 h2 <;> unfold Civil.days daysOfCivil <;> omega
  unfold civilOfDays
  dsimp only
  rw [hy, hm]
  cases c
  simp only [Civil.days, daysOfCivil, Civil.mk.injEq, true_and]
  omega

theorem civilOfDays_daysOfCivil (y m d : Int) (h1 : 1 ≤ m) (h2 : m ≤ 12) (h3 : 1 ≤ d)
    (h4 : d ≤ daysIn y m) : civilOfDays (daysOfCivil y m d) = ⟨y, m, d⟩ :=
  civilOfDays_days ⟨y, m, d⟩ ⟨h1, h2, h3, h4⟩

theorem Civil.days_inj {a b : Civil} (ha : a.Valid) (hb : b.Valid) (h : a.days = b.days) : a = b := by
  rw [← civilOfDays_days a ha, ← civilOfDays_days b hb, h]

/-- Order of day numbers is the lexicographic order of dates. -/
def Civil.lt (a b : Civil) : Prop :=
  a.y < b.y ∨ (a.y = b.y ∧ (a.m < b.m ∨ (a.m = b.m ∧ a.d < b.d)))

theorem daysBeforeMonth_mono (y : Int) {m m' : Int} (h1 : 1 ≤ m) (h2 : m' ≤ 12) (h : m < m') :
    daysBeforeMonth y m + daysIn y m ≤ daysBeforeMonth y m' := by
  rcases month_cases h1 (by omega) with e|e|e|e|e|e|e|e|e|e|e|e <;>
  rcases month_cases (by omega : 1 ≤ m') h2 with f|f|f|f|f|f|f|f|f|f|f|f <;>
    subst e <;> subst f <;> first
    | (exfalso; omega)
    | (cases hl : isLeap y <;> simp [daysBeforeMonth, daysIn, hl])

theorem Civil.days_lt_of_lt {a b : Civil} (ha : a.Valid) (hb : b.Valid) (h : a.lt b) :
    a.days < b.days := by
  obtain ⟨a1, a2, a3, a4⟩ := ha
  obtain ⟨b1, b2, b3, b4⟩ := hb
  unfold Civil.days daysOfCivil
  rcases h with h | ⟨e, h | ⟨e', h⟩⟩
  · have := daysBeforeYear_mono (show a.y + 1 ≤ b.y by omega)
    have := daysBeforeYear_succ a.y
    have := daysBeforeMonth_add_daysIn_le a.y a.m a1 a2
    have := daysBeforeMonth_nonneg b.y b.m
    omega
  · have := daysBeforeMonth_mono a.y a1 b2 h
    rw [← e]; omega
  · rw [← e, ← e']; omega

theorem Civil.lt_trichotomy (a b : Civil) : a.lt b ∨ a = b ∨ b.lt a := by
  cases a; cases b; simp only [Civil.lt, Civil.mk.injEq]; omega

theorem Civil.days_lt_iff {a b : Civil} (ha : a.Valid) (hb : b.Valid) :
    a.days < b.days ↔ a.lt b := by
  refine ⟨fun h => ?_, Civil.days_lt_of_lt ha hb⟩
  rcases Civil.lt_trichotomy a b with h' | h' | h'
  · exact h'
  · subst h'; omega
  · have := Civil.days_lt_of_lt hb ha h'; omega

theorem weekdayOfDays_range (n : Int) : 0 ≤ weekdayOfDays n ∧ weekdayOfDays n < 7 := by
  unfold weekdayOfDays; omega

end Verif.Go
