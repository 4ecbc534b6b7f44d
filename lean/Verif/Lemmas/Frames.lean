import Verif.Lemmas.Invariant
import Verif.Lemmas.Names
/-! Helper lemmas: `Parse` of the absolute parser. -/
set_option autoImplicit false
namespace Verif.Lemmas
open Verif.Go Verif.Model Verif.Spec

theorem finishParse_wf {s : PState} {l : Loc} {t : Time} (h : finishParse s l = some t) : t.WF := by
  unfold finishParse at h
  dsimp only at h
  generalize (if (s.pmSet && decide (s.hour < 12)) = true then s.hour + 12 else if (s.amSet && s.hour == 12) = true then 0 else s.hour) = hh at h
  split at h
  · cases h
  · split at h
    · cases h
    · split at h
      · simp only [Option.some.injEq] at h; rw [← h]; exact goDate_wf ..
      · split at h
        · simp only [Option.some.injEq] at h
          rw [← h]
          rename_i mo d _ _ _ _
          exact goDate_wf s.year mo d hh s.min s.sec s.nsec Loc.utc
        · split at h
          · rename_i mo d _ _ _ _ _
            split at h <;>
            · simp only [Option.some.injEq] at h
              rw [← h]
              exact goDate_wf s.year mo d hh s.min s.sec s.nsec Loc.utc
          · simp only [Option.some.injEq] at h; rw [← h]; exact goDate_wf ..

theorem timeParse_wf {f v : List Char} {t : Time} (h : timeParse f v = some t) : t.WF := by
  unfold timeParse timeParseIn parseWith at h
  rw [Option.bind_eq_some_iff] at h
  obtain ⟨s, _, h2⟩ := h
  exact finishParse_wf h2

theorem parseTime_wf {v : List Char} {t : Time} {p : Period} (h : parseTime v = some (t, p)) : t.WF := by
  unfold parseTime at h
  generalize toUpper (trimSpace v) = u at h
  have gen : ∀ l, parseTimeLoop u l = some (t, p) → t.WF := by
    intro l
    induction l with
    | nil => intro h; cases h
    | cons x r ih =>
      intro h
      obtain ⟨f, q⟩ := x
      rw [parseTimeLoop] at h
      split at h
      · rename_i t' ht'
        cases h
        exact timeParse_wf ht'
      · exact ih h
  exact gen _ h

/-- The clock a reading asks for: the time in the string, or midnight. -/
def ClockFor (s : ASt) (H M S ns : Int) (p : Option Period) : Prop :=
  (s.ctoks.time = none ∧ H = 0 ∧ M = 0 ∧ S = 0 ∧ ns = 0 ∧ p = none) ∨
  ∃ tk t q, s.ctoks.time = some tk ∧ parseTime tk.text = some (t, q) ∧
    H = t.hour ∧ M = t.minute ∧ S = t.second ∧ ns = t.nsec ∧ p = some q

theorem ClockFor.ok {s : ASt} {H M S ns : Int} {p : Option Period} (h : ClockFor s H M S ns p) :
    IsClock H M S ns := by
  rcases h with ⟨_, rfl, rfl, rfl, rfl, _⟩ | ⟨tk, t, q, _, h2, rfl, rfl, rfl, rfl, _⟩
  · exact clock0
  · exact t.clockOK (parseTime_wf h2)

/-- The period of the result. -/
def periodFor (cfg : Cfg) (s : ASt) (p : Option Period) : Period :=
  match p with
  | some q => if cfg.timeAsPeriod then (getPeriod s).min q else getPeriod s
  | none => getPeriod s

/-- The steps of a successful `Parse`. -/
theorem absParse_ok {e : AEnv} {s : ASt} {tz : Option Tz} {r : DateRes} (h : absParse e s tz = .ok r) :
    ∃ H M S ns p dt dt2, ClockFor s H M S ns p ∧
      e.fns.create e.cfg (orNow s.vals.year (e.fns.nowParts e.now).1)
        (orNow s.vals.month (e.fns.nowParts e.now).2.1) (orNow s.vals.day (e.fns.nowParts e.now).2.2)
        H M S ns e.now.loc = .ok dt ∧
      correctForTimeFrame e.cfg e.now s tz dt = .ok dt2 ∧
      r = { period := periodFor e.cfg s p, time := correctForDay e s (correctForMonth e s dt2) } ∧
      checkStrictParsing e.cfg ((missingParts s).map Comp.name) = true := by
  unfold absParse at h
  split at h
  · cases h
  · rename_i hchk
    have hchk' : checkStrictParsing e.cfg ((missingParts s).map Comp.name) = true := by simpa using hchk
    cases ht : s.ctoks.time with
    | none =>
      simp only [ht] at h
      split at h
      · cases h
      · rename_i dt hdt
        split at h
        · cases h
        · rename_i dt2 hdt2
          cases h
          exact ⟨0, 0, 0, 0, none, dt, dt2, Or.inl ⟨ht, rfl, rfl, rfl, rfl, rfl⟩, hdt, hdt2, rfl, hchk'⟩
    | some tk =>
      simp only [ht] at h
      cases hp : parseTime tk.text with
      | none => simp only [hp] at h; cases h
      | some x =>
        obtain ⟨t, q⟩ := x
        simp only [hp] at h
        split at h
        · cases h
        · rename_i dt hdt
          split at h
          · cases h
          · rename_i dt2 hdt2
            cases h
            exact ⟨t.hour, t.minute, t.second, t.nsec, some q, dt, dt2,
              Or.inr ⟨tk, t, q, ht, hp, rfl, rfl, rfl, rfl, rfl⟩, hdt, hdt2, rfl, hchk'⟩

/-- … and conversely. -/
theorem absParse_intro {e : AEnv} {s : ASt} {tz : Option Tz} {H M S ns : Int} {p : Option Period}
    {dt dt2 : Time} (hc : ClockFor s H M S ns p)
    (h1 : e.fns.create e.cfg (orNow s.vals.year (e.fns.nowParts e.now).1)
        (orNow s.vals.month (e.fns.nowParts e.now).2.1) (orNow s.vals.day (e.fns.nowParts e.now).2.2)
        H M S ns e.now.loc = .ok dt)
    (h2 : correctForTimeFrame e.cfg e.now s tz dt = .ok dt2)
    (h3 : checkStrictParsing e.cfg ((missingParts s).map Comp.name) = true) :
    absParse e s tz =
      .ok { period := periodFor e.cfg s p, time := correctForDay e s (correctForMonth e s dt2) } := by
  unfold absParse
  rw [h3]
  simp only [Bool.not_true, Bool.false_eq_true, if_false]
  rcases hc with ⟨ht, rfl, rfl, rfl, rfl, rfl⟩ | ⟨tk, t, q, ht, hp, rfl, rfl, rfl, rfl, rfl⟩
  · simp only [ht]
    rw [h1]
    simp only [h2]
    rfl
  · simp only [ht, hp]
    rw [h1]
    simp only [h2]
    rfl

/-- Gregorian `createDateTime` for a date that exists in some year. -/
theorem gregCreate_valid (cfg : Cfg) (Y m d H M S ns : Int) (l : Loc) (h1 : 1 ≤ m) (h2 : m ≤ 12)
    (hd : IsDate Y m d) : gregCreate cfg Y m d H M S ns l = .ok (goDate Y m d H M S ns l) := by
  unfold gregCreate
  obtain ⟨_, _, _, h4⟩ := hd
  have e1 : ¬ (d = 29 ∧ m = 2 ∧ (!isLeapYear Y) = true) := by
    rintro ⟨rfl, rfl, c⟩
    rw [isLeapYear_eq] at c
    simp only [Bool.not_eq_true'] at c
    rw [← daysIn_eq] at h4
    simp [daysIn, c] at h4
  simp only [e1, if_false]
  rw [getLastDayOfMonth_valid _ _ h1 h2, daysIn_eq, if_neg (by omega)]

theorem not_leap_bool {y : Int} (h : ¬ Leap y) : isLeapYear y = false := by
  rw [isLeapYear_eq]
  cases hb : isLeap y with
  | false => rfl
  | true => exact absurd ((leap_iff y).mp hb) h

theorem leap_bool {y : Int} (h : Leap y) : isLeapYear y = true := by
  rw [isLeapYear_eq]; exact (leap_iff y).mpr h

/-- `createDateTime` for 29 February in a year without one. -/
theorem gregCreate_feb29 (cfg : Cfg) (Y H M S ns : Int) (l : Loc) (hn : ¬ Leap Y)
    (hl : Leap (getCorrectLeapYear cfg.dateSource Y)) :
    gregCreate cfg Y 2 29 H M S ns l =
      .ok (goDate (getCorrectLeapYear cfg.dateSource Y) 2 29 H M S ns l) := by
  unfold gregCreate
  have e1 : ((29 : Int) = 29 ∧ (2 : Int) = 2 ∧ (!isLeapYear Y) = true) := by
    simp [not_leap_bool hn]
  rw [if_pos e1]
  dsimp only
  rw [getLastDayOfMonth_valid _ _ (by omega) (by omega), daysIn_eq]
  have : monthLen (getCorrectLeapYear cfg.dateSource Y) 2 = 29 := by simp [monthLen, hl]
  rw [this, if_neg (by omega)]

theorem isDate_feb29 (y : Int) : IsDate y 2 29 ↔ Leap y := by
  unfold IsDate monthLen
  by_cases h : Leap y <;> simp [h]

/-- A month and day that exist in some year exist in all, except 29 February. -/
theorem isDate_other {y z m d : Int} (h : IsDate y m d) (hn : ¬ (m = 2 ∧ d = 29)) : IsDate z m d := by
  obtain ⟨h1, h2, h3, h4⟩ := h
  refine ⟨h1, h2, h3, ?_⟩
  unfold monthLen at h4 ⊢
  split
  · rename_i hm
    rw [if_pos hm] at h4
    have : d ≠ 29 := fun h => hn ⟨hm, h⟩
    split at h4 <;> split <;> omega
  · rename_i hm
    rw [if_neg hm] at h4
    exact h4

/-- Comparing the current time with a date of another year. -/
theorem before_of_year {now : Time} {Y m d H M S ns : Int} (hf : now.loc.IsFixed) (hv : IsDate Y m d)
    (hc : IsClock H M S ns) :
    (now.year < Y → now.before (goDate Y m d H M S ns now.loc) = true) ∧
    (Y < now.year → now.before (goDate Y m d H M S ns now.loc) = false) := by
  have hva := (valid_iff Y m d).mpr hv
  have hw : (goDate Y m d H M S ns now.loc).wall = wallOf Y m d H M S ns := goDate_wall (hf.noJump _)
  rw [wallOf_month_norm hv.1 hv.2.1] at hw
  have hnow := now.wall_eq
  have hl : now.loc = (goDate Y m d H M S ns now.loc).loc := rfl
  have B := Time.before_iff_wall (t := now) (u := goDate Y m d H M S ns now.loc) hl hf
  obtain ⟨c1, c2, c3, c4, c5, c6, c7, c8⟩ := hc
  have n1 : 0 ≤ now.hour ∧ now.hour < 24 ∧ 0 ≤ now.minute ∧ now.minute < 60 ∧ 0 ≤ now.second ∧ now.second < 60 := by
    unfold Time.hour Time.minute Time.second Time.sod; omega
  constructor
  · intro hy
    rw [B]; left
    have : now.civil.days < (Civil.mk Y m d).days :=
      (Civil.days_lt_iff now.civil_valid hva).mpr (Or.inl hy)
    have e1 : now.civil.days = daysOfCivil now.year now.month now.day := rfl
    have e2 : (Civil.mk Y m d).days = daysOfCivil Y m d := rfl
    omega
  · intro hy
    rw [← Bool.not_eq_true, B]
    have : (Civil.mk Y m d).days < now.civil.days :=
      (Civil.days_lt_iff hva now.civil_valid).mpr (Or.inl hy)
    have e1 : now.civil.days = daysOfCivil now.year now.month now.day := rfl
    have e2 : (Civil.mk Y m d).days = daysOfCivil Y m d := rfl
    omega

/-- A weekday beside a date part is ignored. -/
theorem frameWeekday_skip (cfg : Cfg) (s : ASt) (t : Time)
    (h : s.ctoks.year.isSome = true ∨ s.ctoks.month.isSome = true ∨ s.ctoks.day.isSome = true) :
    frameWeekday cfg s t = .ok t := by
  unfold frameWeekday
  cases s.ctoks.weekday with
  | none => rfl
  | some tw =>
    simp only
    rw [if_neg]
    cases hy : s.ctoks.year <;> cases hm : s.ctoks.month <;> cases hd : s.ctoks.day <;>
      rw [hy, hm, hd] at h <;> simp_all

end Verif.Lemmas
