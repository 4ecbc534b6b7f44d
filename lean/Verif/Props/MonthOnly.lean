import Verif.Props.Missing
/-! # C06, C09: a month name alone -/
set_option autoImplicit false
namespace Verif.Props
open Verif.Go Verif.Model Verif.Lemmas Verif.Spec

/-- What is found in "March". -/
theorem month_parts (cfg : Cfg) (sysNow : Time) (mf : Nat → Bool) (mon : List Char) (n : Int)
    (hmon : IsMonthName mon n) :
    ∃ s, partsOf cfg sysNow mf mon = .ok s ∧ s.vals = { month := some n } ∧
      s.ctoks = { month := some ⟨mon, .letter⟩ } := by
  unfold partsOf
  generalize he : (AEnv.mk gregFns cfg sysNow mf) = e
  have hf : e.fns = gregFns := by rw [← he]
  have hfp : e.fns.partValue = gregPartValue := by rw [hf]; rfl
  have hL := letter_month e hfp mon n hmon
  have := absInit_one e ⟨mon, .letter⟩ (Piece.ok (.name mon n hmon)) (Piece.nocolon (.name mon n hmon))
    (Piece.noskip (.name mon n hmon))
  dsimp only at this
  rw [this]
  simp [valueStep, hL, Vals.get0, Vals.get, setAndReturn, CToks.set, saveResults, Vals.set, fallbacks, fallback1]

/-- **C09**, **C06** A month name alone: the first such month on the side `PreferredDateSource` asks for
(counting the current month as past), on the day `PreferredDayOfMonth` asks for.  February is left out on
the 29th to 31st of a month: see `C09_february_future` and `C09_february_on_the_29th`. -/
theorem C09_month_only (cfg : Cfg) (sysNow : Time) (mf : Nat → Bool) (tz : Option Tz) (mon : List Char) (n : Int)
    (hmon : IsMonthName mon n) (hf : (nowOf cfg sysNow).loc.IsFixed) (hwf : (nowOf cfg sysNow).WF)
    (hx : ¬ (29 ≤ (nowOf cfg sysNow).day ∧ n = 2)) (hl : Lenient cfg) :
    ∃ r, absoluteParse cfg sysNow mf mon tz = .ok r ∧ r.period = .month ∧
      Shows r.time (monthYearFor cfg.dateSource (nowOf cfg sysNow) n) n
        (chosenDay cfg.dayOfMonth (nowOf cfg sysNow).day
          (monthLen (monthYearFor cfg.dateSource (nowOf cfg sysNow) n) n)) 0 0 0 0 ∧
      r.time.loc = (nowOf cfg sysNow).loc := by
  obtain ⟨s, hs, hv, hct⟩ := month_parts cfg sysNow mf mon n hmon
  unfold absoluteParse
  unfold partsOf at hs
  simp only [hs]
  generalize he : (AEnv.mk gregFns cfg sysNow mf) = e at hs
  have hfn : e.fns = gregFns := by rw [← he]
  have hcfg : e.cfg = cfg := by rw [← he]
  have hnow : e.now = nowOf cfg sysNow := by rw [← he]; rfl
  generalize nowOf cfg sysNow = now at *
  obtain ⟨hM1, hM2, hd1, hd2⟩ := now.year_month_day_valid
  have b := (monthNames_facts _ hmon).2.2.2.2.2.2.2
  dsimp only at b
  obtain ⟨hn1, hn2⟩ := b
  have hn0 : n ≠ 0 := by omega
  have hcr := gregCreate_clip cfg now.year n now.day 0 0 0 0 now.loc hn1 hn2 (by omega)
  have lenEq : ∀ y, n ≠ 2 → monthLen y n = monthLen now.year n := by
    intro y h; unfold monthLen; simp only [h, if_false]
  have hD : ∀ y, IsDate y n (if now.day ≤ monthLen now.year n then now.day else monthLen now.year n) := by
    intro y
    have b1 := monthLen_bounds y n
    have b2 := monthLen_bounds now.year n
    refine ⟨hn1, hn2, ?_, ?_⟩
    · split <;> omega
    · by_cases h2 : n = 2
      · split <;> omega
      · rw [lenEq y h2]; split <;> omega
  have hD29 : ¬ ((if now.day ≤ monthLen now.year n then now.day else monthLen now.year n) = 29 ∧ n = 2) := by
    rintro ⟨h1, h2⟩
    split at h1
    · omega
    · have := monthLen_bounds now.year n; omega
  have hsame : n = now.month → (if now.day ≤ monthLen now.year n then now.day else monthLen now.year n) = now.day := by
    intro h
    rw [h, if_pos]
    rw [← daysIn_eq]; exact hd2
  generalize (if now.day ≤ monthLen now.year n then now.day else monthLen now.year n) = D at *
  -- comparison with now
  have S0 := shows_goDate (l := now.loc) (hD now.year) clock0 (hf.noJump _)
  have hcmp : now.before (goDate now.year n D 0 0 0 0 now.loc) = decide (now.month < n) := by
    have hw : (goDate now.year n D 0 0 0 0 now.loc).wall = wallOf now.year n D 0 0 0 0 := goDate_wall (hf.noJump _)
    rw [wallOf_month_norm hn1 hn2] at hw
    have hnw := now.wall_eq
    have B := Time.before_iff_wall (t := now) (u := goDate now.year n D 0 0 0 0 now.loc) rfl hf
    have n1 : 0 ≤ now.hour ∧ now.hour < 24 ∧ 0 ≤ now.minute ∧ now.minute < 60 ∧ 0 ≤ now.second ∧ now.second < 60 := by
      unfold Time.hour Time.minute Time.second Time.sod; omega
    have hns : (goDate now.year n D 0 0 0 0 now.loc).nsec = 0 := S0.nanosecond
    have e1 : now.civil.days = daysOfCivil now.year now.month now.day := rfl
    have e2 : (Civil.mk now.year n D).days = daysOfCivil now.year n D := rfl
    have hvD := (valid_iff now.year n D).mpr (hD now.year)
    have L1 := Civil.days_lt_iff now.civil_valid hvD
    have L2 := Civil.days_lt_iff hvD now.civil_valid
    rw [Bool.eq_iff_iff, B, decide_eq_true_eq, hns]
    have w0 := hwf.1
    rcases Int.lt_trichotomy now.month n with h | h | h
    · have : now.civil.days < (Civil.mk now.year n D).days := L1.mpr (Or.inr ⟨rfl, Or.inl h⟩)
      omega
    · have : D = now.day := hsame h.symm
      rw [← h, this] at hw
      rw [← h, this]
      omega
    · have : (Civil.mk now.year n D).days < now.civil.days := L2.mpr (Or.inr ⟨rfl, Or.inl h⟩)
      omega
  have fr : correctForTimeFrame e.cfg e.now s tz (goDate now.year n D 0 0 0 0 now.loc) =
      .ok (goDate (monthYearFor cfg.dateSource now n) n D 0 0 0 0 now.loc) := by
    unfold correctForTimeFrame
    rw [frameWeekday_skip _ s _ (Or.inr (Or.inl (by rw [hct]; rfl)))]
    have no29 : ∀ Y, ¬ (D = 29 ∧ n = 2 ∧ (!isLeapYear Y) = true) := fun Y h => hD29 ⟨h.1, h.2.1⟩
    have f1 : frameMonth e.cfg e.now s (goDate now.year n D 0 0 0 0 now.loc) =
        goDate (monthYearFor cfg.dateSource now n) n D 0 0 0 0 now.loc := by
      unfold frameMonth
      rw [hcfg, hnow, hv]
      simp only [Option.isSome_some, Option.isNone_none, Bool.and_self, if_true, S0.year, S0.month, S0.day, S0.hour,
        S0.minute, S0.second, S0.nanosecond, goDate_loc, no29, if_false, hcmp]
      congr 1
      unfold monthYearFor
      cases cfg.dateSource with
      | current => split <;> rfl
      | past => simp only [decide_eq_true_eq, if_true, reduceCtorEq, if_false]
      | future =>
        simp only [decide_eq_true_eq, if_true, reduceCtorEq, if_false]
        split <;> split <;> omega
    dsimp only
    rw [f1]
    simp only [frameYear2, frameTime, hct, Option.isSome_none, Bool.false_and, Bool.false_eq_true, if_false]
  generalize hY : monthYearFor cfg.dateSource now n = Y at *
  rw [absParse_intro (e := e) (H := 0) (M := 0) (S := 0) (ns := 0) (p := none) (tz := tz)
    (Or.inl ⟨by rw [hct], rfl, rfl, rfl, rfl, rfl⟩) (by
      rw [hfn, hcfg, hnow]
      simp only [hv, orNow, hn0, if_false, gregFns]
      exact hcr) fr (by rw [hcfg]; exact lenient_check hl _)]
  refine ⟨_, rfl, ?_, ?_⟩
  · show periodFor e.cfg s none = .month
    simp [periodFor, getPeriod, hv]
  · dsimp only
    simp only [correctForDay, correctForMonth, hct, Option.isSome_none, Option.isSome_some, Bool.or_self,
      Bool.false_eq_true, if_false, if_true]
    rw [hcfg, hnow, applyDay_eq cfg e.sysNow _ now.day Y n D 0 0 0 0
      (shows_goDate (hD Y) clock0 (hf.noJump _)) clock0 hf (hD Y) hd1]
    exact ⟨shows_goDate (chosenDay_isDate _ _ _ _ hn1 hn2 hd1) clock0 (hf.noJump _), rfl⟩

/-- Met by "march" with Future in April: March of next year, last day. -/
example : IsMonthName "march".toList 3 ∧ Lenient {} ∧ dayOf (absoluteParse
    { dateOrder := "DMY".toList, dateSource := .future, dayOfMonth := .last,
      currentTime := goDate 2015 4 30 10 0 0 0 Loc.utc }
    Time.zero (fun _ => true) "march".toList none) = some (2016, 3, 31, .month) := by
  refine ⟨?_, ⟨rfl, rfl⟩, ?_⟩
  · unfold IsMonthName; decide
  · decide +kernel

/-- Finding: on the 30th of March 2016, with Future, "February" is four years ahead. -/
theorem C09_february_future : dayOf (absoluteParse
    { dateOrder := "DMY".toList, dateSource := .future, currentTime := goDate 2016 3 30 10 0 0 0 Loc.utc }
    Time.zero (fun _ => true) "February".toList none) = some (2020, 2, 29, .month) := by decide +kernel

end Verif.Props
