import Verif.Spec.Preferences
import Verif.Lemmas.Frames
import Verif.Props.Calendar
/-! # C06, C07, C09, C10, C11: missing parts -/
set_option autoImplicit false
namespace Verif.Props
open Verif.Go Verif.Model Verif.Lemmas Verif.Spec

/-- The parts the absolute parser finds in a string (`ComponentValues` after `Init`). -/
def partsOf (cfg : Cfg) (sysNow : Time) (mf : Nat → Bool) (str : List Char) : Except Fault ASt :=
  absInit { fns := gregFns, cfg := cfg, sysNow := sysNow, monthFirst := mf } str

/-- The year chosen by the code: `createDateTime` and then the block for months without year. -/
theorem frameMonth_year (cfg : Cfg) (now : Time) (s : ASt) (m d H M S ns : Int) (hm : s.vals.month.isSome = true)
    (hy : s.vals.year = none) (hex : ∃ y, IsDate y m d) (hf : now.loc.IsFixed) (hc : IsClock H M S ns) :
    ∃ dt Y, gregCreate cfg now.year m d H M S ns now.loc = .ok dt ∧
      frameMonth cfg now s dt = goDate Y m d H M S ns now.loc ∧ IsDate Y m d ∧
      RightYear cfg.dateSource now m d H M S ns Y := by
  obtain ⟨y0, hy0⟩ := hex
  have h1 := hy0.1
  have h2 := hy0.2.1
  -- shape of the block
  have fm : ∀ Y1, IsDate Y1 m d →
      frameMonth cfg now s (goDate Y1 m d H M S ns now.loc) =
        (let year := if now.before (goDate Y1 m d H M S ns now.loc) then
            (if cfg.dateSource = .past then Y1 - 1 else Y1)
            else (if cfg.dateSource = .future then Y1 + 1 else Y1)
         let year := if d = 29 ∧ m = 2 ∧ (!isLeapYear year) = true then
            getCorrectLeapYear cfg.dateSource year else year
         goDate year m d H M S ns now.loc) := by
    intro Y1 hY1
    have S1 := shows_goDate (l := now.loc) hY1 hc (hf.noJump _)
    unfold frameMonth
    rw [hm, hy]
    simp only [Option.isNone_none, Bool.and_self, if_true, S1.year, S1.month, S1.day, S1.hour, S1.minute,
      S1.second, S1.nanosecond, goDate_loc]
  have cmp : ∀ Y, IsDate Y m d → (now.year < Y → now.before (goDate Y m d H M S ns now.loc) = true) ∧
    (Y < now.year → now.before (goDate Y m d H M S ns now.loc) = false) :=
    fun Y h => before_of_year hf h hc
  by_cases h29 : m = 2 ∧ d = 29
  · obtain ⟨rfl, rfl⟩ := h29
    simp only [isDate_feb29] at *
    by_cases hl : Leap now.year
    · -- this year has a 29 February
      have hcr := gregCreate_valid cfg now.year 2 29 H M S ns now.loc h1 h2 ((isDate_feb29 _).mpr hl)
      have fm1 := fm now.year hl
      cases hb : now.before (goDate now.year 2 29 H M S ns now.loc) with
      | true =>
        simp only [hb, if_true] at fm1
        cases hs : cfg.dateSource with
        | past =>
          simp only [hs, if_true] at fm1
          have hnl : ¬ Leap (now.year - 1) := by unfold Leap at hl ⊢; omega
          rw [if_pos ⟨trivial, trivial, by simp [not_leap_bool hnl]⟩] at fm1
          have P := C02_past (now.year - 1)
          dsimp only at P
          refine ⟨_, _, hcr, fm1, P.1, (cmp _ P.1).2 (by omega), ?_⟩
          intro z hz hzl
          replace hzl := (isDate_feb29 _).mp hzl
          rcases Int.lt_trichotomy z now.year with h | h | h
          · exfalso
            have : z ≠ now.year - 1 := fun e => hnl (e ▸ hzl)
            have := P.2.2.2 z (by omega) hzl
            omega
          · rw [h]; exact hb
          · exact (cmp z hzl).1 h
        | future =>
          simp only [hs, reduceCtorEq, if_false, leap_bool hl, Bool.not_true, Bool.false_eq_true, and_false] at fm1
          refine ⟨_, _, hcr, fm1, hl, hb, ?_⟩
          intro z hz hzl
          replace hzl := (isDate_feb29 _).mp hzl
          exact (cmp z hzl).2 hz
        | current =>
          simp only [hs, reduceCtorEq, if_false, leap_bool hl, Bool.not_true, Bool.false_eq_true, and_false] at fm1
          exact ⟨_, _, hcr, fm1, hl, fun _ => rfl, fun h => absurd ((isDate_feb29 _).mpr hl) h⟩
      | false =>
        simp only [hb, Bool.false_eq_true, if_false] at fm1
        cases hs : cfg.dateSource with
        | future =>
          simp only [hs, if_true] at fm1
          have hnl : ¬ Leap (now.year + 1) := by unfold Leap at hl ⊢; omega
          rw [if_pos ⟨trivial, trivial, by simp [not_leap_bool hnl]⟩] at fm1
          have P := C02_future (now.year + 1)
          dsimp only at P
          refine ⟨_, _, hcr, fm1, P.1, (cmp _ P.1).1 (by omega), ?_⟩
          intro z hz hzl
          replace hzl := (isDate_feb29 _).mp hzl
          rcases Int.lt_trichotomy z now.year with h | h | h
          · exact (cmp z hzl).2 h
          · rw [h]; exact hb
          · exfalso
            have : z ≠ now.year + 1 := fun e => hnl (e ▸ hzl)
            have := P.2.2.2 z (by omega) hzl
            omega
        | past =>
          simp only [hs, reduceCtorEq, if_false, leap_bool hl, Bool.not_true, Bool.false_eq_true, and_false] at fm1
          refine ⟨_, _, hcr, fm1, hl, hb, ?_⟩
          intro z hz hzl
          replace hzl := (isDate_feb29 _).mp hzl
          exact (cmp z hzl).1 hz
        | current =>
          simp only [hs, reduceCtorEq, if_false, leap_bool hl, Bool.not_true, Bool.false_eq_true, and_false] at fm1
          exact ⟨_, _, hcr, fm1, hl, fun _ => rfl, fun h => absurd ((isDate_feb29 _).mpr hl) h⟩
    · -- this year has none: `createDateTime` has already chosen a leap year
      have keep : ∀ Y1, Leap Y1 → (cfg.dateSource = .past → Y1 < now.year) →
          (cfg.dateSource = .future → now.year < Y1) →
          frameMonth cfg now s (goDate Y1 2 29 H M S ns now.loc) = goDate Y1 2 29 H M S ns now.loc := by
        intro Y1 hY1 hp hfu
        rw [fm Y1 hY1]
        have e : (if now.before (goDate Y1 2 29 H M S ns now.loc) = true then
            (if cfg.dateSource = .past then Y1 - 1 else Y1)
            else (if cfg.dateSource = .future then Y1 + 1 else Y1)) = Y1 := by
          cases hb : now.before (goDate Y1 2 29 H M S ns now.loc) with
          | true =>
            have : cfg.dateSource ≠ .past := by
              intro h; rw [(cmp Y1 hY1).2 (hp h)] at hb; cases hb
            simp [this]
          | false =>
            have : cfg.dateSource ≠ .future := by
              intro h; rw [(cmp Y1 hY1).1 (hfu h)] at hb; cases hb
            simp [this]
        rw [e]
        simp [leap_bool hY1]
      cases hs : cfg.dateSource with
      | past =>
        have P := C02_past now.year
        dsimp only at P
        have hcr := gregCreate_feb29 cfg now.year H M S ns now.loc hl (by rw [hs]; exact P.1)
        rw [hs] at hcr
        refine ⟨_, _, hcr, keep _ P.1 (fun _ => P.2.1) (by rw [hs]; intro h; cases h), P.1,
          (cmp _ P.1).2 P.2.1, ?_⟩
        intro z hz hzl
        replace hzl := (isDate_feb29 _).mp hzl
        refine (cmp z hzl).1 ?_
        rcases Int.lt_trichotomy z now.year with h | h | h
        · exfalso; have := P.2.2.2 z h hzl; omega
        · exfalso; rw [h] at hzl; exact hl hzl
        · exact h
      | future =>
        have P := C02_future now.year
        dsimp only at P
        have hcr := gregCreate_feb29 cfg now.year H M S ns now.loc hl (by rw [hs]; exact P.1)
        rw [hs] at hcr
        refine ⟨_, _, hcr, keep _ P.1 (by rw [hs]; intro h; cases h) (fun _ => P.2.1), P.1,
          (cmp _ P.1).1 P.2.1, ?_⟩
        intro z hz hzl
        replace hzl := (isDate_feb29 _).mp hzl
        refine (cmp z hzl).2 ?_
        rcases Int.lt_trichotomy z now.year with h | h | h
        · exact h
        · exfalso; rw [h] at hzl; exact hl hzl
        · exfalso; have := P.2.2.2 z h hzl; omega
      | current =>
        have P := C02_current now.year
        dsimp only at P
        have hcr := gregCreate_feb29 cfg now.year H M S ns now.loc hl (by rw [hs]; exact P.1)
        rw [hs] at hcr
        refine ⟨_, _, hcr, keep _ P.1 (by rw [hs]; intro h; cases h) (by rw [hs]; intro h; cases h), P.1,
          fun h => absurd ((isDate_feb29 _).mp h) hl, ?_⟩
        intro _ z hzl
        have hzl' := (isDate_feb29 _).mp hzl
        refine P.2.2.2.2 z ?_ hzl'
        rintro rfl
        exact hl hzl'
  · -- a day every year has
    have all : ∀ z, IsDate z m d := fun z => isDate_other hy0 h29
    have hcr := gregCreate_valid cfg now.year m d H M S ns now.loc h1 h2 (all _)
    have no29 : ∀ Y, ¬ (d = 29 ∧ m = 2 ∧ (!isLeapYear Y) = true) := fun Y h => h29 ⟨h.2.1, h.1⟩
    have fm1 := fm now.year (all _)
    dsimp only at fm1
    simp only [no29, if_false] at fm1
    cases hb : now.before (goDate now.year m d H M S ns now.loc) with
    | true =>
      simp only [hb, if_true] at fm1
      cases hs : cfg.dateSource with
      | past =>
        simp only [hs, if_true] at fm1
        refine ⟨_, _, hcr, fm1, all _, (cmp _ (all _)).2 (by omega), ?_⟩
        intro z hz _
        rcases Int.lt_trichotomy z now.year with h | h | h
        · omega
        · rw [h]; exact hb
        · exact (cmp z (all z)).1 h
      | future =>
        simp only [hs, reduceCtorEq, if_false] at fm1
        exact ⟨_, _, hcr, fm1, all _, hb, fun z hz _ => (cmp z (all z)).2 hz⟩
      | current =>
        simp only [hs, reduceCtorEq, if_false] at fm1
        exact ⟨_, _, hcr, fm1, all _, fun _ => rfl, fun h => absurd (all _) h⟩
    | false =>
      simp only [hb, Bool.false_eq_true, if_false] at fm1
      cases hs : cfg.dateSource with
      | future =>
        simp only [hs, if_true] at fm1
        refine ⟨_, _, hcr, fm1, all _, (cmp _ (all _)).1 (by omega), ?_⟩
        intro z hz _
        rcases Int.lt_trichotomy z now.year with h | h | h
        · exact (cmp z (all z)).2 h
        · rw [h]; exact hb
        · omega
      | past =>
        simp only [hs, reduceCtorEq, if_false] at fm1
        exact ⟨_, _, hcr, fm1, all _, hb, fun z hz _ => (cmp z (all z)).1 hz⟩
      | current =>
        simp only [hs, reduceCtorEq, if_false] at fm1
        exact ⟨_, _, hcr, fm1, all _, fun _ => rfl, fun h => absurd (all _) h⟩

end Verif.Props
