import Verif.Lemmas.WithTime
import Verif.Props.TimeOfDay
import Verif.Props.Frames
import Verif.Props.Numeric
/-! # C08: a time of day alone -/
set_option autoImplicit false
namespace Verif.Props
open Verif.Go Verif.Model Verif.Lemmas Verif.Spec

theorem cut6_written {n : Notation} {mr : Meridian} (h : n.Written mr) : (cut6 n).Written mr := by
  have key : ∀ f, IsNumeral f → IsNumeral (f.take 6) := by
    intro f hf
    refine ⟨?_, fun c hc => hf.2 c (List.mem_of_mem_take hc)⟩
    cases f with
    | nil => exact absurd rfl hf.1
    | cons a t => simp
  cases n with
  | hmsFrac h m s f => exact ⟨h.1, h.2.1, h.2.2.1, key _ h.2.2.2⟩
  | hmsFracMer h m s f mer => exact ⟨h.1, h.2.1, h.2.2.1, key _ h.2.2.2.1, h.2.2.2.2⟩
  | _ => exact h

/-- A captured time with a meaning. -/
theorem clockFor_time {s : ASt} {n : Notation} {mr : Meridian} {c : Clock} (hn : n.Written mr)
    (hc : (cut6 n).meaning mr = some c) (ht : s.ctoks.time = some ⟨(cut6 n).text, .digit⟩) :
    ClockFor s c.hour c.minute c.second c.nano (some c.period) := by
  have C := C37_time_of_day (cut6 n) mr (cut6_written hn)
  rw [hc] at C
  unfold clockOf at C
  rw [Option.map_eq_some_iff] at C
  obtain ⟨⟨t, q⟩, h1, h2⟩ := C
  right
  refine ⟨_, t, q, ht, h1, ?_⟩
  rw [← h2]
  exact ⟨rfl, rfl, rfl, rfl, rfl⟩

/-- What is found in a time of day alone. -/
theorem timeOnly_parts (cfg : Cfg) (sysNow : Time) (mf : Nat → Bool) (n : Notation) (mr : Meridian)
    (hn : n.Written mr) :
    ∃ sk, partsOf cfg sysNow mf n.text =
      .ok { skippedIdx := sk, ctoks := { time := some ⟨(cut6 n).text, .digit⟩ } } := by
  obtain ⟨sk, h⟩ := absInit_time { fns := gregFns, cfg := cfg, sysNow := sysNow, monthFirst := mf } [] n mr hn
    (by intro x hx; simp at hx) trivial n.text rfl
  exact ⟨sk, h⟩

/-- **C08** (partial) A time of day alone gives that time on the current day, moved one day by the
preference – as long as this stays in the current month and PreferredMonthOfYear is the current month.
Fractions of a second are cut to six digits.
Missing: moves into another month, which the code gets wrong (`C08_month_boundary`,
`C08_first_month`). -/
theorem C08_time_only_partial (cfg : Cfg) (sysNow : Time) (mf : Nat → Bool) (tz : Option Tz)
    (n : Notation) (mr : Meridian) (c : Clock) (hn : n.Written mr) (hc : (cut6 n).meaning mr = some c)
    (hstrict : cfg.strict = false) (hreq : cfg.requiredParts = []) (hmo : cfg.monthOfYear = .current)
    (hfix : (nowOf cfg sysNow).loc.IsFixed) :
    let now := nowOf cfg sysNow
    let t := goDate now.year now.month now.day c.hour c.minute c.second c.nano now.loc
    let k := dayShift cfg.dateSource now (t.add (-(namedOffset cfg tz t * 1000000000)))
    IsDate now.year now.month (now.day + k) →
    ∃ r, absoluteParse cfg sysNow mf n.text tz = .ok r ∧
      Shows r.time now.year now.month (now.day + k) c.hour c.minute c.second c.nano ∧
      r.time.loc = now.loc ∧
      r.period = (if cfg.timeAsPeriod then c.period else .day) := by
  intro now t k hday
  obtain ⟨sk, hparts⟩ := timeOnly_parts cfg sysNow mf n mr hn
  generalize hs : ({ skippedIdx := sk, ctoks := { time := some ⟨(cut6 n).text, .digit⟩ } } : ASt) = s at hparts
  have hcf : ClockFor s c.hour c.minute c.second c.nano (some c.period) :=
    clockFor_time hn hc (by rw [← hs])
  have hck := hcf.ok
  have V : IsDate now.year now.month now.day := (valid_iff _ _ _).mp now.civil_valid
  have S1 := shows_goDate (l := now.loc) V hck (hfix.noJump _)
  unfold absoluteParse
  unfold partsOf at hparts
  simp only [hparts]
  generalize he : (AEnv.mk gregFns cfg sysNow mf) = e
  have hnow : e.now = now := by rw [← he]; rfl
  have hcfg : e.cfg = cfg := by rw [← he]
  have hcr : e.fns.create e.cfg (orNow s.vals.year (e.fns.nowParts e.now).1)
        (orNow s.vals.month (e.fns.nowParts e.now).2.1) (orNow s.vals.day (e.fns.nowParts e.now).2.2)
        c.hour c.minute c.second c.nano e.now.loc = .ok t := by
    rw [hnow, ← he, ← hs]
    exact gregCreate_valid cfg now.year now.month now.day _ _ _ _ _ V.1 V.2.1 V
  have hft : frameTime cfg now s tz t = goDate now.year now.month (now.day + k) c.hour c.minute c.second c.nano now.loc := by
    have hk : frameTime cfg now s tz t = if k = 0 then t else t.addDate 0 0 k := by
      have hk0 : k = dayShift cfg.dateSource now (t.add (-(namedOffset cfg tz t * 1000000000))) := rfl
      unfold frameTime
      rw [← hs]
      simp only [Option.isSome_some, Option.isNone_none, Bool.and_self, if_true]
      have hoff : frameOffset cfg tz t = namedOffset cfg tz t := by unfold frameOffset namedOffset; rfl
      simp only [hoff]
      generalize t.add (-(namedOffset cfg tz t * 1000000000)) = mom at hk0
      unfold dayShift at hk0
      unfold Time.after
      cases hsrc : cfg.dateSource with
      | past => rw [hsrc] at hk0; dsimp only at hk0; cases hb : now.before mom <;> simp [hb] at hk0 <;> simp [hk0]
      | future => rw [hsrc] at hk0; dsimp only at hk0; cases hb : mom.before now <;> simp [hb] at hk0 <;> simp [hk0]
      | current => rw [hsrc] at hk0; dsimp only at hk0; simp [hk0]
    rw [hk]
    split
    · rename_i h0; rw [h0, Int.add_zero]
    · unfold Time.addDate
      rw [S1.year, S1.month, S1.day, S1.hour, S1.minute, S1.second, S1.nanosecond, Int.add_zero, Int.add_zero]
      rfl
  have hctf : correctForTimeFrame e.cfg e.now s tz t =
      .ok (goDate now.year now.month (now.day + k) c.hour c.minute c.second c.nano now.loc) := by
    unfold correctForTimeFrame
    have h1 : frameWeekday e.cfg s t = .ok t := by rw [← hs]; rfl
    rw [h1]
    dsimp only
    have h2 : frameMonth e.cfg e.now s t = t := by rw [← hs]; rfl
    have h3 : frameYear2 e.cfg e.now s t = t := by rw [← hs]; rfl
    rw [h2, h3, hnow, hcfg, hft]
  have hst : checkStrictParsing e.cfg ((missingParts s).map Comp.name) = true := by
    rw [hcfg]; simp [checkStrictParsing, hstrict, hreq]
  have R := absParse_intro hcf hcr hctf hst
  refine ⟨_, R, ?_⟩
  have S2 := shows_goDate (l := now.loc) hday hck (hfix.noJump _)
  have e1 : correctForDay e s (correctForMonth e s
      (goDate now.year now.month (now.day + k) c.hour c.minute c.second c.nano now.loc)) =
      goDate now.year now.month (now.day + k) c.hour c.minute c.second c.nano now.loc := by
    have h1 : correctForMonth e s (goDate now.year now.month (now.day + k) c.hour c.minute c.second c.nano now.loc) =
        goDate now.year now.month (now.day + k) c.hour c.minute c.second c.nano now.loc := by
      unfold correctForMonth
      rw [← hs]
      simp only [Option.isSome_none, Bool.false_eq_true, if_false, Bool.false_and]
      unfold applyMonthFromConfig
      rw [hcfg, hmo, hnow, S2.year, S2.day, S2.hour, S2.minute, S2.second, S2.nanosecond]
      rfl
    rw [h1]
    unfold correctForDay
    rw [← hs]
    simp
  refine ⟨?_, ?_, ?_⟩
  · dsimp only; rw [e1]; exact S2
  · dsimp only; rw [e1]; rfl
  · dsimp only
    unfold periodFor
    rw [hcfg, ← hs]
    dsimp only
    have : (getPeriod { skippedIdx := sk, ctoks := { time := some ⟨(cut6 n).text, .digit⟩ } }) = .day := rfl
    rw [this]
    split
    · have hm : c.period = .second ∨ c.period = .minute ∨ c.period = .hour := by
        cases n <;> simp only [cut6, Notation.meaning] at hc <;> split at hc <;>
          first
          | (cases hc; simp)
          | cases hc
      rcases hm with h | h | h <;> rw [h] <;> rfl
    · rfl

/-- **C08** (partial, as above) Without a zone in the string and without DefaultTimezone: with Past the
result is never after now, with Future never before now, and always less than a day from it. -/
theorem C08_side_partial (cfg : Cfg) (sysNow : Time) (mf : Nat → Bool)
    (n : Notation) (mr : Meridian) (c : Clock) (hn : n.Written mr) (hc : (cut6 n).meaning mr = some c)
    (hstrict : cfg.strict = false) (hreq : cfg.requiredParts = []) (hmo : cfg.monthOfYear = .current)
    (hfix : (nowOf cfg sysNow).loc.IsFixed) (hwf : (nowOf cfg sysNow).WF) (hdtz : cfg.defaultTz = none)
    (hin : IsDate (nowOf cfg sysNow).year (nowOf cfg sysNow).month ((nowOf cfg sysNow).day - 1) ∧
      IsDate (nowOf cfg sysNow).year (nowOf cfg sysNow).month ((nowOf cfg sysNow).day + 1)) :
    let now := nowOf cfg sysNow
    ∃ r, absoluteParse cfg sysNow mf n.text none = .ok r ∧
      (cfg.dateSource = .past → now.before r.time = false ∧ now.before (r.time.add 86400000000000) = true) ∧
      (cfg.dateSource = .future → r.time.before now = false ∧ (r.time.add (-86400000000000)).before now = true) := by
  intro now
  obtain ⟨H, hmain⟩ : ∃ H, H = C08_time_only_partial cfg sysNow mf none n mr c hn hc hstrict hreq hmo hfix := ⟨_, rfl⟩
  clear hmain
  dsimp only at H
  have V : IsDate now.year now.month now.day := (valid_iff _ _ _).mp now.civil_valid
  have hck : IsClock c.hour c.minute c.second c.nano := by
    obtain ⟨sk, _⟩ := timeOnly_parts cfg sysNow mf n mr hn
    exact (clockFor_time (s := { ctoks := { time := some ⟨(cut6 n).text, .digit⟩ } }) hn hc rfl).ok
  have hm1 := hin.1
  have hm2 := hin.2
  have hoff : namedOffset cfg none (goDate now.year now.month now.day c.hour c.minute c.second c.nano now.loc) = 0 := by
    unfold namedOffset; simp [hdtz]
  have hadd0 : ∀ t : Time, t.WF → t.add (-(0 * 1000000000)) = t := by
    intro t ht
    obtain ⟨a, b⟩ := ht
    unfold Time.add
    have e1 : (t.nsec + -(0 * 1000000000)) / 1000000000 = 0 := by omega
    have e2 : (t.nsec + -(0 * 1000000000)) % 1000000000 = t.nsec := by omega
    rw [e1, e2, Int.add_zero]
  rw [show nowOf cfg sysNow = now from rfl] at H
  rw [hoff, hadd0 _ (goDate_wf ..)] at H
  -- wall clock of the result
  have fixnow : ∀ x, now.loc.off x = now.loc.off 0 := fun x => hfix x 0
  have wl : ∀ k : Int, IsDate now.year now.month (now.day + k) → ∀ r : Time,
      Shows r now.year now.month (now.day + k) c.hour c.minute c.second c.nano → r.loc = now.loc →
      r.sec = (goDate now.year now.month now.day c.hour c.minute c.second c.nano now.loc).sec + k * 86400 ∧ r.nsec = c.nano := by
    intro k hk r hr hl
    have w1 := r.wall_eq
    rw [hr.year, hr.month, hr.day, hr.hour, hr.minute, hr.second] at w1
    have w2 := (goDate now.year now.month now.day c.hour c.minute c.second c.nano now.loc).wall_eq
    have S1 := shows_goDate (l := now.loc) V hck (hfix.noJump _)
    rw [S1.year, S1.month, S1.day, S1.hour, S1.minute, S1.second] at w2
    unfold Time.wall at w1 w2
    rw [hl, fixnow] at w1
    rw [goDate_loc, fixnow] at w2
    rw [daysOfCivil_add] at w1
    refine ⟨by omega, hr.nanosecond⟩
  have S1 := shows_goDate (l := now.loc) V hck (hfix.noJump _)
  generalize hT : goDate now.year now.month now.day c.hour c.minute c.second c.nano now.loc = T at H wl S1
  have hTl : T.loc = now.loc := by rw [← hT]; rfl
  -- T lies on the current day
  have hTn : T.sec - T.sec % 1 - now.sec < 86400 ∧ now.sec - T.sec < 86400 := by
    have w1 := T.wall_eq
    rw [S1.year, S1.month, S1.day] at w1
    have w2 := now.wall_eq
    unfold Time.wall at w1 w2
    rw [hTl, fixnow] at w1
    rw [fixnow] at w2
    obtain ⟨a1, a2, a3, a4, a5, a6, a7, a8⟩ := hck
    have b := now.clockOK hwf
    obtain ⟨b1, b2, b3, b4, b5, b6, b7, b8⟩ := b
    rw [S1.hour, S1.minute, S1.second] at w1
    omega
  have hTns : T.nsec = c.nano := S1.nanosecond
  have hcn : 0 ≤ c.nano ∧ c.nano < 1000000000 := ⟨hck.2.2.2.2.2.2.1, hck.2.2.2.2.2.2.2⟩
  obtain ⟨nw1, nw2⟩ := hwf
  have nw1 : 0 ≤ now.nsec := nw1
  have nw2 : now.nsec < 1000000000 := nw2
  have hday : IsDate now.year now.month (now.day + dayShift cfg.dateSource now T) := by
    unfold dayShift
    cases cfg.dateSource with
    | past => dsimp only; split
              · exact hm1
              · rw [Int.add_zero]; exact V
    | future => dsimp only; split
                · exact hm2
                · rw [Int.add_zero]; exact V
    | current => dsimp only; rw [Int.add_zero]; exact V
  obtain ⟨r, hr, hsh, hloc, _⟩ := H hday
  obtain ⟨z1, z2⟩ := wl _ hday r.time hsh hloc
  refine ⟨r, hr, ?_, ?_⟩
  · intro hp
    rw [hp] at z1
    unfold dayShift at z1
    dsimp only at z1
    have bT := Bool.eq_iff_iff (a := now.before T) (b := true)
    unfold Time.before Time.add at *
    simp only [Bool.or_eq_true, Bool.and_eq_true, decide_eq_true_eq, beq_iff_eq, Bool.or_eq_false_iff,
      Bool.and_eq_false_iff, decide_eq_false_iff_not, beq_eq_false_iff_ne, z2] at *
    rw [hTns] at *
    split at z1 <;> omega
  · intro hp
    rw [hp] at z1
    unfold dayShift at z1
    dsimp only at z1
    unfold Time.before Time.add at *
    simp only [Bool.or_eq_true, Bool.and_eq_true, decide_eq_true_eq, beq_iff_eq, Bool.or_eq_false_iff,
      Bool.and_eq_false_iff, decide_eq_false_iff_not, beq_eq_false_iff_ne, z2] at *
    rw [hTns] at *
    split at z1 <;> omega

/-- Met by "3:04 PM" (Past, at 10 in the morning): yesterday. -/
example : (Notation.hmMer "3".toList "04".toList "PM".toList).Written .pm ∧
    (Notation.hmMer "3".toList "04".toList "PM".toList).meaning .pm =
      some { hour := 15, minute := 4, period := .minute } ∧
    dayOf (absoluteParse
      { dateOrder := "DMY".toList, dateSource := .past, currentTime := goDate 2016 3 20 10 0 0 0 Loc.utc }
      Time.zero (fun _ => true) "3:04 PM".toList none) = some (2016, 3, 19, .day) := by
  decide +kernel

/-- **C08** is false of the code across the end of a month: on 2016-03-01 at 10:00, Past, "23:00" is
2016-03-29 23:00, in the future, because the month is put back after the move. -/
theorem C08_month_boundary :
    ∃ r, absoluteParse
      { dateOrder := "DMY".toList, dateSource := .past, currentTime := goDate 2016 3 1 10 0 0 0 Loc.utc }
      Time.zero (fun _ => true) "23:00".toList none = .ok r ∧
      Shows r.time 2016 3 29 23 0 0 0 ∧ (goDate 2016 3 1 10 0 0 0 Loc.utc).before r.time = true := by
  refine ⟨_, rfl, ⟨?_, ?_, ?_, ?_, ?_, ?_, ?_⟩, ?_⟩ <;> decide +kernel

/-- **C08** is false of the code with PreferredMonthOfYear: a bare time jumps to January. -/
theorem C08_first_month :
    ∃ r, absoluteParse
      { dateOrder := "DMY".toList, monthOfYear := .first, currentTime := goDate 2016 3 10 10 0 0 0 Loc.utc }
      Time.zero (fun _ => true) "23:00".toList none = .ok r ∧ Shows r.time 2016 1 10 23 0 0 0 := by
  refine ⟨_, rfl, ⟨?_, ?_, ?_, ?_, ?_, ?_, ?_⟩⟩ <;> decide +kernel

end Verif.Props
