import Verif.Lemmas.RelMap
import Verif.Lemmas.Calendar
import Verif.Spec.Relative
/-! Helper lemmas: moving dates. -/
set_option autoImplicit false
namespace Verif.Lemmas
open Verif.Go Verif.Model Verif.Spec

/-- `time.Date` takes months beyond the year's end. -/
theorem goDate_norm (y m d H M S ns : Int) (l : Loc) :
    goDate y m d H M S ns l = goDate ((12 * y + (m - 1)) / 12) ((12 * y + (m - 1)) % 12 + 1) d H M S ns l := by
  unfold goDate wallOf
  have e1 : y + (m - 1) / 12 = (12 * y + (m - 1)) / 12 := by omega
  have e2 : (m - 1) % 12 + 1 = (12 * y + (m - 1)) % 12 + 1 := by omega
  have e3 : (12 * y + (m - 1)) / 12 + ((12 * y + (m - 1)) % 12 + 1 - 1) / 12 = (12 * y + (m - 1)) / 12 := by omega
  have e4 : ((12 * y + (m - 1)) % 12 + 1 - 1) % 12 + 1 = (12 * y + (m - 1)) % 12 + 1 := by omega
  rw [e3, e4, e1, e2]

theorem lastDay_eq (y m : Int) : (goDate y (m + 1) 0 0 0 0 0 Loc.utc).day =
    daysIn ((12 * y + (m - 1)) / 12) ((12 * y + (m - 1)) % 12 + 1) := by
  generalize hY : (12 * y + (m - 1)) / 12 = Y
  generalize hM : (12 * y + (m - 1)) % 12 + 1 = M
  have b1 : 1 ≤ M := by omega
  have b2 : M ≤ 12 := by omega
  have G := (goDate_fields (l := Loc.utc) (y := y) (m := m + 1) (d := 0) clock0 (Loc.utc_isFixed.noJump _)).1
  unfold Time.day Time.civil
  rw [G]
  have e1 : y + (m + 1 - 1) / 12 = Y + M / 12 := by omega
  have e2 : (m + 1 - 1) % 12 + 1 = M % 12 + 1 := by omega
  rw [e1, e2, monthEnd Y M b1 b2]
  rw [civilOfDays_daysOfCivil _ _ _ b1 b2 (by have := daysIn_pos Y M; omega) (by omega)]

theorem relAddDate_eq (cfg : Cfg) (t : Time) (years months days : Int) :
    relAddDate cfg t years months days = moved cfg.preserveEndOfMonth t years months days := by
  unfold relAddDate moved
  cases cfg.preserveEndOfMonth with
  | false => rfl
  | true =>
    simp only [Bool.not_true, Bool.false_eq_true, if_false, if_true]
    rw [lastDay_eq, goDate_norm (t.year + years)]
    have e : 12 * (t.year + years) + (t.month + months - 1) = 12 * t.year + (t.month - 1) + 12 * years + months := by omega
    rw [e, daysIn_eq]
    generalize 12 * t.year + (t.month - 1) + 12 * years + months = k
    have e2 : (if t.day > monthLen (k / 12) (k % 12 + 1) then monthLen (k / 12) (k % 12 + 1) else t.day) =
        min t.day (monthLen (k / 12) (k % 12 + 1)) := by
      split <;> omega
    rw [e2]
    unfold Time.addDate
    simp only [Int.add_zero]

theorem moved_wf (k : Bool) (t : Time) (y m d : Int) : (moved k t y m d).WF := by
  unfold moved
  cases k <;> exact goDate_wf _ _ _ _ _ _ _ _

theorem add_seconds (t : Time) (h : t.WF) (n : Int) : t.add (n * 1000000000) = later t n := by
  unfold Time.add later
  obtain ⟨h1, h2⟩ := h
  have e1 : (t.nsec + n * 1000000000) / 1000000000 = n := by omega
  have e2 : (t.nsec + n * 1000000000) % 1000000000 = t.nsec := by omega
  rw [e1, e2]

theorem later_wf (t : Time) (h : t.WF) (n : Int) : (later t n).WF := h
theorem later_later (t : Time) (a b : Int) : later (later t a) b = later t (a + b) := by
  unfold later; simp [Int.add_assoc]

/-- Hours, minutes and seconds added one after the other. -/
theorem add_three (t : Time) (h : t.WF) (a b c : Int) :
    ((t.add (a * 3600000000000)).add (b * 60000000000)).add (c * 1000000000) = later t (3600 * a + 60 * b + c) := by
  have e1 : a * 3600000000000 = (3600 * a) * 1000000000 := by omega
  have e2 : b * 60000000000 = (60 * b) * 1000000000 := by omega
  rw [e1, add_seconds t h, e2, add_seconds _ (later_wf t h _), add_seconds _ (later_wf _ (later_wf t h _) _),
    later_later, later_later, ← Int.add_assoc]

/-- Days of the civil calendar, months counted without years. -/
def monthDays (k d : Int) : Int := daysOfCivil (k / 12) (k % 12 + 1) d

theorem monthDays_add (k d e : Int) : monthDays k (d + e) = monthDays k d + e := daysOfCivil_add _ _ _ _

theorem monthDays_next (k d : Int) : monthDays (k + 1) d = monthDays k d + monthLen (k / 12) (k % 12 + 1) := by
  have h := monthEnd (k / 12) (k % 12 + 1) (by omega) (by omega)
  have e1 : (k + 1) / 12 = k / 12 + (k % 12 + 1) / 12 := by omega
  have e2 : (k + 1) % 12 + 1 = (k % 12 + 1) % 12 + 1 := by omega
  have h0 : monthDays (k + 1) 0 = monthDays k (monthLen (k / 12) (k % 12 + 1)) := by
    unfold monthDays
    rw [e1, e2, h, daysIn_eq]
  have a1 := monthDays_add (k + 1) 0 d
  have a2 := monthDays_add k 0 d
  have a3 := monthDays_add k 0 (monthLen (k / 12) (k % 12 + 1))
  rw [Int.zero_add] at a1 a2 a3
  omega

theorem monthLen_pos (y m : Int) : 28 ≤ monthLen y m := by unfold monthLen; repeat' split <;> try omega

theorem monthDays_mono (k : Int) (n : Nat) (d : Int) : monthDays k d + 28 * n ≤ monthDays (k + n) d := by
  induction n with
  | zero => simp
  | succ n ih =>
    have h := monthDays_next (k + n) d
    have p := monthLen_pos ((k + n) / 12) ((k + n) % 12 + 1)
    have e : k + ((n + 1 : Nat) : Int) = k + n + 1 := by omega
    rw [e, h]
    omega

/-- `time.Date` in a fixed zone. -/
theorem goDate_fixed (y m d H M S ns : Int) (l : Loc) (hl : l.IsFixed) (a : Int) (hn : 0 ≤ ns ∧ ns < 1000000000) :
    goDate y m d H M S ns l =
      ⟨monthDays (12 * y + (m - 1)) d * 86400 + H * 3600 + M * 60 + S - l.off a, ns, l⟩ := by
  unfold goDate unixOfWall
  have e1 : (if l.off (wallOf y m d H M S ns) = 0 then wallOf y m d H M S ns
    else wallOf y m d H M S ns - l.off (wallOf y m d H M S ns - l.off (wallOf y m d H M S ns))) =
      wallOf y m d H M S ns - l.off a := by
    split
    · rename_i h; rw [hl (wallOf y m d H M S ns) a] at h; omega
    · rw [hl _ a]
  rw [e1]
  unfold wallOf monthDays
  have e2 : y + (m - 1) / 12 = (12 * y + (m - 1)) / 12 := by omega
  have e3 : (m - 1) % 12 + 1 = (12 * y + (m - 1)) % 12 + 1 := by omega
  have e4 : ns / 1000000000 = 0 := by omega
  have e5 : ns % 1000000000 = ns := by omega
  rw [e2, e3, e4, e5, Int.add_zero]

/-- The month a time lies in, counted without years. -/
def monthIndex (t : Time) : Int := 12 * t.year + (t.month - 1)

theorem index_year (t : Time) : monthIndex t / 12 = t.year ∧ monthIndex t % 12 + 1 = t.month := by
  have h := t.year_month_day_valid
  unfold monthIndex
  have : 1 ≤ t.month ∧ t.month ≤ 12 := ⟨h.1, h.2.1⟩
  omega

theorem sec_eq (t : Time) (a : Int) (hl : t.loc.IsFixed) : t.sec =
    monthDays (monthIndex t) t.day * 86400 + t.hour * 3600 + t.minute * 60 + t.second - t.loc.off a := by
  have h := t.wall_eq
  unfold monthDays
  rw [(index_year t).1, (index_year t).2]
  have : t.wall = t.sec + t.loc.off a := by unfold Time.wall; rw [hl t.sec a]
  rw [← h] at *
  omega

/-- Moving a time in a zone with one offset. -/
theorem moved_fixed (keep : Bool) (t : Time) (hl : t.loc.IsFixed) (hw : t.WF) (y m d : Int) :
    moved keep t y m d = later t (86400 * (monthDays (monthIndex t + 12 * y + m)
      ((if keep then min t.day (monthLen ((monthIndex t + 12 * y + m) / 12) ((monthIndex t + 12 * y + m) % 12 + 1))
        else t.day) + d) - monthDays (monthIndex t) t.day)) := by
  have hs := sec_eq t 0 hl
  have hn : 0 ≤ t.nsec ∧ t.nsec < 1000000000 := hw
  unfold moved
  cases keep with
  | false =>
    simp only [Bool.false_eq_true, if_false]
    rw [goDate_fixed _ _ _ _ _ _ _ _ hl 0 hn]
    unfold later
    have e : 12 * (t.year + y) + (t.month + m - 1) = monthIndex t + 12 * y + m := by unfold monthIndex; omega
    rw [e]
    cases t
    simp only [Time.mk.injEq, and_true, true_and] at *
    omega
  | true =>
    simp only [if_true]
    have e : 12 * t.year + (t.month - 1) + 12 * y + m = monthIndex t + 12 * y + m := by unfold monthIndex; omega
    rw [e]
    generalize hk : monthIndex t + 12 * y + m = k
    have hv := t.year_month_day_valid
    have hp := monthLen_pos (k / 12) (k % 12 + 1)
    have hc := t.clockOK hw
    have sh := shows_goDate (l := t.loc) (y := k / 12) (m := k % 12 + 1)
      (d := min t.day (monthLen (k / 12) (k % 12 + 1))) (H := t.hour) (M := t.minute) (S := t.second)
      (ns := t.nsec) ⟨by omega, by omega, by omega, by omega⟩ hc (hl.noJump _)
    rw [sh.year, sh.month, sh.day, sh.hour, sh.minute, sh.second, sh.nanosecond, goDate_loc,
      goDate_fixed _ _ _ _ _ _ _ _ hl 0 hn]
    unfold later
    have e : 12 * (k / 12) + (k % 12 + 1 - 1) = k := by omega
    rw [e]
    cases t
    simp only [Time.mk.injEq, and_true, true_and] at *
    omega

/-- Forwards is never before. -/
theorem moved_forward (keep : Bool) (t : Time) (hl : t.loc.IsFixed) (hw : t.WF) (y m d : Int) (h : 0 ≤ 12 * y + m)
    (hd : 0 ≤ d) : t.sec ≤ (moved keep t y m d).sec ∧ (moved keep t y m d).nsec = t.nsec := by
  rw [moved_fixed keep t hl hw]
  refine ⟨?_, rfl⟩
  show t.sec ≤ t.sec + _
  generalize hk : monthIndex t + 12 * y + m = k
  have mono := monthDays_mono (monthIndex t) (12 * y + m).toNat t.day
  have e : monthIndex t + ((12 * y + m).toNat : Int) = k := by omega
  rw [e] at mono
  have add1 := monthDays_add k t.day d
  have add2 := monthDays_add k t.day (monthLen (k / 12) (k % 12 + 1) + d - t.day)
  have e2 : t.day + (monthLen (k / 12) (k % 12 + 1) + d - t.day) = monthLen (k / 12) (k % 12 + 1) + d := by omega
  rw [e2] at add2
  have hv := t.year_month_day_valid
  rw [daysIn_eq] at hv
  have hp := monthLen_pos (k / 12) (k % 12 + 1)
  have key : monthDays (monthIndex t) t.day ≤ monthDays k (monthLen (k / 12) (k % 12 + 1) + d) := by
    by_cases hz : (12 * y + m) = 0
    · have : k = monthIndex t := by omega
      subst this
      rw [(index_year t).1, (index_year t).2] at *
      omega
    · have l31 : t.day ≤ 31 := by
        have : monthLen t.year t.month ≤ 31 := by unfold monthLen; repeat' split <;> try omega
        omega
      omega
  cases keep with
  | false => simp only [Bool.false_eq_true, if_false]; omega
  | true =>
    simp only [if_true]
    by_cases hm : t.day ≤ monthLen (k / 12) (k % 12 + 1)
    · rw [show min t.day (monthLen (k / 12) (k % 12 + 1)) = t.day by omega]; omega
    · rw [show min t.day (monthLen (k / 12) (k % 12 + 1)) = monthLen (k / 12) (k % 12 + 1) by omega]; omega

/-- Backwards is never after. -/
theorem moved_backward (keep : Bool) (t : Time) (hl : t.loc.IsFixed) (hw : t.WF) (y m d : Int) (h : 12 * y + m ≤ 0)
    (hd : d ≤ 0) : (moved keep t y m d).sec ≤ t.sec ∧ (moved keep t y m d).nsec = t.nsec := by
  rw [moved_fixed keep t hl hw]
  refine ⟨?_, rfl⟩
  show t.sec + _ ≤ t.sec
  generalize hk : monthIndex t + 12 * y + m = k
  have mono := monthDays_mono k (-(12 * y + m)).toNat t.day
  have e : k + ((-(12 * y + m)).toNat : Int) = monthIndex t := by omega
  rw [e] at mono
  have add1 := monthDays_add k t.day d
  generalize hx : (if keep = true then min t.day (monthLen (k / 12) (k % 12 + 1)) else t.day) = x
  have hx : x ≤ t.day := by cases keep <;> simp at hx <;> omega
  have add2 := monthDays_add k t.day (x + d - t.day)
  have e2 : t.day + (x + d - t.day) = x + d := by omega
  rw [e2] at add2
  omega

end Verif.Lemmas
