import Verif.Go.Civil
/-!
# `time.Time`, `time.Location`, `time.Date`

Model of the part of Go's `time` package used by /repo.  A `Time` is an instant (Unix seconds and
nanoseconds) with a location; a location is an offset function of the instant.  Years are unbounded
(Go's wrap around beyond ±292 billion years).
-/
set_option autoImplicit false
namespace Verif.Go

/-- `*time.Location`: a name and the offset (seconds east of UTC) in force at each Unix second; further the abbreviation
in force and the table of all abbreviations with their offsets (needed to read a text by a layout with "MST"). -/
structure Loc where
  name : String
  off : Int → Int
  abbr : Int → List Char := fun _ => []
  zones : List (List Char × Int) := []

/-- `time.UTC`. -/
def Loc.utc : Loc := { name := "UTC", off := fun _ => 0, abbr := fun _ => ['U', 'T', 'C'] }

/-- `time.FixedZone(name, offset)`. -/
def Loc.fixed (name : String) (offset : Int) : Loc :=
  { name := name, off := fun _ => offset, abbr := fun _ => name.toList, zones := [(name.toList, offset)] }

/-- The zone has one offset at all times (e.g. UTC and every `FixedZone`). -/
def Loc.IsFixed (l : Loc) : Prop := ∀ a b, l.off a = l.off b

/-- `time.Time`. -/
structure Time where
  sec : Int
  nsec : Int
  loc : Loc

/-- `time.Time{}`: January 1, year 1, 00:00:00 UTC. -/
def Time.zero : Time := ⟨-62135596800, 0, Loc.utc⟩

/-- `t.IsZero()`. -/
def Time.isZero (t : Time) : Bool := t.sec == -62135596800 && t.nsec == 0

/-- Seconds since the epoch shown on a local clock. -/
def Time.wall (t : Time) : Int := t.sec + t.loc.off t.sec

/-- Local civil date. -/
def Time.civil (t : Time) : Civil := civilOfDays (t.wall / 86400)

/-- `t.Year()` -/
def Time.year (t : Time) : Int := t.civil.y
/-- `t.Month()` -/
def Time.month (t : Time) : Int := t.civil.m
/-- `t.Day()` -/
def Time.day (t : Time) : Int := t.civil.d
/-- Second of the local day. -/
def Time.sod (t : Time) : Int := t.wall % 86400
/-- `t.Hour()` -/
def Time.hour (t : Time) : Int := t.sod / 3600
/-- `t.Minute()` -/
def Time.minute (t : Time) : Int := t.sod % 3600 / 60
/-- `t.Second()` -/
def Time.second (t : Time) : Int := t.sod % 60
/-- `t.Weekday()`, Sunday = 0. -/
def Time.weekday (t : Time) : Int := weekdayOfDays (t.wall / 86400)

/-- `t.Before(u)` -/
def Time.before (t u : Time) : Bool := t.sec < u.sec || (t.sec == u.sec && t.nsec < u.nsec)
/-- `t.After(u)` -/
def Time.after (t u : Time) : Bool := u.before t

/-- `t.In(loc)` -/
def Time.inLoc (t : Time) (l : Loc) : Time := { t with loc := l }

/-- Wall clock seconds of a possibly unnormalised date: months and all smaller units carry over as
`time.Date` documents. -/
def wallOf (y m d H M S ns : Int) : Int :=
  daysOfCivil (y + (m - 1) / 12) ((m - 1) % 12 + 1) d * 86400 + H * 3600 + M * 60 + S + ns / 1000000000

/-- Instant whose wall clock in `l` is `w`; Go looks the offset up at `w` taken as UTC and, if it is
not zero, again at the shifted instant. -/
def unixOfWall (l : Loc) (w : Int) : Int :=
  if l.off w = 0 then w else w - l.off (w - l.off w)

/-- `time.Date(y, m, d, H, M, S, ns, loc)`. -/
def goDate (y m d H M S ns : Int) (l : Loc) : Time :=
  ⟨unixOfWall l (wallOf y m d H M S ns), ns % 1000000000, l⟩

/-- `t.AddDate(years, months, days)`. -/
def Time.addDate (t : Time) (years months days : Int) : Time :=
  goDate (t.year + years) (t.month + months) (t.day + days) t.hour t.minute t.second t.nsec t.loc

/-- `t.Add(d)` with `d` in nanoseconds. -/
def Time.add (t : Time) (d : Int) : Time :=
  { t with sec := t.sec + (t.nsec + d) / 1000000000, nsec := (t.nsec + d) % 1000000000 }

/-- `time.Unix(sec, nsec)` in location `l` (Go: `time.Local`). -/
def goUnix (sec nsec : Int) (l : Loc) : Time := ⟨sec + nsec / 1000000000, nsec % 1000000000, l⟩

/-- Well-formed: nanoseconds in range (all times Go can produce). -/
def Time.WF (t : Time) : Prop := 0 ≤ t.nsec ∧ t.nsec < 1000000000

/-! ## Facts -/

theorem Loc.utc_isFixed : Loc.utc.IsFixed := fun _ _ => rfl
theorem Loc.fixed_isFixed (n : String) (o : Int) : (Loc.fixed n o).IsFixed := fun _ _ => rfl

theorem wall_unixOfWall_fixed {l : Loc} (h : l.IsFixed) (w : Int) :
    unixOfWall l w + l.off (unixOfWall l w) = w := by
  unfold unixOfWall
  split
  · rename_i e; rw [e]; omega
  · rw [h (w - l.off w) w, h (w - l.off w) w]; omega

/-- The zone shows the same offset at both instants `time.Date` probes for wall clock `w`. -/
def Loc.NoJump (l : Loc) (w : Int) : Prop := l.off (w - l.off w) = l.off w

theorem Loc.IsFixed.noJump {l : Loc} (h : l.IsFixed) (w : Int) : l.NoJump w := h _ _

theorem wall_unixOfWall {l : Loc} {w : Int} (h : l.NoJump w) :
    unixOfWall l w + l.off (unixOfWall l w) = w := by
  unfold unixOfWall
  unfold Loc.NoJump at h
  split
  · rename_i e; rw [e]; omega
  · rw [h, h]; omega

theorem goDate_wall {l : Loc} {y m d H M S ns : Int} (h : l.NoJump (wallOf y m d H M S ns)) :
    (goDate y m d H M S ns l).wall = wallOf y m d H M S ns := wall_unixOfWall h

theorem wallOf_month_norm {y m d H M S ns : Int} (h1 : 1 ≤ m) (h2 : m ≤ 12) :
    wallOf y m d H M S ns =
      daysOfCivil y m d * 86400 + H * 3600 + M * 60 + S + ns / 1000000000 := by
  unfold wallOf
  have e1 : (m - 1) / 12 = 0 := by omega
  have e2 : (m - 1) % 12 + 1 = m := by omega
  rw [e1, e2]; simp

/-- Valid time of day and nanoseconds. -/
def ClockOK (H M S ns : Int) : Prop :=
  0 ≤ H ∧ H < 24 ∧ 0 ≤ M ∧ M < 60 ∧ 0 ≤ S ∧ S < 60 ∧ 0 ≤ ns ∧ ns < 1000000000

theorem Time.clockOK (t : Time) (h : t.WF) : ClockOK t.hour t.minute t.second t.nsec := by
  obtain ⟨h1, h2⟩ := h
  unfold ClockOK Time.hour Time.minute Time.second Time.sod
  omega

/-- Reading back the clock fields of a wall second count. -/
theorem clock_fields (D H M S : Int) (hH : 0 ≤ H ∧ H < 24) (hM : 0 ≤ M ∧ M < 60)
    (hS : 0 ≤ S ∧ S < 60) :
    (D * 86400 + H * 3600 + M * 60 + S) / 86400 = D ∧
    (D * 86400 + H * 3600 + M * 60 + S) % 86400 / 3600 = H ∧
    (D * 86400 + H * 3600 + M * 60 + S) % 86400 % 3600 / 60 = M ∧
    (D * 86400 + H * 3600 + M * 60 + S) % 86400 % 60 = S := by
  have e : (D * 86400 + H * 3600 + M * 60 + S) % 86400 = H * 3600 + M * 60 + S := by omega
  rw [e]; omega

/-- `time.Date` with a valid time of day: day number and clock are as given (months and days may
carry over). -/
theorem goDate_fields {l : Loc} {y m d H M S ns : Int} (hc : ClockOK H M S ns)
    (h : l.NoJump (wallOf y m d H M S ns)) :
    (goDate y m d H M S ns l).wall / 86400 =
        daysOfCivil (y + (m - 1) / 12) ((m - 1) % 12 + 1) d ∧
    (goDate y m d H M S ns l).hour = H ∧ (goDate y m d H M S ns l).minute = M ∧
    (goDate y m d H M S ns l).second = S ∧ (goDate y m d H M S ns l).nsec = ns := by
  obtain ⟨h1, h2, h3, h4, h5, h6, h7, h8⟩ := hc
  unfold Time.hour Time.minute Time.second Time.sod
  rw [goDate_wall h]
  unfold wallOf
  have e0 : ns / 1000000000 = 0 := by omega
  rw [e0, Int.add_zero]
  have k := clock_fields (daysOfCivil (y + (m - 1) / 12) ((m - 1) % 12 + 1) d) H M S ⟨h1, h2⟩ ⟨h3, h4⟩
    ⟨h5, h6⟩
  refine ⟨k.1, k.2.1, k.2.2.1, k.2.2.2, ?_⟩
  show ns % 1000000000 = ns
  omega

/-- `time.Date` on a valid civil date gives this civil date. -/
theorem goDate_civil {l : Loc} {y m d H M S ns : Int} (hc : ClockOK H M S ns)
    (hv : Civil.Valid ⟨y, m, d⟩) (h : l.NoJump (wallOf y m d H M S ns)) :
    (goDate y m d H M S ns l).civil = ⟨y, m, d⟩ := by
  unfold Time.civil
  rw [(goDate_fields hc h).1]
  obtain ⟨h1, h2, h3, h4⟩ := hv
  dsimp only at h1 h2 h3 h4
  have e1 : (m - 1) / 12 = 0 := by omega
  have e2 : (m - 1) % 12 + 1 = m := by omega
  rw [e1, e2, Int.add_zero]
  exact civilOfDays_daysOfCivil y m d h1 h2 h3 h4

theorem Time.civil_valid (t : Time) : t.civil.Valid := civilOfDays_valid _

theorem Time.civil_days (t : Time) : t.civil.days = t.wall / 86400 := days_civilOfDays _

theorem Time.weekday_eq (t : Time) : t.weekday = weekdayOfDays t.civil.days := by
  rw [Time.civil_days]; rfl

theorem goDate_loc (y m d H M S ns : Int) (l : Loc) : (goDate y m d H M S ns l).loc = l := rfl

theorem goDate_wf (y m d H M S ns : Int) (l : Loc) : (goDate y m d H M S ns l).WF := by
  unfold goDate Time.WF; dsimp only; omega

theorem Time.wall_eq (t : Time) :
    t.wall = daysOfCivil t.year t.month t.day * 86400 + t.hour * 3600 + t.minute * 60 + t.second := by
  have h : daysOfCivil t.year t.month t.day = t.wall / 86400 := t.civil_days
  rw [h]
  unfold Time.hour Time.minute Time.second Time.sod
  omega

/-- A valid civil date stays on the same day number whatever day-of-month offset is added. -/
theorem daysOfCivil_add (y m d k : Int) : daysOfCivil y m (d + k) = daysOfCivil y m d + k := by
  unfold daysOfCivil; omega

theorem Time.year_month_day_valid (t : Time) :
    1 ≤ t.month ∧ t.month ≤ 12 ∧ 1 ≤ t.day ∧ t.day ≤ daysIn t.year t.month := t.civil_valid

/-- Comparison of instants in one fixed-offset zone is comparison of wall clocks. -/
theorem Time.before_iff_wall {t u : Time} (hl : t.loc = u.loc) (hf : t.loc.IsFixed) :
    t.before u = true ↔ t.wall < u.wall ∨ (t.wall = u.wall ∧ t.nsec < u.nsec) := by
  unfold Time.before Time.wall
  rw [← hl, hf t.sec u.sec]
  simp only [Bool.or_eq_true, Bool.and_eq_true, decide_eq_true_eq, beq_iff_eq]
  omega

end Verif.Go
