import Verif.Props.Formatted
import Verif.Lemmas.LayoutClear
/-!
# C36: standard layouts, examples, and layouts that are not read back
-/
set_option autoImplicit false
namespace Verif.Props
open Verif.Go Verif.Model Verif.Spec Verif.Lemmas Verif.Data

/-- Every element ends clearly whatever the time: a criterion that can be computed. -/
theorem clear_unambiguous {t : Time} {layout : List Char} (hw : Writable t (layoutChunks layout)) (h : clearLayout (layoutChunks layout) = true) :
    Unambiguous t (layoutChunks layout) := clear_ok hw (layoutChunks_ok layout) h

/-- Layouts of Go's package `time` with date, time of day to the second and offset (`RFC3339`, `RFC1123Z`, `RubyDate`), and a few more. -/
def offsetLayouts : List (List Char) :=
  ["2006-01-02T15:04:05Z07:00", "Mon, 02 Jan 2006 15:04:05 -0700", "Mon Jan 02 15:04:05 -0700 2006", "2006-01-02 15:04:05 -0700",
   "2006-01-02T15:04:05-07:00", "January 2, 2006 15:04:05 Z0700"].map String.toList

/-- Layouts of Go's package `time` with date and time of day to the second, without a zone (`ANSIC`, `DateTime`), and a few more. -/
def plainLayouts : List (List Char) :=
  ["Mon Jan _2 15:04:05 2006", "2006-01-02 15:04:05", "02.01.2006 15:04:05", "1/2/2006 3:04:05 PM", "2 January 2006 15:04:05",
   "20060102150405"].map String.toList

/-- The elements of a layout with a date, a time of day to the second and no fraction. -/
structure ToTheSecond (cs : List Chunk) : Prop where
  clear : clearLayout cs = true
  date : FullDate cs
  hour : cs.any isHour24Elt = true ∨ (cs.any isHour12Elt = true ∧ cs.any isMeridianElt = true)
  meridian : cs.any isHour12Elt = true → cs.any isMeridianElt = true
  minute : cs.any isMinuteElt = true
  second : cs.any isSecondElt = true
  frac : cs.any isFracElt = false
  short : Chunk.year2 ∉ cs
  names : cs.any isZoneNameElt = false
  zones : ∀ iso colon n, Chunk.zone iso colon n ∈ cs → n = 2

theorem toTheSecond_clock {t : Time} {cs : List Chunk} (h : ToTheSecond cs) : SaysClock t cs 9 t.hour t.minute t.second 0 where
  hour := Or.inl ⟨h.hour, h.meridian, rfl⟩
  minute := by rw [if_pos h.minute]
  second := by rw [if_pos h.second]
  digits := by decide
  frac := by
    intro sep k hk
    have := h.frac
    rw [List.any_eq_false] at this
    rcases hk with hk | hk <;> have := this _ hk <;> simp [isFracElt] at this
  nano := by rw [h.frac]; rfl

theorem no_name {cs : List Chunk} (h : cs.any isZoneNameElt = false) : Chunk.tzName ∉ cs := by
  intro hm
  rw [List.any_eq_false] at h
  have := h _ hm
  simp [isZoneNameElt] at this

/-- A computable form of the conditions. -/
def toTheSecond (cs : List Chunk) : Bool :=
  clearLayout cs && cs.any isYearElt && cs.any isMonthElt && (cs.any isDayElt || cs.any isYearDayElt) &&
  (cs.any isHour24Elt || (cs.any isHour12Elt && cs.any isMeridianElt)) && (!cs.any isHour12Elt || cs.any isMeridianElt) &&
  cs.any isMinuteElt && cs.any isSecondElt && !cs.any isFracElt && !cs.any isZoneNameElt &&
  cs.all (fun c => match c with | .year2 => false | .zone _ _ n => n == 2 | _ => true)

theorem toTheSecond_iff {cs : List Chunk} (h : toTheSecond cs = true) : ToTheSecond cs := by
  unfold toTheSecond at h
  simp only [Bool.and_eq_true, Bool.or_eq_true, Bool.not_eq_true', List.all_eq_true] at h
  obtain ⟨⟨⟨⟨⟨⟨⟨⟨⟨⟨h1, h2⟩, h3⟩, h4⟩, h5⟩, h6⟩, h7⟩, h8⟩, h9⟩, h10⟩, h11⟩ := h
  refine ⟨h1, ⟨h2, h3, h4⟩, h5, ?_, h7, h8, h9, ?_, h10, ?_⟩
  · intro h; rcases h6 with h6 | h6
    · rw [h] at h6; cases h6
    · exact h6
  · intro hm; have := h11 _ hm; simp at this
  · intro iso colon n hm; have := h11 _ hm; simpa using this

/-- **C36, standard layouts with an offset.** A time of the years 2 to 9999 in a zone with an offset of whole minutes, written with one of these layouts,
is read back by `Parse` with this layout as the same instant, to the second, with the same offset. -/
theorem C36_standard_offset (E : Env) (hE : Surroundings E) (s : ParserSt) (c : PCfg) (hc : Accepted s c) (before after : List (List Char))
    (layout : List Char) (hl : layout ∈ offsetLayouts) (t : Time) (hwf : t.WF) (hy1 : 2 ≤ t.year) (hy2 : t.year ≤ 9999)
    (ho1 : t.loc.off t.sec % 60 = 0) (ho2 : -86400 ≤ t.loc.off t.sec) (ho3 : t.loc.off t.sec ≤ 86400)
    (hb : ∀ f ∈ before, DoesNotFit E c (timeFormat layout t) f) :
    ∃ r : Time, ReadsAs E s c (timeFormat layout t) (before ++ layout :: after) .day r ∧
      r.sec = t.sec ∧ r.nsec = 0 ∧ r.loc.off r.sec = t.loc.off t.sec := by
  have hT : ∀ L ∈ offsetLayouts, toTheSecond (layoutChunks L) = true ∧ (layoutChunks L).any isZoneElt = true := by decide +kernel
  have hS := toTheSecond_iff (hT layout hl).1
  have hw : Writable t (layoutChunks layout) := by
    refine ⟨hwf, ⟨by omega, hy2⟩, fun h => absurd h hS.short, ?_, fun h => absurd h (no_name hS.names)⟩
    intro iso colon n hm
    have := hS.zones _ _ _ hm
    subst this
    exact ⟨ho2, ho3, ho1⟩
  obtain ⟨r, h1, h2, h3, h4⟩ := C36_instant E hE s c hc before after layout t (clear_unambiguous hw hS.clear) hw hS.date (hT layout hl).2 hS.names
    9 _ _ _ _ (toTheSecond_clock hS) hb hy1
  exact ⟨r, h1, h4 rfl rfl rfl, h2.nanosecond, h3⟩

/-- **C36, standard layouts without a zone.** A time of the years 2 to 9999, written with one of these layouts, is read back by `Parse` with this layout
with the same date and time of day, to the second – in UTC if no zone is given in the configuration and none is recognised in the text. -/
theorem C36_standard_plain (E : Env) (hE : Surroundings E) (s : ParserSt) (c : PCfg) (hc : Accepted s c) (before after : List (List Char))
    (layout : List Char) (hl : layout ∈ plainLayouts) (t : Time) (hwf : t.WF) (hy1 : 2 ≤ t.year) (hy2 : t.year ≤ 9999)
    (hb : ∀ f ∈ before, DoesNotFit E c (timeFormat layout t) f) (hz : SmallOffsets (readingZone E c (timeFormat layout t)))
    (hj : (readingZone E c (timeFormat layout t)).NoJump (wallOf t.year t.month t.day t.hour t.minute t.second 0)) :
    ∃ r : Time, ReadsAs E s c (timeFormat layout t) (before ++ layout :: after) .day r ∧
      Shows r t.year t.month t.day t.hour t.minute t.second 0 ∧
      (c.defaultTz = none → (popTzOffset E.table (timeFormat layout t)).2 = none → r.loc = Loc.utc) := by
  have hT : ∀ L ∈ plainLayouts, toTheSecond (layoutChunks L) = true ∧ (layoutChunks L).any isZoneElt = false := by decide +kernel
  have hS := toTheSecond_iff (hT layout hl).1
  have hw : Writable t (layoutChunks layout) := by
    refine ⟨hwf, ⟨by omega, hy2⟩, fun h => absurd h hS.short, ?_, fun h => absurd h (no_name hS.names)⟩
    intro iso colon n hm
    have := (hT layout hl).2
    rw [List.any_eq_false] at this
    have := this _ hm
    simp [isZoneElt] at this
  obtain ⟨r, h1, h2, h3⟩ := C36_read_back E hE s c hc before after layout t (clear_unambiguous hw hS.clear) hw hS.date ⟨(hT layout hl).2, hS.names⟩
    9 _ _ _ _ (toTheSecond_clock hS) hb hy1 hz hj
  refine ⟨r, h1, h2, ?_⟩
  intro hn hp
  rw [h3, goDate_loc]
  unfold readingZone
  rw [hp, hn]

/-! ## Examples -/

/-- 5 March 2015, 22:07:09.123456789 in a zone two hours east of Greenwich. -/
def exTime : Time := goDate 2015 3 5 22 7 9 123456789 (Loc.fixed "EET" 7200)

theorem demo_accepted : Accepted {} {} := ⟨rfl, by simp⟩

/-- `C36_standard_offset` and `C36_instant` apply. -/
example : ∃ r : Time, ReadsAs demoEnv {} {} "2015-03-05T22:07:09+02:00".toList ["2006-01-02".toList, "2006-01-02T15:04:05Z07:00".toList] .day r ∧
    r.sec = exTime.sec ∧ r.loc.off r.sec = 7200 := by
  have e : timeFormat "2006-01-02T15:04:05Z07:00".toList exTime = "2015-03-05T22:07:09+02:00".toList := by decide +kernel
  obtain ⟨r, h1, h2, _, h3⟩ := C36_standard_offset demoEnv demo_sound.toSurroundings {} {} demo_accepted ["2006-01-02".toList] []
    "2006-01-02T15:04:05Z07:00".toList (by decide +kernel) exTime (goDate_wf _ _ _ _ _ _ _ _) (by decide +kernel) (by decide +kernel)
    (by decide +kernel) (by decide +kernel) (by decide +kernel) (by rw [e]; intro f hf; simp at hf; subst hf; unfold DoesNotFit; decide +kernel)
  rw [e] at h1
  exact ⟨r, h1, h2, h3⟩

/-- `C36_standard_plain` and `C36_read_back` apply. -/
example : ∃ r : Time, ReadsAs demoEnv {} {} "Thu Mar  5 22:07:09 2015".toList ["Mon Jan _2 15:04:05 2006".toList] .day r ∧
    Shows r 2015 3 5 22 7 9 0 := by
  have e : timeFormat "Mon Jan _2 15:04:05 2006".toList exTime = "Thu Mar  5 22:07:09 2015".toList := by decide +kernel
  have ez : readingZone demoEnv {} "Thu Mar  5 22:07:09 2015".toList = Loc.utc := by
    unfold readingZone
    rw [show (popTzOffset demoEnv.table "Thu Mar  5 22:07:09 2015".toList).2 = none from by decide +kernel]
  obtain ⟨r, h1, h2, _⟩ := C36_standard_plain demoEnv demo_sound.toSurroundings {} {} demo_accepted [] []
    "Mon Jan _2 15:04:05 2006".toList (by decide +kernel) exTime (goDate_wf _ _ _ _ _ _ _ _) (by decide +kernel) (by decide +kernel)
    (by simp) (by rw [e, ez]; exact fun _ => by show (-86400 : Int) ≤ 0 ∧ (0 : Int) ≤ 86400; decide) (by rw [e, ez]; exact Loc.utc_isFixed.noJump _)
  rw [e] at h1
  have e2 : exTime.year = 2015 ∧ exTime.month = 3 ∧ exTime.day = 5 ∧ exTime.hour = 22 ∧ exTime.minute = 7 ∧ exTime.second = 9 := by decide +kernel
  obtain ⟨a1, a2, a3, a4, a5, a6⟩ := e2
  rw [a1, a2, a3, a4, a5, a6] at h2
  exact ⟨r, h1, h2⟩

theorem writable_of {t : Time} {cs : List Chunk} (hwf : t.WF) (h1 : 1 ≤ t.year) (h2 : t.year ≤ 9999)
    (hs : cs.all (fun c => match c with | .year2 => false | .zone _ _ _ => false | _ => true) = true)
    (ha : Chunk.tzName ∈ cs → IsAbbr (t.loc.abbr t.sec)) : Writable t cs := by
  rw [List.all_eq_true] at hs
  refine ⟨hwf, ⟨h1, h2⟩, fun h => ?_, fun a b n h => ?_, ha⟩
  · have := hs _ h; simp at this
  · have := hs _ h; simp at this

/-- `C36_zone_name` applies: the text names its zone. -/
example : ∃ r : Time, ReadsAs demoEnv {} {} "Thu, 05 Mar 2015 22:07:09 EET".toList ["Mon, 02 Jan 2006 15:04:05 MST".toList] .day r ∧
    Shows r 2015 3 5 22 7 9 0 ∧ r.sec = exTime.sec := by
  have e : timeFormat "Mon, 02 Jan 2006 15:04:05 MST".toList exTime = "Thu, 05 Mar 2015 22:07:09 EET".toList := by decide +kernel
  have ez : readingZone demoEnv {} "Thu, 05 Mar 2015 22:07:09 EET".toList = Loc.fixed "EET" 7200 := by
    unfold readingZone
    rw [show (popTzOffset demoEnv.table "Thu, 05 Mar 2015 22:07:09 EET".toList).2 = some ⟨"EET", 7200⟩ from by decide +kernel]
  have hS : toTheSecond (layoutChunks "Mon, 02 Jan 2006 15:04:05".toList) = true := by decide +kernel
  have hw : Writable exTime (layoutChunks "Mon, 02 Jan 2006 15:04:05 MST".toList) :=
    writable_of (goDate_wf _ _ _ _ _ _ _ _) (by decide +kernel) (by decide +kernel) (by decide +kernel)
      (fun _ => ⟨by show ∀ c ∈ ['E', 'E', 'T'], 'A' ≤ c ∧ c ≤ 'Z'; decide, Or.inl rfl⟩)
  have hcl : SaysClock exTime (layoutChunks "Mon, 02 Jan 2006 15:04:05 MST".toList) 9 exTime.hour exTime.minute exTime.second 0 :=
    ⟨Or.inl ⟨Or.inl (by decide +kernel), fun _ => by revert ‹_›; decide +kernel, rfl⟩, by decide +kernel, by decide +kernel, by decide,
      (fun sep k hk => by
        have : (layoutChunks "Mon, 02 Jan 2006 15:04:05 MST".toList).any isFracElt = false := by decide +kernel
        rw [List.any_eq_false] at this
        rcases hk with hk | hk <;> have := this _ hk <;> simp [isFracElt] at this), by decide +kernel⟩
  obtain ⟨r, h1, h2, _, h3⟩ := C36_zone_name demoEnv demo_sound.toSurroundings {} {} demo_accepted [] []
    "Mon, 02 Jan 2006 15:04:05 MST".toList exTime (clear_unambiguous hw (by decide +kernel)) hw
    ⟨by decide +kernel, by decide +kernel, Or.inl (by decide +kernel)⟩ (by decide +kernel) (by decide +kernel) 9 _ _ _ _ hcl
    (by simp) (by decide +kernel) 7200 (by decide) (Or.inr ⟨by decide +kernel, "EET", by decide +kernel, by rw [e]; exact ez⟩)
  rw [e] at h1
  have e2 : exTime.year = 2015 ∧ exTime.month = 3 ∧ exTime.day = 5 ∧ exTime.hour = 22 ∧ exTime.minute = 7 ∧ exTime.second = 9 := by decide +kernel
  obtain ⟨a1, a2, a3, a4, a5, a6⟩ := e2
  have h4 := h3 (by decide +kernel) rfl rfl rfl
  rw [a1, a2, a3, a4, a5, a6] at h2
  exact ⟨r, h1, h2, h4⟩

/-- Period, year, month and day of a result. -/
def shown (r : Except ParseErr DateRes) : Option (Period × Int × Int × Int) :=
  match r with
  | .ok d => some (d.period, d.time.year, d.time.month, d.time.day)
  | .error _ => none

/-- The conditions of `C36_month_period`, `C36_year_period` and `C36_current_year` are met by these layouts, with these results (the clock is at 15 March
2024). -/
example : shown (demoEnv.parse {} (some {}) "March 2015".toList ["January 2006".toList]).2 = some (.month, 2015, 3, 15) := by decide +kernel
example : shown (demoEnv.parse {} (some { dayOfMonth := 2 }) "Feb 2015".toList ["Jan 2006".toList]).2 = some (.month, 2015, 2, 28) := by decide +kernel
example : shown (demoEnv.parse {} (some { monthOfYear := 2, dayOfMonth := 1 }) "2015".toList ["2006".toList]).2 = some (.year, 2015, 12, 1) := by decide +kernel
example : shown (demoEnv.parse {} (some {}) "Feb 29".toList ["Jan 2".toList]).2 = some (.day, 2024, 2, 29) := by decide +kernel

/-! ## Texts that are not read back -/

/-- A time on 10 February 2023. -/
def feb2023 : Time := goDate 2023 2 10 0 0 0 0 Loc.utc

/-- **C36, limit.** The day of the year says month and day, but `Parse` replaces the month: the 64th day of 2015 (5 March) is read as
5 January if January is the preferred month, and as a mere year. -/
theorem C36_day_of_year : timeFormat "2006-002".toList (goDate 2015 3 5 0 0 0 0 Loc.utc) = "2015-064".toList ∧
    shown (demoEnv.parse {} (some { monthOfYear := 1 }) "2015-064".toList ["2006-002".toList]).2 = some (.year, 2015, 1, 5) := by decide +kernel

/-- **C36, limit.** A day without a month is not adjusted to the month: day 31 in February is 3 March. -/
theorem C36_day_without_month :
    shown (demoEnv.parse {} (some { currentTime := feb2023 }) "2015 31".toList ["2006 02".toList]).2 = some (.year, 2015, 3, 3) := by decide +kernel

/-- **C36, limit.** 29 February without a year is 1 March in a common year. -/
theorem C36_leap_day :
    shown (demoEnv.parse {} (some { currentTime := feb2023 }) "Feb 29".toList ["Jan 2".toList]).2 = some (.day, 2023, 3, 1) := by decide +kernel

/-- **C36, limit.** A literal "Mar" in the layout counts as a month: a text with only a year is read as January and with Period Month. -/
theorem C36_literal_mar :
    (layoutChunks "Market of 2006".toList).any isMonthElt = false ∧
    shown (demoEnv.parse {} (some {}) "Market of 2015".toList ["Market of 2006".toList]).2 = some (.month, 2015, 1, 15) ∧
    shown (demoEnv.parse {} (some {}) "Shop of 2015".toList ["Shop of 2006".toList]).2 = some (.year, 2015, 3, 15) := by decide +kernel

/-- **C36, limit.** The year 0 is replaced by the current year. -/
theorem C36_year_zero :
    shown (demoEnv.parse {} (some {}) "0000-03-05".toList ["2006-01-02".toList]).2 = some (.day, 2024, 3, 5) := by decide +kernel

/-- **C36, limit.** `StrictParsing` is not looked at: a mere year is accepted. -/
theorem C36_strict_ignored :
    shown (demoEnv.parse {} (some { strict := true }) "2015".toList ["2006".toList]).2 = some (.year, 2015, 3, 15) := by decide +kernel

end Verif.Props
