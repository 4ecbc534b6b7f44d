import Verif.Lemmas.ClockSound
import Verif.Props.Detect
import Verif.Props.Strict
/-! # C60: the time of day comes from the text -/
set_option autoImplicit false
namespace Verif.Props
open Verif.Go Verif.Model Verif.Lemmas Verif.Spec

/-- **C60** For every string, every setting and every current time (in a zone with a fixed offset): the clock of the result, in that
zone, is what a time of day made of words of the string means (and so is the period, if the time's own is asked for); or it is midnight,
and then no word of the string has a colon. -/
theorem C60_clock (cfg : Cfg) (sysNow : Time) (mf : Nat → Bool) (tz : Option Tz) (str : List Char) (r : DateRes)
    (hf : (nowOf cfg sysNow).loc.IsFixed) (hr : absoluteParse cfg sysNow mf str tz = .ok r) :
    r.time.loc = (nowOf cfg sysNow).loc ∧
    ((∃ i t c, ClockAt str i t ∧ ReadsClock (toUpper t) c ∧ ShowsClock r.time c.hour c.minute c.second c.nano ∧
        (cfg.timeAsPeriod = true → r.period = c.period)) ∨
      (ShowsClock r.time 0 0 0 0 ∧ ∀ w ∈ wordList str, ':' ∉ w)) := by
  unfold absoluteParse at hr
  dsimp only at hr
  generalize he : (AEnv.mk gregFns cfg sysNow mf) = e at *
  have hcfg : e.cfg = cfg := by rw [← he]
  have hfn : e.fns = gregFns := by rw [← he]
  have hnow : e.now = nowOf cfg sysNow := by rw [← he]; rfl
  cases hi : absInit e str with
  | error f => rw [hi] at hr; cases hr
  | ok s =>
    rw [hi] at hr
    dsimp only at hr
    obtain ⟨H, M, S, ns, p, dt, dt2, hc, hcr, hfr, hres, _⟩ := absParse_ok hr
    rw [hfn] at hcr
    have hl : e.now.loc.IsFixed := by rw [hnow]; exact hf
    have c1 : Clocked e.now.loc H M S ns dt := by
      have : gregCreate e.cfg _ _ _ H M S ns e.now.loc = .ok dt := hcr
      unfold gregCreate at this
      dsimp only at this
      rw [← Except.ok.inj this]
      exact clocked_goDate hl hc.ok _ _ _
    have c2 := clocked_correct (e := e) (s := s) hl hc.ok (clocked_frame hl hc.ok c1 hfr)
    have htime : r.time = correctForDay e s (correctForMonth e s dt2) := by rw [hres]
    rw [← htime] at c2
    refine ⟨by rw [c2.1, hnow], ?_⟩
    rcases hc with ⟨h0, rfl, rfl, rfl, rfl, _⟩ | ⟨tk, t, q, h1, h2, rfl, rfl, rfl, rfl, rfl⟩
    · exact Or.inr ⟨c2.2, absInit_notime hi h0⟩
    · left
      obtain ⟨i, hat⟩ := absInit_clockAt hi h1
      obtain ⟨a1, a2, a3⟩ := clockAt_chars hat
      refine ⟨i, tk.text, _, hat, parseTime_reads a1 a2 a3 h2, c2.2, fun htp => ?_⟩
      rw [hres]
      simp only [periodFor, hcfg, htp, if_true]
      have hq := parseTime_period h2
      unfold getPeriod
      rcases hq with rfl | rfl | rfl <;> (repeat' split) <;> rfl

/-- Without a colon, a period and "am" or "pm" inside a word there is no time of day. -/
theorem no_clock {str : List Char} (hcol : ':' ∉ str) (hdot : '.' ∉ str) (hmer : ∀ w ∈ wordList str, ∀ ap mr, IsMeridian ap mr → ¬ ap <:+: w)
    (i : Nat) (t : List Char) : ¬ ClockAt str i t := by
  rintro ⟨base, frac, mer, k, rfl, hb, hfm, hcm⟩
  have hsan : ∀ x : Char, x ≠ ' ' → x ∈ sanitizeSpaces str → x ∈ str := by
    intro x hx h
    rcases mem_sanitizeSpaces h with h | h
    · exact absurd h hx
    · exact h.1
  have hruns : ∀ w ∈ runs (sanitizeSpaces str), ∀ x ∈ w, x ∈ sanitizeSpaces str := by
    intro w hw x hx
    have good := tokenize_good_aux (sanitizeSpaces str).length (sanitizeSpaces str) (Nat.le_refl _)
    have e := runs_good _ good.1
    rw [good.2] at e
    rw [e] at hw
    rw [← good.2]
    exact List.mem_flatten.mpr ⟨w, hw, hx⟩
  have hword : ∀ (j : Nat) (w : List Char), (wordList str)[j]? = some w → ':' ∉ w := by
    intro j w hw hm
    have := List.mem_of_getElem? hw
    exact hcol (hsan _ (by decide) (hruns w (List.mem_filter.mp this).1 _ hm))
  have hbase : ':' ∉ base := by
    rcases hb with ⟨h, _⟩ | ⟨_, _, sep, _, _, h1, h2, _⟩
    · exact hword _ _ h
    · exfalso
      have : '.' ∈ sep := by
        have : '.' ∈ trimSpace sep := by rw [h2]; simp
        exact mem_trimSpace this
      exact hdot (hsan _ (by decide) (hruns sep h1 _ this))
  have nomer : ∀ (j : Nat), ¬ ∃ w ap mr, (wordList str)[j]? = some w ∧ ap <:+: w ∧ IsMeridian ap mr ∧ mer = ' ' :: ap := by
    rintro j ⟨w, ap, mr, h1, h2, h3, _⟩
    exact hmer w (List.mem_of_getElem? h1) ap mr h3 h2
  rcases hcm with h | h
  · exact hbase h
  · rcases hfm with ⟨_, h1 | h1⟩ | ⟨_, _, _, _, _, _, h1, _⟩
    · exact h h1
    · exact nomer _ h1
    · exact hbase h1

/-- **C60** A string with no colon, no period and no "am" or "pm" inside a word gives midnight. -/
theorem C60_midnight (cfg : Cfg) (sysNow : Time) (mf : Nat → Bool) (tz : Option Tz) (str : List Char) (r : DateRes)
    (hf : (nowOf cfg sysNow).loc.IsFixed) (hr : absoluteParse cfg sysNow mf str tz = .ok r)
    (hcol : ':' ∉ str) (hdot : '.' ∉ str) (hmer : ∀ w ∈ wordList str, ∀ ap mr, IsMeridian ap mr → ¬ ap <:+: w) :
    ShowsClock r.time 0 0 0 0 := by
  obtain ⟨_, h | h⟩ := C60_clock cfg sysNow mf tz str r hf hr
  · obtain ⟨i, t, c, h, _⟩ := h
    exact absurd h (no_clock hcol hdot hmer i t)
  · exact h.1

/-- The moment and the period. -/
def momentOf (r : Except Fault DateRes) : Option (List Int × Period) :=
  match r with
  | .ok x => some ([x.time.year, x.time.month, x.time.day, x.time.hour, x.time.minute, x.time.second, x.time.nsec], x.period)
  | .error _ => none

/-- Settings for the cases below. -/
def clockCfg : Cfg := { dateOrder := "DMY".toList, timeAsPeriod := true, currentTime := goDate 2016 3 31 10 0 0 0 Loc.utc }

/-- C60 is met by a date with seconds, a fraction and "pm"; by an hour joined by a period; by a weekday alone, moved by a
preference, with a time; and by a date with no time. -/
example : ["12 May 2015 3:04:05.25 pm", "12 May 2015 3.20", "Monday 15:04", "12 May 2015"].map (fun s => momentOf (absoluteParse clockCfg
    Time.zero (fun _ => true) s.toList none)) =
    [some ([2015, 5, 12, 15, 4, 5, 250000000], .second), some ([2015, 5, 12, 3, 20, 0, 0], .minute),
     some ([2016, 3, 28, 15, 4, 0, 0], .minute), some ([2015, 5, 12, 0, 0, 0, 0], .day)] := by decide +kernel

/-- The first of these, through the theorem. -/
example : ∃ r, absoluteParse clockCfg Time.zero (fun _ => true) "12 May 2015 3:04:05.25 pm".toList none = .ok r ∧
    ((∃ i t c, ClockAt "12 May 2015 3:04:05.25 pm".toList i t ∧ ReadsClock (toUpper t) c ∧ ShowsClock r.time c.hour c.minute c.second c.nano ∧
        (clockCfg.timeAsPeriod = true → r.period = c.period)) ∨
      (ShowsClock r.time 0 0 0 0 ∧ ∀ w ∈ wordList "12 May 2015 3:04:05.25 pm".toList, ':' ∉ w)) := by
  have key : (momentOf (absoluteParse clockCfg Time.zero (fun _ => true) "12 May 2015 3:04:05.25 pm".toList none)).isSome = true := by decide +kernel
  cases h : absoluteParse clockCfg Time.zero (fun _ => true) "12 May 2015 3:04:05.25 pm".toList none with
  | error f => rw [h] at key; cases key
  | ok r => exact ⟨r, rfl, (C60_clock clockCfg Time.zero _ _ _ r Loc.utc_isFixed h).2⟩

/-- The notation of that time, and its meaning. -/
example : ReadsClock "3:04:05.25 PM".toList { hour := 15, minute := 4, second := 5, nano := 250000000, period := .second } :=
  ⟨.hmsFracMer "3".toList "04".toList "05".toList "25".toList "PM".toList, .pm, by decide +kernel, by decide +kernel, by decide +kernel⟩

/-- **C60** (finding 63) A day and a month separated by a period, before the year, are taken for a time: 5.12 2015 is not 5 December but
a day of 2015, at 5:12. -/
theorem C60_dotted :
    momentOf (absoluteParse clockCfg Time.zero (fun _ => true) "5.12 2015".toList none) = some ([2015, 3, 31, 5, 12, 0, 0], .minute) := by
  decide +kernel

/-- **C60** (finding 21) "am" and "pm" count inside any word: here the day, before a word that has them, becomes the hour. -/
theorem C60_inside_word :
    momentOf (absoluteParse clockCfg Time.zero (fun _ => true) "May 2015 10 Hampton".toList none) = some ([2015, 5, 31, 10, 0, 0, 0], .hour) := by
  decide +kernel

end Verif.Props
