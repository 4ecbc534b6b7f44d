import Verif.Props.Missing
import Verif.Lemmas.Sound
/-! # C10, C11: the period, strict parsing and required parts -/
set_option autoImplicit false
namespace Verif.Props
open Verif.Go Verif.Model Verif.Lemmas Verif.Spec

/-- The finest of the date parts that were given. -/
def finest (day month year : Bool) : Period :=
  if day then .day else if month then .month else if year then .year else .day

theorem parseTime_period {v : List Char} {t : Time} {q : Period} (h : parseTime v = some (t, q)) :
    q = .second ∨ q = .minute ∨ q = .hour := by
  unfold parseTime at h
  generalize toUpper (trimSpace v) = u at h
  have gen : ∀ l : List (List Char × Period), (∀ x ∈ l, x.2 = .second ∨ x.2 = .minute ∨ x.2 = .hour) →
      parseTimeLoop u l = some (t, q) → q = .second ∨ q = .minute ∨ q = .hour := by
    intro l
    induction l with
    | nil => intro _ h; cases h
    | cons x r ih =>
      intro hall h
      obtain ⟨f, p⟩ := x
      rw [parseTimeLoop] at h
      split at h
      · cases h; exact hall (f, q) (by simp)
      · exact ih (fun y hy => hall y (by simp [hy])) h
  exact gen _ (by decide) h

/-- A word of the string stands for the part: a day from 1 to 31 in one or two digits, a month's number or English name, a year in
four or two digits, a weekday's name; or, for the day and the month, it is a left-over number of two digits. -/
def HasWord (str : List Char) (c : Comp) : Prop :=
  match c with
  | .day => ∃ w ∈ wordList str, (∃ d, AsDay w d) ∨ Two w
  | .month => ∃ w ∈ wordList str, (∃ m, AsMonth w m) ∨ Two w
  | .year => ∃ w ∈ wordList str, ∃ y, AsYear w y
  | .weekday => ∃ w ∈ wordList str, ∃ n, IsWeekdayName w n

theorem hasWord_of {str : List Char} {c : Comp} {v : Int} (h : ∃ w ∈ wordList str, Stands c w v) : HasWord str c := by
  obtain ⟨w, hw, h⟩ := h
  cases c with
  | day =>
    rcases h with h | h
    · exact ⟨w, hw, Or.inl ⟨_, h⟩⟩
    · exact ⟨w, hw, Or.inr h.1⟩
  | month =>
    rcases h with h | h
    · exact ⟨w, hw, Or.inl ⟨_, h⟩⟩
    · exact ⟨w, hw, Or.inr h.1⟩
  | year => exact ⟨w, hw, _, h⟩
  | weekday => exact ⟨w, hw, h⟩

/-- **C10** For every string that is understood: the period is the finest part found (Day when there
is none, as for a lone weekday or time); with ReturnTimeAsPeriod and a time in the string it is the
time's own.  Every part found has its word in the string. -/
theorem C10_period (cfg : Cfg) (sysNow : Time) (mf : Nat → Bool) (tz : Option Tz) (str : List Char) (r : DateRes)
    (hr : absoluteParse cfg sysNow mf str tz = .ok r) :
    ∃ s, partsOf cfg sysNow mf str = .ok s ∧
      (∀ c, (s.vals.get c).isSome = true → HasWord str c) ∧
      ((s.ctoks.time = none ∨ cfg.timeAsPeriod = false) →
        r.period = finest s.vals.day.isSome s.vals.month.isSome s.vals.year.isSome) ∧
      (∀ tk, s.ctoks.time = some tk → cfg.timeAsPeriod = true →
        ∃ t q, parseTime tk.text = some (t, q) ∧ r.period = q ∧ (q = .second ∨ q = .minute ∨ q = .hour)) := by
  unfold absoluteParse at hr
  dsimp only at hr
  unfold partsOf
  generalize he : (AEnv.mk gregFns cfg sysNow mf) = e at *
  have hcfg : e.cfg = cfg := by rw [← he]
  have hfn : e.fns = gregFns := by rw [← he]
  cases hi : absInit e str with
  | error f => rw [hi] at hr; cases hr
  | ok s =>
    rw [hi] at hr
    dsimp only at hr
    obtain ⟨H, M, S, ns, p, dt, dt2, hc, _, _, hres, _⟩ := absParse_ok hr
    have found : ∀ c, s.vals.get c = none ∨ HasWord str c := fun c => by
      cases h : s.vals.get c with
      | none => exact Or.inl rfl
      | some v => exact Or.inr (hasWord_of (absInit_words hfn hi c v h))
    refine ⟨s, rfl, ?_, ?_, ?_⟩
    · intro c hc
      rcases found c with h1 | h1
      · rw [h1] at hc; cases hc
      · exact h1
    · intro h
      rw [hres]
      show periodFor e.cfg s p = _
      rw [hcfg]
      unfold periodFor getPeriod finest
      rcases hc with ⟨h1, _, _, _, _, rfl⟩ | ⟨tk, t, q, h1, h2, _, _, _, _, rfl⟩
      · rfl
      · rcases h with h | h
        · rw [h1] at h; cases h
        · simp only [h, Bool.false_eq_true, if_false]
    · intro tk htk hp
      rcases hc with ⟨h1, _⟩ | ⟨tk', t, q, h1, h2, _, _, _, _, rfl⟩
      · rw [htk] at h1; cases h1
      · rw [htk] at h1
        cases h1
        have hq := parseTime_period h2
        refine ⟨t, q, h2, ?_, hq⟩
        rw [hres]
        show periodFor e.cfg s (some q) = _
        rw [hcfg]
        unfold periodFor getPeriod
        simp only [hp, if_true]
        cases s.vals.day <;> cases s.vals.month <;> cases s.vals.year <;>
          rcases hq with rfl | rfl | rfl <;> rfl

/-- Met with and without ReturnTimeAsPeriod. -/
example : [false, true].map (fun b => dayOf (absoluteParse
    { dateOrder := "DMY".toList, timeAsPeriod := b, currentTime := goDate 2016 3 31 10 0 0 0 Loc.utc }
      Time.zero (fun _ => true) "12 May 2015 10:20".toList none)) =
    [some (2015, 5, 12, .day), some (2015, 5, 12, .minute)] := by decide +kernel

/-- **C11** (part) StrictParsing: a result means that day, month and year were all found, and each has a
word of the string it can be read from.
Missing: that these are three different words; this is false, see `C11_two_words`. -/
theorem C11_strict_partial (cfg : Cfg) (sysNow : Time) (mf : Nat → Bool) (tz : Option Tz) (str : List Char)
    (r : DateRes) (hstrict : cfg.strict = true) (hr : absoluteParse cfg sysNow mf str tz = .ok r) :
    HasWord str .day ∧ HasWord str .month ∧ HasWord str .year := by
  unfold absoluteParse at hr
  dsimp only at hr
  generalize he : (AEnv.mk gregFns cfg sysNow mf) = e at *
  have hcfg : e.cfg = cfg := by rw [← he]
  have hfn : e.fns = gregFns := by rw [← he]
  cases hi : absInit e str with
  | error f => rw [hi] at hr; cases hr
  | ok s =>
    rw [hi] at hr
    dsimp only at hr
    obtain ⟨H, M, S, ns, p, dt, dt2, hc, _, _, hres, hchk⟩ := absParse_ok hr
    have found : ∀ c, s.vals.get c = none ∨ HasWord str c := fun c => by
      cases h : s.vals.get c with
      | none => exact Or.inl rfl
      | some v => exact Or.inr (hasWord_of (absInit_words hfn hi c v h))
    rw [hcfg] at hchk
    unfold checkStrictParsing at hchk
    rw [hstrict] at hchk
    have key : ∀ c, c ∈ [Comp.day, Comp.month, Comp.year] → HasWord str c := by
      intro c hcm
      rcases found c with h1 | h1
      · exfalso
        have : c ∈ missingParts s := by
          unfold missingParts
          rw [List.mem_filter]
          exact ⟨hcm, by rw [h1]; rfl⟩
        cases hmp : missingParts s with
        | nil => rw [hmp] at this; simp at this
        | cons a l => rw [hmp] at hchk; simp at hchk
      · exact h1
    exact ⟨key _ (by simp), key _ (by simp), key _ (by simp)⟩

/-- **C11** (part) RequiredParts: a result means that every required part was found and has a word of
the string it can be read from. -/
theorem C11_required_partial (cfg : Cfg) (sysNow : Time) (mf : Nat → Bool) (tz : Option Tz) (str : List Char)
    (r : DateRes) (hr : absoluteParse cfg sysNow mf str tz = .ok r) :
    ("day".toList ∈ cfg.requiredParts → HasWord str .day) ∧
    ("month".toList ∈ cfg.requiredParts → HasWord str .month) ∧
    ("year".toList ∈ cfg.requiredParts → HasWord str .year) := by
  unfold absoluteParse at hr
  dsimp only at hr
  generalize he : (AEnv.mk gregFns cfg sysNow mf) = e at *
  have hcfg : e.cfg = cfg := by rw [← he]
  have hfn : e.fns = gregFns := by rw [← he]
  cases hi : absInit e str with
  | error f => rw [hi] at hr; cases hr
  | ok s =>
    rw [hi] at hr
    dsimp only at hr
    obtain ⟨H, M, S, ns, p, dt, dt2, hc, _, _, hres, hchk⟩ := absParse_ok hr
    have found : ∀ c, s.vals.get c = none ∨ HasWord str c := fun c => by
      cases h : s.vals.get c with
      | none => exact Or.inl rfl
      | some v => exact Or.inr (hasWord_of (absInit_words hfn hi c v h))
    rw [hcfg] at hchk
    have key : ∀ c, c ∈ [Comp.day, Comp.month, Comp.year] → c.name ∈ cfg.requiredParts → HasWord str c := by
      intro c hcm hreq
      rcases found c with h1 | h1
      · exfalso
        have hm : c ∈ missingParts s := by
          unfold missingParts
          rw [List.mem_filter]
          exact ⟨hcm, by rw [h1]; rfl⟩
        unfold checkStrictParsing at hchk
        split at hchk
        · cases hchk
        · rw [List.all_eq_true] at hchk
          have := hchk _ hreq
          simp only [Bool.not_eq_true', ← Bool.not_eq_true, List.contains_iff_mem] at this
          exact this (List.mem_map_of_mem hm)
      · exact h1
    exact ⟨key .day (by simp), key .month (by simp), key .year (by simp)⟩

/-- Whatever the parser finds, a missing part makes it refuse under StrictParsing, and under
RequiredParts when it is a required one. -/
theorem strict_refuses (cfg : Cfg) (sysNow : Time) (mf : Nat → Bool) (tz : Option Tz) (str : List Char) (s : ASt)
    (hs : partsOf cfg sysNow mf str = .ok s) (c : Comp) (hc : c ∈ [Comp.day, Comp.month, Comp.year])
    (hmiss : s.vals.get c = none) (hcfg : cfg.strict = true ∨ c.name ∈ cfg.requiredParts) :
    absoluteParse cfg sysNow mf str tz = .error .error := by
  unfold absoluteParse
  unfold partsOf at hs
  simp only [hs]
  unfold absParse
  have hm : c ∈ missingParts s := by
    unfold missingParts
    rw [List.mem_filter]
    exact ⟨hc, by rw [hmiss]; rfl⟩
  have : checkStrictParsing cfg ((missingParts s).map Comp.name) = false := by
    unfold checkStrictParsing
    split
    · rfl
    · rename_i hnot
      rcases hcfg with h | h
      · exfalso
        apply hnot
        rw [h]
        cases hmp : missingParts s with
        | nil => rw [hmp] at hm; simp at hm
        | cons a l => simp
      · rw [← Bool.not_eq_true, List.all_eq_true]
        intro hall
        have := hall _ h
        simp only [Bool.not_eq_true', ← Bool.not_eq_true, List.contains_iff_mem] at this
        exact this (List.mem_map_of_mem hm)
  simp only [this, Bool.not_false, if_true]

/-- The configuration asks for this part. -/
def Asks (cfg : Cfg) (part : String) : Prop := cfg.strict = true ∨ part.toList ∈ cfg.requiredParts

/-- **C11** "March 2015" is refused when the day is asked for. -/
theorem C11_month_year_refused (cfg : Cfg) (sysNow : Time) (mf : Nat → Bool) (tz : Option Tz) (o : Order)
    (ho : toLower cfg.dateOrder = o.letters) (mon y sep str : List Char) (n : Int) (hy : Four y)
    (hmon : IsMonthName mon n) (hs : IsSeparator sep) (hstr : MonthYear mon y sep str) (hy2 : 2 ≤ number y)
    (h : Asks cfg "day") : absoluteParse cfg sysNow mf str tz = .error .error := by
  obtain ⟨s, h1, h2, h3⟩ := monthYear_parts cfg sysNow mf o ho mon y sep str n hy hmon hs hstr hy2
  exact strict_refuses cfg sysNow mf tz str s h1 .day (by simp) (by rw [h2]; rfl) h

/-- **C11** "2015" is refused when the day or the month is asked for. -/
theorem C11_year_refused (cfg : Cfg) (sysNow : Time) (mf : Nat → Bool) (tz : Option Tz) (o : Order)
    (ho : toLower cfg.dateOrder = o.letters) (y : List Char) (hy : Four y) (hy2 : 2 ≤ number y)
    (h : Asks cfg "day" ∨ Asks cfg "month") : absoluteParse cfg sysNow mf y tz = .error .error := by
  obtain ⟨s, h1, h2, h3⟩ := year_parts cfg sysNow mf o ho y hy hy2
  rcases h with h | h
  · exact strict_refuses cfg sysNow mf tz y s h1 .day (by simp) (by rw [h2]; rfl) h
  · exact strict_refuses cfg sysNow mf tz y s h1 .month (by simp) (by rw [h2]; rfl) h

/-- **C11** "12 March" is refused when the year is asked for. -/
theorem C11_day_month_refused (cfg : Cfg) (sysNow : Time) (mf : Nat → Bool) (tz : Option Tz) (o : Order)
    (ho : toLower cfg.dateOrder = o.letters) (d mon sep str : List Char) (n : Int) (hd : Short d)
    (hmon : IsMonthName mon n) (hs : IsSeparator sep) (hstr : DayMonth d mon sep str)
    (hday : 1 ≤ number d ∧ number d ≤ 31) (hord : Order.dayBeforeYear o ∨ d.length = 1)
    (h : Asks cfg "year") : absoluteParse cfg sysNow mf str tz = .error .error := by
  obtain ⟨s, h1, h2, _⟩ := dayMonth_parts cfg sysNow mf o ho d mon sep str n hd hmon hs hstr hday hord
  exact strict_refuses cfg sysNow mf tz str s h1 .year (by simp) (by rw [h2]; rfl) h

/-- **C11** A time of day alone is refused when any date part is asked for. -/
theorem C11_time_refused (cfg : Cfg) (sysNow : Time) (mf : Nat → Bool) (tz : Option Tz) (n : Notation) (mr : Meridian)
    (hn : n.Written mr) (h : Asks cfg "day" ∨ Asks cfg "month" ∨ Asks cfg "year") :
    absoluteParse cfg sysNow mf n.text tz = .error .error := by
  obtain ⟨sk, h1⟩ := timeOnly_parts cfg sysNow mf n mr hn
  rcases h with h | h | h
  · exact strict_refuses cfg sysNow mf tz _ _ h1 .day (by simp) rfl h
  · exact strict_refuses cfg sysNow mf tz _ _ h1 .month (by simp) rfl h
  · exact strict_refuses cfg sysNow mf tz _ _ h1 .year (by simp) rfl h

/-- The refusals are met by e.g. "Feb 2015" with StrictParsing. -/
example : Four "2015".toList ∧ IsMonthName "Feb".toList 2 ∧ IsSeparator " ".toList ∧
    MonthYear "Feb".toList "2015".toList " ".toList "Feb 2015".toList ∧ 2 ≤ number "2015".toList ∧
    Asks { strict := true } "day" ∧ Asks { requiredParts := ["day".toList] } "day" := by
  refine ⟨?_, ?_, ?_, MonthYear.my, ?_, Or.inl rfl, Or.inr (by simp)⟩
  · unfold Four; decide
  · unfold IsMonthName; decide
  · unfold IsSeparator; decide
  · decide

/-- Finding: under StrictParsing two words can be enough: "15 2015" with the order YMD first
takes 15 for the year, then 2015, and the left-over 15 becomes both the day and the month (month 15 of
2015 is March 2016). -/
theorem C11_two_words : dayOf (absoluteParse
    { dateOrder := "YMD".toList, strict := true, currentTime := goDate 2015 5 29 10 0 0 0 Loc.utc }
    Time.zero (fun _ => true) "15 2015".toList none) = some (2016, 3, 15, .day) := by decide +kernel

end Verif.Props
