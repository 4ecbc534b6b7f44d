import Verif.Lemmas.RelMove
import Verif.Props.TimeOfDay
import Verif.Props.Frames
/-! # C16: relative dates, direction and amount -/
set_option autoImplicit false
namespace Verif.Props
open Verif.Go Verif.Model Verif.Lemmas Verif.Spec

theorem chunks_nodigit (c : Chunk) (hc : c = .hour15 ∨ c = .hour3) (cs : List Chunk) (v : List Char) (st : PState)
    (h : ∀ x, v.head? = some x → x.isDigit = false) : parseChunks (c :: cs) v st = none := by
  have hg : getnum false v = none := by
    cases v with
    | nil => rfl
    | cons x v => simp [getnum, h x rfl]
  rcases hc with rfl | rfl <;> simp [parseChunks, parseChunk, hg]

/-- No time of day without a digit. -/
theorem parseTime_nodigit (s : List Char) (h : ∀ c ∈ s, c.isDigit = false) : parseTime s = none := by
  unfold parseTime
  rw [parseTimeLoop_chunks, timeFormats_chunks]
  have hv : ∀ x, (toUpper (trimSpace s)).head? = some x → x.isDigit = false := by
    intro x hx
    have hx : x ∈ toUpper (trimSpace s) := List.mem_of_head? hx
    unfold toUpper at hx
    rw [List.mem_map] at hx
    obtain ⟨y, hy, rfl⟩ := hx
    have hd := h y (mem_trimSpace hy)
    unfold toUpperC
    split
    · rename_i hc
      have h1 : 97 ≤ y.toNat := hc.1
      have h2 : y.toNat ≤ 122 := hc.2
      generalize y.toNat = n at h1 h2
      have : ∀ n : Nat, n < 123 → 97 ≤ n → (Char.ofNat (n - 32)).isDigit = false := by decide
      exact this n (by omega) h1
    · exact hd
  have hn : ∀ (c : Chunk) (cs : List Chunk), c = .hour15 ∨ c = .hour3 →
      parseWith (c :: cs) (toUpper (trimSpace s)) Loc.utc = none := by
    intro c cs hc
    unfold parseWith
    rw [chunks_nodigit c hc cs _ _ hv]
    rfl
  simp only [loopC, hn _ _ (Or.inl rfl), hn _ _ (Or.inr rfl)]

/-- The durations and direction of a well written phrase with whole amounts. -/
theorem relParseDate_phrase (big : Int) (cfg : Cfg) (now : Time) (p : Phrase) (h : p.OK) (ht : TailOK p.tail)
    (hw : p.Whole) (hr : p.InRange) :
    relParseDate big cfg p.text now = some (p.moment cfg now, p.period) := by
  have hb : ∀ u, p.amount u < 2 ^ 40 := fun u => by have := hr.all u; omega
  have hm := phrase_map h ht hw hb
  have hz : ∀ u, endHas p.has u = false → endAmount (fun u => (p.amount u).toNat) u = 0 := by
    intro u hu
    have z := fun v hv => has_zero p v hv
    cases u <;> simp_all [endHas, endAmount]
  have val := fun u => holds_val hm hz u
  have nn := fun u => amount_nat p h u
  have all := hr.all
  unfold relParseDate
  rw [phrase_words h ht, phrase_in h ht, phrase_ago h ht ht.head]
  simp only [Bool.not_true, Bool.false_eq_true, if_false]
  rw [holds_nonempty p hm, holds_period p hm]
  simp only [Bool.false_eq_true, if_false]
  have v1 : ((getRelativeDurations p.text).val "year".toList).toInt big = p.amount .year + 10 * p.amount .decade := by
    rw [show (getRelativeDurations p.text).val "year".toList = _ from val .year, toInt_whole]
    · have a := nn .year; have b := nn .decade
      simp only [endAmount]; omega
    · have a := all .year; have b := all .decade
      simp only [endAmount]; omega
  have v2 : ((getRelativeDurations p.text).val "month".toList).toInt big = p.amount .month := by
    rw [show (getRelativeDurations p.text).val "month".toList = _ from val .month, toInt_whole]
    · have a := nn .month
      simp only [endAmount]; omega
    · have a := all .month
      simp only [endAmount]; omega
  have v3 : ((getRelativeDurations p.text).val "day".toList).toInt big = p.amount .day + 7 * p.amount .week := by
    rw [show (getRelativeDurations p.text).val "day".toList = _ from val .day, toInt_whole]
    · have a := nn .day; have b := nn .week
      simp only [endAmount]; omega
    · have a := all .day; have b := all .week
      simp only [endAmount]; omega
  have v4 : ((getRelativeDurations p.text).val "hour".toList).toInt big = p.amount .hour := by
    rw [show (getRelativeDurations p.text).val "hour".toList = _ from val .hour, toInt_whole]
    · have a := nn .hour
      simp only [endAmount]; omega
    · have a := all .hour
      simp only [endAmount]; omega
  have v5 : ((getRelativeDurations p.text).val "minute".toList).toInt big = p.amount .minute := by
    rw [show (getRelativeDurations p.text).val "minute".toList = _ from val .minute, toInt_whole]
    · have a := nn .minute
      simp only [endAmount]; omega
    · have a := all .minute
      simp only [endAmount]; omega
  have v6 : ((getRelativeDurations p.text).val "second".toList).toInt big = p.amount .second := by
    rw [show (getRelativeDurations p.text).val "second".toList = _ from val .second, toInt_whole]
    · have a := nn .second
      simp only [endAmount]; omega
    · have a := all .second
      simp only [endAmount]; omega
  rw [v1, v2, v3, v4, v5, v6]
  have n1 := nn .hour; have n2 := nn .minute; have n3 := nn .second
  have m1 := hr.hours; have m2 := hr.minutes; have m3 := all .second
  rw [wrap64_id (x := p.amount .hour * 3600000000000) (by omega) (by omega),
    wrap64_id (x := p.amount .minute * 60000000000) (by omega) (by omega),
    wrap64_id (x := p.amount .second * 1000000000) (by omega) (by omega),
    wrap64_id (x := -(p.amount .hour * 3600000000000)) (by omega) (by omega),
    wrap64_id (x := -(p.amount .minute * 60000000000)) (by omega) (by omega),
    wrap64_id (x := -(p.amount .second * 1000000000)) (by omega) (by omega)]
  rw [← Int.neg_mul, ← Int.neg_mul, ← Int.neg_mul, relAddDate_eq, relAddDate_eq,
    add_three _ (moved_wf _ _ _ _ _), add_three _ (moved_wf _ _ _ _ _)]
  unfold Phrase.moment Phrase.sign Phrase.future
  have e : ((p.lead.isSome || cfg.dateSource == .future) && !p.ago.isSome) =
      (p.ago.isNone && (p.lead.isSome || cfg.dateSource == .future)) := by
    cases p.ago <;> simp
  rw [e]
  cases p.ago.isNone && (p.lead.isSome || cfg.dateSource == .future) with
  | true => simp only [if_true, Int.one_mul]
  | false =>
    simp only [Bool.false_eq_true, if_false, Int.neg_mul, Int.one_mul]
    have e1 : 3600 * -p.amount .hour + 60 * -p.amount .minute + -p.amount .second =
      -(3600 * p.amount .hour + 60 * p.amount .minute + p.amount .second) := by omega
    rw [← e1]

/-- **C16.** A relative date with whole amounts: the current time, in the zone that applies, moved by the amounts
given, to the past or the future as the words say; the period is the finest unit mentioned. -/
theorem C16_relative (popTz : List Char → List Char × Option Tz) (big : Int) (cfg : Cfg) (sysNow : Time)
    (tz : Option Tz) (p : Phrase) (h : p.OK) (htail : Filler p.tail) (hw : p.Whole) (hr : p.InRange)
    (hpop : popTz p.text = (p.text, tz)) :
    relativeParse popTz big cfg sysNow p.text =
      { period := if cfg.timeAsPeriod || !p.period.isTime then p.period else .day
        time := p.moment cfg (nowIn cfg sysNow tz) } := by
  have ht := tail_filler htail
  unfold relativeParse
  rw [phrase_braces h ht, hpop]
  unfold relParseAfterTz
  have hnone : relParseTime p.text = none := by
    unfold relParseTime
    apply parseTime_nodigit
    intro c hc
    have := mem_deleteAll hc
    rw [phrase_delete h ht] at this
    simp only [List.mem_append, List.mem_flatten, List.mem_map] at this
    rcases this with hx | ⟨_, ⟨x, hx, rfl⟩, hc⟩ | hx | hx
    · exact lead_nodigit h c hx
    · exact not_word_not_digit (filler_word (h.more x hx).2 c hc)
    · exact ago_nodigit h c hx
    · exact not_word_not_digit (filler_word htail c hx)
  rw [hnone]
  have hnow : relNow cfg sysNow tz = nowIn cfg sysNow tz := by
    unfold relNow nowIn
    cases tz with
    | some z => rfl
    | none => cases cfg.defaultTz <;> rfl
  simp only [hnow]
  rw [relParseDate_phrase big cfg _ p h ht hw hr]
  simp only
  congr 1
  cases cfg.timeAsPeriod <;> cases p.period.isTime <;> rfl

/-- The hypotheses are met by e.g. `In 1 year,  2 month` and `3 day 12hour ago.` -/
example :
    let p : Phrase := {
      lead := some ("In".toList, " ".toList),
      first := { whole := "1".toList, gap := " ".toList, unit := .year },
      more := [(",  ".toList, { whole := "2".toList, gap := " ".toList, unit := .month })] }
    let q : Phrase := {
      first := { whole := "3".toList, gap := " ".toList, unit := .day },
      more := [(" ".toList, { whole := "12".toList, gap := [], unit := .hour })],
      ago := some (" ".toList, "ago".toList), tail := ".".toList }
    p.text = "In 1 year,  2 month".toList ∧ q.text = "3 day 12hour ago.".toList ∧
    (p.OK ∧ Filler p.tail ∧ p.Whole ∧ p.InRange) ∧ q.OK ∧ Filler q.tail ∧ q.Whole ∧ q.InRange := by
  refine ⟨by decide, by decide, ⟨⟨?_, ?_, ?_, ?_, by decide⟩, ?_, ?_, ?_⟩, ⟨?_, ?_, ?_, ?_, by decide⟩, ?_, ?_, ?_⟩
  all_goals first
    | (intro i hi
       simp only [Phrase.items, List.map_cons, List.map_nil, List.mem_cons, List.not_mem_nil, or_false] at hi
       rcases hi with rfl | rfl <;>
         exact ⟨by decide, by simp, by simp, by simp [IsBlank]⟩)
    | (intro w g h
       simp only [Option.some.injEq, Prod.mk.injEq, reduceCtorEq] at h
       try (obtain ⟨rfl, rfl⟩ := h
            unfold Filler IsWordChar
            decide))
    | (unfold Filler IsWordChar; decide)
    | (unfold Phrase.Whole; decide)
    | exact ⟨fun u => by cases u <;> decide, by decide, by decide⟩

/-- **C16, exact length.** With weeks, days, hours, minutes and seconds only, in a time zone of one offset, the
result is the current time plus or minus exactly that many seconds. -/
theorem C16_exact (popTz : List Char → List Char × Option Tz) (big : Int) (cfg : Cfg) (sysNow : Time)
    (tz : Option Tz) (p : Phrase) (h : p.OK) (htail : Filler p.tail) (hw : p.Whole) (hr : p.InRange)
    (hpop : popTz p.text = (p.text, tz)) (hl : (nowIn cfg sysNow tz).loc.IsFixed) (hwf : (nowIn cfg sysNow tz).WF)
    (hu : p.has .decade = false ∧ p.has .year = false ∧ p.has .month = false) :
    (relativeParse popTz big cfg sysNow p.text).time = later (nowIn cfg sysNow tz)
      (p.sign cfg.dateSource * (7 * 86400 * p.amount .week + 86400 * p.amount .day + 3600 * p.amount .hour +
        60 * p.amount .minute + p.amount .second)) := by
  rw [C16_relative popTz big cfg sysNow tz p h htail hw hr hpop]
  generalize nowIn cfg sysNow tz = now at *
  show p.moment cfg now = _
  unfold Phrase.moment
  simp only
  rw [moved_fixed _ _ hl hwf, later_later, has_zero p _ hu.1, has_zero p _ hu.2.1, has_zero p _ hu.2.2]
  generalize p.sign cfg.dateSource = s
  have e : monthIndex now + 12 * (s * (0 + 10 * 0)) + s * 0 = monthIndex now := by simp
  rw [e, (index_year now).1, (index_year now).2]
  have hv := now.year_month_day_valid
  rw [daysIn_eq] at hv
  have e2 : (if cfg.preserveEndOfMonth = true then min now.day (monthLen now.year now.month) else now.day) = now.day := by
    split <;> omega
  rw [e2, monthDays_add]
  congr 1
  rw [show ∀ a b : Int, a + b - a = b from fun a b => by omega]
  simp only [Int.mul_add]
  rw [show ∀ x : Int, 86400 * (s * x) = s * (86400 * x) from fun x => by rw [Int.mul_left_comm],
    show ∀ x : Int, 86400 * (s * (7 * x)) = s * (7 * 86400 * x) from fun x => by
      rw [Int.mul_left_comm, ← Int.mul_assoc 86400 7]; rfl]
  omega

/-- **C18, within range.** In a time zone of one offset, a phrase that points to the future never gives a time
before the current one, and one that points to the past never a time after it, provided the amounts stay in
range (see `C18_overflow` for what happens outside it). -/
theorem C18_side_partial (popTz : List Char → List Char × Option Tz) (big : Int) (cfg : Cfg) (sysNow : Time)
    (tz : Option Tz) (p : Phrase) (h : p.OK) (htail : Filler p.tail) (hw : p.Whole) (hr : p.InRange)
    (hpop : popTz p.text = (p.text, tz)) (hl : (nowIn cfg sysNow tz).loc.IsFixed) (hwf : (nowIn cfg sysNow tz).WF) :
    (p.future cfg.dateSource = true →
      (relativeParse popTz big cfg sysNow p.text).time.before (nowIn cfg sysNow tz) = false) ∧
    (p.future cfg.dateSource = false →
      (relativeParse popTz big cfg sysNow p.text).time.after (nowIn cfg sysNow tz) = false) := by
  rw [C16_relative popTz big cfg sysNow tz p h htail hw hr hpop]
  generalize nowIn cfg sysNow tz = now at *
  have a := fun u => amount_nat p h u
  have a1 := a .decade; have a2 := a .year; have a3 := a .month; have a4 := a .week
  have a5 := a .day; have a6 := a .hour; have a7 := a .minute; have a8 := a .second
  constructor
  · intro hf
    have hs : p.sign cfg.dateSource = 1 := by unfold Phrase.sign; rw [hf]; rfl
    show (p.moment cfg now).before now = false
    unfold Phrase.moment
    simp only [hs, Int.one_mul]
    have f := moved_forward cfg.preserveEndOfMonth now hl hwf (p.amount .year + 10 * p.amount .decade)
      (p.amount .month) (p.amount .day + 7 * p.amount .week) (by omega) (by omega)
    unfold later Time.before
    simp only [f.2, Bool.or_eq_false_iff, Bool.and_eq_false_imp, decide_eq_false_iff_not]
    refine ⟨by omega, fun _ => by omega⟩
  · intro hf
    have hs : p.sign cfg.dateSource = -1 := by unfold Phrase.sign; rw [hf]; rfl
    show (p.moment cfg now).after now = false
    unfold Phrase.moment
    simp only [hs]
    have f := moved_backward cfg.preserveEndOfMonth now hl hwf (-1 * (p.amount .year + 10 * p.amount .decade))
      (-1 * p.amount .month) (-1 * (p.amount .day + 7 * p.amount .week)) (by omega) (by omega)
    unfold later Time.after Time.before
    simp only [f.2, Bool.or_eq_false_iff, Bool.and_eq_false_imp, decide_eq_false_iff_not]
    refine ⟨by omega, fun _ => by omega⟩

/-- **C18 fails for large amounts.** `2600000 hour ago` lies in the future. -/
theorem C18_overflow : (relativeParse (fun s => (s, none)) 0 { currentTime := goDate 2015 5 31 12 0 0 0 Loc.utc }
    Time.zero "2600000 hour ago".toList).time.after (goDate 2015 5 31 12 0 0 0 Loc.utc) = true := by decide +kernel

/-- … and `in 2600000 hour` in the past. -/
theorem C18_overflow_past : (relativeParse (fun s => (s, none)) 0 { currentTime := goDate 2015 5 31 12 0 0 0 Loc.utc }
    Time.zero "in 2600000 hour".toList).time.before (goDate 2015 5 31 12 0 0 0 Loc.utc) = true := by decide +kernel

/-- Only years, decades and months are mentioned. -/
def MonthsOnly (p : Phrase) : Prop :=
  p.has .week = false ∧ p.has .day = false ∧ p.has .hour = false ∧ p.has .minute = false ∧ p.has .second = false

instance (p : Phrase) : Decidable (MonthsOnly p) := by unfold MonthsOnly; infer_instance

/-- The months a phrase goes forward (or, negative, backward). -/
def monthsMoved (p : Phrase) (src : DateSource) : Int :=
  p.sign src * (120 * p.amount .decade + 12 * p.amount .year + p.amount .month)

theorem months_moment (cfg : Cfg) (now : Time) (p : Phrase) (ho : MonthsOnly p) (hl : now.loc.IsFixed) (hwf : now.WF) :
    p.moment cfg now = later now (86400 * (monthDays (monthIndex now + monthsMoved p cfg.dateSource)
      (if cfg.preserveEndOfMonth then
        min now.day (monthLen ((monthIndex now + monthsMoved p cfg.dateSource) / 12)
          ((monthIndex now + monthsMoved p cfg.dateSource) % 12 + 1)) else now.day) -
        monthDays (monthIndex now) now.day)) := by
  obtain ⟨h1, h2, h3, h4, h5⟩ := ho
  unfold Phrase.moment
  simp only
  rw [moved_fixed _ _ hl hwf, later_later, has_zero p _ h1, has_zero p _ h2, has_zero p _ h3, has_zero p _ h4,
    has_zero p _ h5]
  simp only [Int.mul_zero, Int.add_zero]
  have e : monthIndex now + 12 * (p.sign cfg.dateSource * (p.amount .year + 10 * p.amount .decade)) +
      p.sign cfg.dateSource * p.amount .month = monthIndex now + monthsMoved p cfg.dateSource := by
    unfold monthsMoved
    generalize p.sign cfg.dateSource = s
    simp only [Int.mul_add, Int.add_assoc]
    rw [Int.mul_left_comm 12 s, Int.mul_left_comm 12 s, ← Int.mul_assoc 12 10]
    have : (12 : Int) * 10 = 120 := by decide
    rw [this]
    omega
  rw [e]

/-- A time moved by whole days shows the civil day of that number, and the same clock. -/
theorem later_shows (now : Time) (hl : now.loc.IsFixed) (hwf : now.WF) (k d : Int)
    (hd : IsDate (k / 12) (k % 12 + 1) d) :
    Shows (later now (86400 * (monthDays k d - monthDays (monthIndex now) now.day)))
      (k / 12) (k % 12 + 1) d now.hour now.minute now.second now.nsec := by
  have hn : 0 ≤ now.nsec ∧ now.nsec < 1000000000 := hwf
  have e : later now (86400 * (monthDays k d - monthDays (monthIndex now) now.day)) =
      goDate (k / 12) (k % 12 + 1) d now.hour now.minute now.second now.nsec now.loc := by
    rw [goDate_fixed _ _ _ _ _ _ _ _ hl 0 hn]
    have hs := sec_eq now 0 hl
    have e : 12 * (k / 12) + (k % 12 + 1 - 1) = k := by omega
    rw [e]
    unfold later
    cases now
    simp only [Time.mk.injEq, and_true, true_and] at *
    omega
  rw [e]
  exact shows_goDate hd (now.clockOK hwf) (hl.noJump _)

/-- **C17, PreserveEndOfMonth.** Moving by years and months reaches exactly the month that many months away; the
day is the current one, cut to the length of that month; the clock stays.  Months are counted `12·year + month − 1`. -/
theorem C17_preserve (popTz : List Char → List Char × Option Tz) (big : Int) (cfg : Cfg) (sysNow : Time)
    (tz : Option Tz) (p : Phrase) (h : p.OK) (htail : Filler p.tail) (hw : p.Whole) (hr : p.InRange)
    (hpop : popTz p.text = (p.text, tz)) (hl : (nowIn cfg sysNow tz).loc.IsFixed) (hwf : (nowIn cfg sysNow tz).WF)
    (hkeep : cfg.preserveEndOfMonth = true) (ho : MonthsOnly p) (y m d H M S ns : Int)
    (hnow : Shows (nowIn cfg sysNow tz) y m d H M S ns) (Y N : Int) (hN : 1 ≤ N ∧ N ≤ 12)
    (hk : 12 * Y + N = 12 * y + m + monthsMoved p cfg.dateSource) :
    Shows (relativeParse popTz big cfg sysNow p.text).time Y N (min d (monthLen Y N)) H M S ns := by
  rw [C16_relative popTz big cfg sysNow tz p h htail hw hr hpop]
  generalize nowIn cfg sysNow tz = now at *
  show Shows (p.moment cfg now) _ _ _ _ _ _ _
  rw [months_moment cfg now p ho hl hwf, hkeep]
  simp only [if_true]
  have e1 : (monthIndex now + monthsMoved p cfg.dateSource) / 12 = Y := by
    unfold monthIndex; rw [hnow.year, hnow.month]; omega
  have e2 : (monthIndex now + monthsMoved p cfg.dateSource) % 12 + 1 = N := by
    unfold monthIndex; rw [hnow.year, hnow.month]; omega
  have hv := now.year_month_day_valid
  have hp := monthLen_pos Y N
  have := later_shows now hl hwf (monthIndex now + monthsMoved p cfg.dateSource) (min now.day (monthLen Y N))
    (by rw [e1, e2]; exact ⟨hN.1, hN.2, by omega, by omega⟩)
  rw [e1, e2] at this ⊢
  rw [hnow.hour, hnow.minute, hnow.second, hnow.nanosecond] at this
  rw [← hnow.day]
  exact this

/-- **C17, without PreserveEndOfMonth.** The same month and day if that month has such a day; else the surplus
days run on into the month after it. -/
theorem C17_surplus (popTz : List Char → List Char × Option Tz) (big : Int) (cfg : Cfg) (sysNow : Time)
    (tz : Option Tz) (p : Phrase) (h : p.OK) (htail : Filler p.tail) (hw : p.Whole) (hr : p.InRange)
    (hpop : popTz p.text = (p.text, tz)) (hl : (nowIn cfg sysNow tz).loc.IsFixed) (hwf : (nowIn cfg sysNow tz).WF)
    (hkeep : cfg.preserveEndOfMonth = false) (ho : MonthsOnly p) (y m d H M S ns : Int)
    (hnow : Shows (nowIn cfg sysNow tz) y m d H M S ns) (Y N : Int) (hN : 1 ≤ N ∧ N ≤ 12)
    (hk : 12 * Y + N = 12 * y + m + monthsMoved p cfg.dateSource) :
    (d ≤ monthLen Y N → Shows (relativeParse popTz big cfg sysNow p.text).time Y N d H M S ns) ∧
    (monthLen Y N < d → Shows (relativeParse popTz big cfg sysNow p.text).time Y (N + 1) (d - monthLen Y N) H M S ns) := by
  rw [C16_relative popTz big cfg sysNow tz p h htail hw hr hpop]
  generalize nowIn cfg sysNow tz = now at *
  show (_ → Shows (p.moment cfg now) _ _ _ _ _ _ _) ∧ (_ → Shows (p.moment cfg now) _ _ _ _ _ _ _)
  rw [months_moment cfg now p ho hl hwf, hkeep]
  simp only [Bool.false_eq_true, if_false]
  generalize hK : monthIndex now + monthsMoved p cfg.dateSource = k
  have e0 : k = 12 * Y + (N - 1) := by
    rw [← hK]; unfold monthIndex; rw [hnow.year, hnow.month]; omega
  have e1 : k / 12 = Y := by omega
  have e2 : k % 12 + 1 = N := by omega
  have hv := now.year_month_day_valid
  rw [daysIn_eq] at hv
  have hp := monthLen_pos Y N
  have hd := hnow.day
  have l31 : now.day ≤ 31 := by
    have : monthLen now.year now.month ≤ 31 := by unfold monthLen; repeat' split <;> try omega
    omega
  constructor
  · intro hle
    have := later_shows now hl hwf k d (by rw [e1, e2]; exact ⟨hN.1, hN.2, by omega, hle⟩)
    rw [e1, e2, hnow.hour, hnow.minute, hnow.second, hnow.nanosecond] at this
    rw [hd] at this ⊢
    exact this
  · intro hlt
    have hN11 : N ≠ 12 := by
      intro e; rw [e] at hlt
      have : monthLen Y 12 = 31 := by unfold monthLen; simp
      omega
    have e3 : (k + 1) / 12 = Y := by omega
    have e4 : (k + 1) % 12 + 1 = N + 1 := by omega
    have hp2 := monthLen_pos Y (N + 1)
    have := later_shows now hl hwf (k + 1) (d - monthLen Y N) (by
      rw [e3, e4]; exact ⟨by omega, by omega, by omega, by omega⟩)
    rw [e3, e4, hnow.hour, hnow.minute, hnow.second, hnow.nanosecond, monthDays_next, e1, e2] at this
    have a1 := monthDays_add k d (-monthLen Y N)
    rw [show d - monthLen Y N = d + -monthLen Y N by omega, a1] at this
    rw [show monthDays k d + -monthLen Y N + monthLen Y N = monthDays k d by omega] at this
    rw [hd] at this ⊢
    rw [show d - monthLen Y N = d + -monthLen Y N by omega]
    exact this

/-- E.g. from 31 January 2015, `in 1 month` is 28 February, or, without PreserveEndOfMonth, 3 March. -/
example :
    let now := goDate 2015 1 31 12 0 0 0 Loc.utc
    let r := fun k => (relativeParse (fun s => (s, none)) 0 { currentTime := now, preserveEndOfMonth := k }
      Time.zero "in 1 month".toList).time.civil
    r true = ⟨2015, 2, 28⟩ ∧ r false = ⟨2015, 3, 3⟩ := by decide +kernel

end Verif.Props
