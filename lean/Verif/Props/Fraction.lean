import Verif.Lemmas.Fraction5
import Verif.Props.Relative
/-! # C19: relative dates with amounts that are not whole -/
set_option autoImplicit false
namespace Verif.Props
open Verif.Go Verif.Model Verif.Lemmas Verif.Spec

/-- **C19.** A relative date whose amounts may have decimals: the current time is moved, to the past or the future as
the words say, by whole calendar and clock units whose total length differs from the exact length of the phrase by less
than one second for each amount above seconds that is not whole, always towards the present, by at most half a second for
a number of seconds that is not whole, and by at most 1/50 second for the limited precision of floats. -/
theorem C19_fraction (popTz : List Char → List Char × Option Tz) (big : Int) (cfg : Cfg) (sysNow : Time)
    (tz : Option Tz) (p : Phrase) (h : p.OK) (htail : Filler p.tail) (hr : ∀ i ∈ p.items, number i.whole < 100000)
    (hpop : popTz p.text = (p.text, tz)) :
    ∃ q : Span,
      relativeParse popTz big cfg sysNow p.text =
        { period := if cfg.timeAsPeriod || !(p.periodWith q).isTime then p.periodWith q else .day
          time := q.move cfg.preserveEndOfMonth (p.sign cfg.dateSource) (nowIn cfg sysNow tz) } ∧
      ((p.has .decade || p.has .year) = false → q.years = 0) ∧
      ((p.has .decade || p.has .year || p.has .month) = false → q.months = 0) ∧
      (q.length : Rat) ≤ p.seconds + p.halfSecond + 1 / 50 ∧
      p.seconds ≤ (q.length : Rat) + (p.spreads : Rat) + p.halfSecond + 1 / 50 := by
  have ht := tail_filler htail
  obtain ⟨q, hm, z1, z2, b1, b2⟩ := phrase_parts h ht hr
  refine ⟨q, ?_, z1, z2, b1, b2⟩
  have e0 := fOne_pos
  unfold relativeParse
  rw [phrase_braces h ht, hpop]
  unfold relParseAfterTz
  have hnone : relParseTime p.text = none := by
    unfold relParseTime
    apply parseTime_nodigit
    intro c hc
    have := mem_deleteAll hc
    rw [phrase_delete h ht] at this
    simp only [List.mem_append, List.mem_flatten, List.mem_map] at this
    rcases this with hx | ⟨_, ⟨x, hx, rfl⟩, hc⟩ | hx | hx
    · exact lead_nodigit h c hx
    · exact not_word_not_digit (filler_word (h.more x hx).2 c hc)
    · exact ago_nodigit h c hx
    · exact not_word_not_digit (filler_word htail c hx)
  rw [hnone]
  have hnow : relNow cfg sysNow tz = nowIn cfg sysNow tz := by
    unfold relNow nowIn
    cases tz with
    | some z => rfl
    | none => cases cfg.defaultTz <;> rfl
  simp only [hnow]
  generalize nowIn cfg sysNow tz = now
  have lim : ∀ n k : Nat, n * fOne ≤ k * fOne → n ≤ k := fun n k h => Nat.le_of_mul_le_mul_right h e0
  have m1 := lim q.years _ (by have := hm.y.le; rwa [← Nat.mul_assoc] at this)
  have m2 := lim q.months _ hm.mo.le
  have m3 := lim q.days _ (by have := hm.d.le; rwa [← Nat.mul_assoc] at this)
  have m4 := lim q.hours _ hm.h.le
  have m5 := lim q.minutes _ hm.mi.le
  have m6 := lim q.seconds _ hm.s.le
  have nz : ∀ n : Nat, (n * fOne != 0) = (n != 0) := by
    intro n
    cases n with
    | zero => simp
    | succ n =>
      have : (n + 1) * fOne ≠ 0 := Nat.mul_ne_zero (by omega) (by omega)
      simp [this]
  have key : relParseDate big cfg p.text now = some (q.move cfg.preserveEndOfMonth (p.sign cfg.dateSource) now, p.periodWith q) := by
    unfold relParseDate
    rw [phrase_words h ht, phrase_in h ht, phrase_ago h ht ht.head]
    simp only [Bool.not_true, Bool.false_eq_true, if_false]
    generalize getRelativeDurations p.text = m at *
    have s1 := hm.s.some; have s2 := hm.mi.some; have s3 := hm.h.some
    have s4 := hm.d.some; have s5 := hm.mo.some; have s6 := hm.y.some
    simp only [nz, endFr] at s1 s2 s3 s4 s5 s6
    have hper : relPeriod m = p.periodWith q := by
      unfold relPeriod Phrase.periodWith
      rw [s1, s2, s3, s4, s5, s6]
      cases e1 : p.has .second || q.seconds != 0
      case true => rfl
      cases e2 : p.has .minute || q.minutes != 0
      case true => rfl
      cases e3 : p.has .hour || q.hours != 0
      case true => rfl
      cases e4 : p.has .day || p.has .week || q.days != 0
      case true => rfl
      cases e5 : p.has .month || q.months != 0
      case true => rfl
      have : (p.has .year || p.has .decade) = true := by
        have hf : p.has p.first.unit = true := by
          unfold Phrase.has; rw [List.any_eq_true]; exact ⟨p.first, by simp [Phrase.items], by simp⟩
        cases hu : p.first.unit <;> rw [hu] at hf <;> simp_all
      simp [this]
    have hne : m.isEmpty = false := by
      have hf : p.has p.first.unit = true := by
        unfold Phrase.has; rw [List.any_eq_true]; exact ⟨p.first, by simp [Phrase.items], by simp⟩
      cases hu : p.first.unit <;> rw [hu] at hf
      · exact FMap.nonempty (k := "year".toList) (by rw [s6]; simp [hf])
      · exact FMap.nonempty (k := "year".toList) (by rw [s6]; simp [hf])
      · exact FMap.nonempty (k := "month".toList) (by rw [s5]; simp [hf])
      · exact FMap.nonempty (k := "day".toList) (by rw [s4]; simp [hf])
      · exact FMap.nonempty (k := "day".toList) (by rw [s4]; simp [hf])
      · exact FMap.nonempty (k := "hour".toList) (by rw [s3]; simp [hf])
      · exact FMap.nonempty (k := "minute".toList) (by rw [s2]; simp [hf])
      · exact FMap.nonempty (k := "second".toList) (by rw [s1]; simp [hf])
    rw [hne, hper]
    simp only [Bool.false_eq_true, if_false]
    rw [hm.y.val, hm.mo.val, hm.d.val, hm.h.val, hm.mi.val, hm.s.val]
    rw [toInt_whole big _ (show q.years < 2 ^ 53 by omega), toInt_whole big _ (show q.months < 2 ^ 53 by omega),
      toInt_whole big _ (show q.days < 2 ^ 53 by omega), toInt_whole big _ (show q.hours < 2 ^ 53 by omega),
      toInt_whole big _ (show q.minutes < 2 ^ 53 by omega), toInt_whole big _ (show q.seconds < 2 ^ 53 by omega)]
    rw [wrap64_id (x := (q.hours : Int) * 3600000000000) (by omega) (by omega),
      wrap64_id (x := (q.minutes : Int) * 60000000000) (by omega) (by omega),
      wrap64_id (x := (q.seconds : Int) * 1000000000) (by omega) (by omega),
      wrap64_id (x := -((q.hours : Int) * 3600000000000)) (by omega) (by omega),
      wrap64_id (x := -((q.minutes : Int) * 60000000000)) (by omega) (by omega),
      wrap64_id (x := -((q.seconds : Int) * 1000000000)) (by omega) (by omega)]
    rw [← Int.neg_mul, ← Int.neg_mul, ← Int.neg_mul, relAddDate_eq, relAddDate_eq,
      add_three _ (moved_wf _ _ _ _ _), add_three _ (moved_wf _ _ _ _ _)]
    unfold Span.move Phrase.sign Phrase.future
    have e : ((p.lead.isSome || cfg.dateSource == .future) && !p.ago.isSome) =
        (p.ago.isNone && (p.lead.isSome || cfg.dateSource == .future)) := by
      cases p.ago <;> simp
    rw [e]
    cases p.ago.isNone && (p.lead.isSome || cfg.dateSource == .future) with
    | true => simp only [if_true, Int.one_mul]
    | false =>
      simp only [Bool.false_eq_true, if_false, Int.neg_mul, Int.one_mul]
      have e1 : 3600 * -(q.hours : Int) + 60 * -(q.minutes : Int) + -(q.seconds : Int) =
        -(3600 * (q.hours : Int) + 60 * q.minutes + q.seconds) := by omega
      rw [← e1]
  rw [key]
  simp only
  congr 1
  cases cfg.timeAsPeriod <;> cases (p.periodWith q).isTime <;> rfl

/-- **C19, exact length.** With weeks, days, hours, minutes and seconds only, in a time zone of one offset, the result is
the current time plus or minus a whole number of seconds that differs from the exact length as said. -/
theorem C19_length (popTz : List Char → List Char × Option Tz) (big : Int) (cfg : Cfg) (sysNow : Time)
    (tz : Option Tz) (p : Phrase) (h : p.OK) (htail : Filler p.tail) (hr : ∀ i ∈ p.items, number i.whole < 100000)
    (hpop : popTz p.text = (p.text, tz)) (hl : (nowIn cfg sysNow tz).loc.IsFixed) (hwf : (nowIn cfg sysNow tz).WF)
    (hu : p.has .decade = false ∧ p.has .year = false ∧ p.has .month = false) :
    ∃ n : Nat, (relativeParse popTz big cfg sysNow p.text).time = later (nowIn cfg sysNow tz) (p.sign cfg.dateSource * n) ∧
      (n : Rat) ≤ p.seconds + p.halfSecond + 1 / 50 ∧
      p.seconds ≤ (n : Rat) + (p.spreads : Rat) + p.halfSecond + 1 / 50 := by
  obtain ⟨q, e, z1, z2, b1, b2⟩ := C19_fraction popTz big cfg sysNow tz p h htail hr hpop
  refine ⟨q.length, ?_, b1, b2⟩
  rw [e]
  have y0 := z1 (by simp [hu.1, hu.2.1])
  have m0 := z2 (by simp [hu.1, hu.2.1, hu.2.2])
  generalize nowIn cfg sysNow tz = now at *
  show q.move _ _ now = _
  unfold Span.move
  rw [moved_fixed _ _ hl hwf, later_later, y0, m0]
  generalize p.sign cfg.dateSource = s
  have e : monthIndex now + 12 * (s * ((0 : Nat) : Int)) + s * ((0 : Nat) : Int) = monthIndex now := by simp
  rw [e, (index_year now).1, (index_year now).2]
  have hv := now.year_month_day_valid
  rw [daysIn_eq] at hv
  have e2 : (if cfg.preserveEndOfMonth = true then min now.day (monthLen now.year now.month) else now.day) = now.day := by
    split <;> omega
  rw [e2, monthDays_add]
  congr 1
  rw [show ∀ a b : Int, a + b - a = b from fun a b => by omega]
  unfold Span.length
  rw [y0, m0]
  rw [show 86400 * (s * (q.days : Int)) = s * (86400 * q.days) by rw [Int.mul_left_comm], ← Int.mul_add]
  congr 1
  simp only [Nat.mul_zero, Nat.zero_add]
  omega

/-- The hypotheses are met by e.g. `2.3 hour 1,5 day ago` (exactly 137880 seconds). -/
example :
    let p : Phrase := {
      first := { whole := "2".toList, frac := some ('.', "3".toList), gap := " ".toList, unit := .hour },
      more := [(" ".toList, { whole := "1".toList, frac := some (',', "5".toList), gap := " ".toList, unit := .day })],
      ago := some (" ".toList, "ago".toList) }
    p.text = "2.3 hour 1,5 day ago".toList ∧ p.OK ∧ Filler p.tail ∧ (∀ i ∈ p.items, number i.whole < 100000) ∧
    (p.has .decade = false ∧ p.has .year = false ∧ p.has .month = false) ∧
    p.seconds = 137880 ∧ p.spreads = 2 ∧ p.halfSecond = 0 := by
  refine ⟨by decide, ⟨?_, ?_, ?_, ?_, by decide⟩, ?_, by decide, by decide, by decide +kernel, by decide, by decide +kernel⟩
  all_goals first
    | (intro i hi
       simp only [Phrase.items, List.map_cons, List.map_nil, List.mem_cons, List.not_mem_nil, or_false] at hi
       rcases hi with rfl | rfl <;>
         exact ⟨by decide, by simp, by simp, by simp [IsBlank]⟩)
    | (intro w g h
       simp only [Option.some.injEq, Prod.mk.injEq, reduceCtorEq] at h
       try (obtain ⟨rfl, rfl⟩ := h
            unfold Filler IsWordChar
            decide))
    | (unfold Filler IsWordChar; decide)

/-- **C18 with decimals.** In a time zone of one offset a phrase with decimals, too, never leads to the wrong side of the
current time, for amounts below 100000. -/
theorem C18_fraction_partial (popTz : List Char → List Char × Option Tz) (big : Int) (cfg : Cfg) (sysNow : Time)
    (tz : Option Tz) (p : Phrase) (h : p.OK) (htail : Filler p.tail) (hr : ∀ i ∈ p.items, number i.whole < 100000)
    (hpop : popTz p.text = (p.text, tz)) (hl : (nowIn cfg sysNow tz).loc.IsFixed) (hwf : (nowIn cfg sysNow tz).WF) :
    (p.future cfg.dateSource = true →
      (relativeParse popTz big cfg sysNow p.text).time.before (nowIn cfg sysNow tz) = false) ∧
    (p.future cfg.dateSource = false →
      (relativeParse popTz big cfg sysNow p.text).time.after (nowIn cfg sysNow tz) = false) := by
  obtain ⟨q, e, _, _, _, _⟩ := C19_fraction popTz big cfg sysNow tz p h htail hr hpop
  rw [e]
  generalize nowIn cfg sysNow tz = now at *
  constructor
  · intro hf
    have hs : p.sign cfg.dateSource = 1 := by unfold Phrase.sign; rw [hf]; rfl
    show (q.move _ _ now).before now = false
    unfold Span.move
    simp only [hs, Int.one_mul]
    have f := moved_forward cfg.preserveEndOfMonth now hl hwf q.years q.months q.days (by omega) (by omega)
    unfold later Time.before
    simp only [f.2, Bool.or_eq_false_iff, Bool.and_eq_false_imp, decide_eq_false_iff_not]
    refine ⟨by omega, fun _ => by omega⟩
  · intro hf
    have hs : p.sign cfg.dateSource = -1 := by unfold Phrase.sign; rw [hf]; rfl
    show (q.move _ _ now).after now = false
    unfold Span.move
    simp only [hs]
    have f := moved_backward cfg.preserveEndOfMonth now hl hwf (-1 * q.years) (-1 * q.months) (-1 * q.days) (by omega) (by omega)
    unfold later Time.after Time.before
    simp only [f.2, Bool.or_eq_false_iff, Bool.and_eq_false_imp, decide_eq_false_iff_not]
    refine ⟨by omega, fun _ => by omega⟩

/-- **C19, the second is lost.** `2.3 hour ago` is 2 h 17 min 59 s ago, although 2.3 hours are 2 h 18 min: the fraction
as a float is slightly below 0.3 hours. -/
theorem C19_second_lost : (relativeParse (fun s => (s, none)) 0 { currentTime := goDate 2015 5 31 12 0 0 0 Loc.utc }
    Time.zero "2.3 hour ago".toList).time.sec = (goDate 2015 5 31 9 42 1 0 Loc.utc).sec := by decide +kernel

/-- **C19, whole amounts are left alone**, also when written with decimals (`3.0 day`): the result is that of the
amounts in front of the full stop or comma, exactly. -/
theorem C19_whole (popTz : List Char → List Char × Option Tz) (big : Int) (cfg : Cfg) (sysNow : Time)
    (tz : Option Tz) (p : Phrase) (h : p.OK) (htail : Filler p.tail)
    (hw : ∀ i ∈ p.items, ∀ c ∈ i.decimals, c = '0') (hr : p.InRange) (hpop : popTz p.text = (p.text, tz)) :
    (relativeParse popTz big cfg sysNow p.text).time = p.moment cfg (nowIn cfg sysNow tz) := by
  rw [C16_relative popTz big cfg sysNow tz p h htail ?_ hr hpop]
  intro i hi
  unfold Item.fractional
  rw [List.any_eq_false]
  intro c hc
  simp [hw i hi c hc]

end Verif.Props
