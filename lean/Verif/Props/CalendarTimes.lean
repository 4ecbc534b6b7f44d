import Verif.Lemmas.CalTimePass
import Verif.Props.CalendarYears
import Verif.Props.DateTime
/-! # C35: Jalali and Hijri dates with a time of day -/
set_option autoImplicit false
namespace Verif.Props
open Verif.Go Verif.Model Verif.Data Verif.Lemmas Verif.Spec

/-- What `Parse` makes of complete values with a time, in any calendar. -/
theorem absParse_createTime (e : AEnv) (s : ASt) (tz : Option Tz) (y m d : Int)
    (hy : s.vals.year = some y) (hm : s.vals.month = some m) (hd : s.vals.day = some d)
    (hy0 : y ≠ 0) (hm0 : m ≠ 0) (hd0 : d ≠ 0) (td tm : Tok) (hctd : s.ctoks.day = some td) (hctm : s.ctoks.month = some tm)
    (hcty : ∀ t, s.ctoks.year = some t → t.text.length ≠ 2) {H M S ns : Int} {p : Option Period}
    (hc : ClockFor s H M S ns p) {t : Time} (hcreate : e.fns.create e.cfg y m d H M S ns e.now.loc = .ok t) :
    absParse e s tz = .ok { period := periodFor e.cfg s p, time := t } := by
  have hmiss : missingParts s = [] := by simp [missingParts, Vals.get, hy, hm, hd]
  have hstrict : checkStrictParsing e.cfg ((missingParts s).map Comp.name) = true := by
    rw [hmiss]; simp [checkStrictParsing]
  have hctf : correctForTimeFrame e.cfg e.now s tz t = .ok t := by
    unfold correctForTimeFrame
    rw [frameWeekday_skip _ _ _ (by simp [hctd])]
    have h1 : ∀ t, frameMonth e.cfg e.now s t = t := by intro t; simp [frameMonth, hy]
    have h2 : ∀ t, frameYear2 e.cfg e.now s t = t := by
      intro t
      unfold frameYear2
      cases hyt : s.ctoks.year with
      | none => rfl
      | some x => simp [hcty x hyt]
    have h3 : ∀ t, frameTime e.cfg e.now s tz t = t := by intro t; simp [frameTime, hctd]
    dsimp only
    rw [h1, h2, h3]
  rw [absParse_intro hc (by
    rw [hy, hm, hd]
    simp only [orNow]
    rw [if_neg hy0, if_neg hm0, if_neg hd0]
    exact hcreate) hctf hstrict]
  have h4 : ∀ t, correctForMonth e s t = t := by intro t; simp [correctForMonth, hctm]
  have h5 : ∀ t, correctForDay e s t = t := by intro t; simp [correctForDay, hctd]
  rw [h4, h5]

/-- A complete date in words, then a time, in any calendar. -/
theorem calDateTime_core (e : AEnv) (tz : Option Tz)
    (a b c : Wd) (s1 s2 s3 : List Char) (n : Notation) (mr : Meridian) (ck : Clock)
    (ha : a.OK) (hb : b.OK) (hc : c.OK) (h1 : IsSeparator s1) (h2 : IsSeparator s2) (h3 : IsSeparator s3)
    (hn : n.Written mr) (hck : (cut6 n).meaning mr = some ck)
    (hpre : PreOK [] [(a, s1), (b, s2), (c, s3)] (clockWord n))
    (hsk : ∀ w ∈ [a, b, c], skippedTokens.contains w.text = false)
    (y m d : Int) (hy0 : y ≠ 0) (hm0 : m ≠ 0) (hd0 : d ≠ 0) (s : ASt) (ty tm td : Tok)
    (hst : valueSteps e 0 [⟨a.text, a.typ⟩, ⟨b.text, b.typ⟩, ⟨c.text, c.typ⟩] {} = some s)
    (hvals : (fallbacks s).vals = { day := some d, month := some m, year := some y })
    (hct : (fallbacks s).ctoks = { day := some td, month := some tm, year := some ty })
    (hty : ty.text.length ≠ 2) (t : Time)
    (hcreate : e.fns.create e.cfg y m d ck.hour ck.minute ck.second ck.nano e.now.loc = .ok t) :
    (match absInit e (a.text ++ s1 ++ b.text ++ s2 ++ c.text ++ s3 ++ n.text) with
      | .error f => (Except.error f : Except Fault DateRes)
      | .ok s => absParse e s tz) =
      .ok { period := if e.cfg.timeAsPeriod then ck.period else .day, time := t } := by
  obtain ⟨sk, hi⟩ := absInit_time e [(a, s1), (b, s2), (c, s3)] n mr hn
    (by
      intro x hx
      simp only [List.mem_cons, List.not_mem_nil, or_false] at hx
      rcases hx with rfl | rfl | rfl
      · exact ⟨ha, sepOK_of h1⟩
      · exact ⟨hb, sepOK_of h2⟩
      · exact ⟨hc, sepOK_of h3⟩)
    hpre (a.text ++ s1 ++ b.text ++ s2 ++ c.text ++ s3 ++ n.text) (by simp [preText])
  have hps : preSteps e 0 (List.map (·.1) [(a, s1), (b, s2), (c, s3)]) {} = some s := by
    show preSteps e 0 [a, b, c] {} = some s
    rw [preSteps_values e _ 0 {} hsk]
    exact hst
  rw [hps] at hi
  rw [hi]
  dsimp only
  rw [fallbacks_time]
  have hcf : ClockFor { fallbacks s with
        skippedIdx := sk, ctoks := { (fallbacks s).ctoks with time := some ⟨(cut6 n).text, .digit⟩ } }
      ck.hour ck.minute ck.second ck.nano (some ck.period) := clockFor_time hn hck rfl
  rw [absParse_createTime e _ tz y m d (by dsimp only; rw [hvals]) (by dsimp only; rw [hvals])
    (by dsimp only; rw [hvals]) hy0 hm0 hd0 td tm (by dsimp only; rw [hct]) (by dsimp only; rw [hct])
    (by
      intro t ht
      dsimp only at ht
      rw [hct] at ht
      cases ht
      exact hty) hcf hcreate]
  congr 2
  unfold periodFor
  have : getPeriod { fallbacks s with
      skippedIdx := sk, ctoks := { (fallbacks s).ctoks with time := some ⟨(cut6 n).text, .digit⟩ } } = .day := by
    unfold getPeriod; dsimp only; rw [hvals]; rfl
  rw [this]
  dsimp only
  by_cases htp : e.cfg.timeAsPeriod = true
  · rw [if_pos htp, if_pos htp]
    have hm : ck.period = .second ∨ ck.period = .minute ∨ ck.period = .hour := by
      cases n <;> simp only [cut6, Notation.meaning] at hck <;> split at hck <;>
        first
        | (cases hck; simp)
        | cases hck
    rcases hm with h | h | h <;> rw [h] <;> rfl
  · rw [if_neg htp, if_neg htp]

/-! ## From the text -/

/-- The word of the half of the day. -/
def merWord : Meridian → List Char
  | .am => ['a', 'm']
  | .pm => ['p', 'm']

/-- The notation of the tokens. -/
def clockNotation (h m : List Char) (s : Option (List Char)) : Option Meridian → Notation
  | none => match s with
    | none => .hm h m
    | some s => .hms h m s
  | some mr => match s with
    | none => .hmMer h m (merWord mr)
    | some s => .hmsMer h m s (merWord mr)

def latinMeridian : Option Meridian → List Char
  | none => []
  | some .am => " am".toList
  | some .pm => " pm".toList

theorem clockNotation_text (h m : List Char) (s : Option (List Char)) (mer : Option Meridian) :
    (clockNotation h m s mer).text = clockText h m s ++ latinMeridian mer := by
  cases mer with
  | none => cases s <;> simp [clockNotation, merWord, Notation.text, clockText, latinMeridian]
  | some mr => cases s <;> cases mr <;> simp [clockNotation, merWord, Notation.text, clockText, latinMeridian]

theorem clockNotation_ok {h m : List Char} {s : Option (List Char)} {mer : Option Meridian} (hc : ClockOk h m s mer) :
    let n := clockNotation (h.map asciiDigit) (m.map asciiDigit) (s.map (·.map asciiDigit)) mer
    n.Written (mer.getD .am) ∧ (cut6 n).meaning (mer.getD .am) =
      some { hour := clockHour h mer, minute := anyNumber m, second := clockSecond s, nano := 0, period := clockPeriod s } := by
  have h2 := hc.hour
  have h3 : number (m.map asciiDigit) < 60 := hc.minute
  cases mer with
  | none =>
    simp only [Option.isSome_none, Bool.false_eq_true, if_false] at h2
    have h2 : number (h.map asciiDigit) < 24 := h2
    cases s with
    | none =>
      refine ⟨⟨hc.hours, hc.minutes.1⟩, ?_⟩
      simp only [clockNotation, Option.map_none, cut6, Notation.meaning]
      rw [if_pos ⟨h2, h3⟩]
      rfl
    | some x =>
      have h4 : number (x.map asciiDigit) < 60 := hc.second x rfl
      refine ⟨⟨hc.hours, hc.minutes.1, (hc.seconds x rfl).1⟩, ?_⟩
      simp only [clockNotation, Option.map_some, cut6, Notation.meaning]
      rw [if_pos ⟨h2, h3, h4⟩]
      rfl
  | some mr =>
    simp only [Option.isSome_some, if_true] at h2
    have h2 : 1 ≤ number (h.map asciiDigit) ∧ number (h.map asciiDigit) ≤ 12 := h2
    have hmer : IsMeridian (merWord mr) mr := by cases mr <;> (unfold IsMeridian; decide)
    cases s with
    | none =>
      refine ⟨⟨hc.hours, hc.minutes.1, hmer⟩, ?_⟩
      simp only [clockNotation, Option.map_none, cut6, Notation.meaning, Option.getD_some]
      rw [if_pos ⟨by omega, h3⟩]
      rfl
    | some x =>
      have h4 : number (x.map asciiDigit) < 60 := hc.second x rfl
      refine ⟨⟨hc.hours, hc.minutes.1, (hc.seconds x rfl).1, hmer⟩, ?_⟩
      simp only [clockNotation, Option.map_some, cut6, Notation.meaning, Option.getD_some]
      rw [if_pos ⟨h2.2, h3, h4⟩]
      rfl

/-- The template of a time. -/
theorem clock_template {h m : List Char} {s : Option (List Char)} (hh : IsShort h) (hm : IsShort m ∧ m.length = 2) (hs : ∀ x, s = some x → IsShort x ∧ x.length = 2) :
    ∃ T ∈ timeTmpls, ∃ es : List Char, (∀ c ∈ es, c.isDigit = true) ∧ T.map (sub es) = clockText h m s := by
  obtain ⟨m1, m2, rfl⟩ := len2 hm.2
  have hmd := hm.1.1.2
  have hlen : h.length = 1 ∨ h.length = 2 := by
    have h1 := hh.2
    have h2 : h.length ≠ 0 := fun e => hh.1.1 (List.length_eq_zero_iff.mp e)
    omega
  cases s with
  | none =>
    refine hlen.elim (fun hl => ?_) (fun hl => ?_)
    · obtain ⟨h1, rfl⟩ := len1 hl
      refine ⟨"1:23".toList, by decide, ['0', h1, m1, m2], ?_, ?_⟩
      · intro c hc
        simp only [List.mem_cons, List.not_mem_nil, or_false] at hc
        rcases hc with rfl | rfl | rfl | rfl
        · decide
        · exact hh.1.2 _ (by simp)
        · exact hmd _ (by simp)
        · exact hmd _ (by simp)
      · rfl
    · obtain ⟨h1, h2, rfl⟩ := len2 hl
      refine ⟨"12:34".toList, by decide, ['0', h1, h2, m1, m2], ?_, ?_⟩
      · intro c hc
        simp only [List.mem_cons, List.not_mem_nil, or_false] at hc
        rcases hc with rfl | rfl | rfl | rfl | rfl
        · decide
        · exact hh.1.2 _ (by simp)
        · exact hh.1.2 _ (by simp)
        · exact hmd _ (by simp)
        · exact hmd _ (by simp)
      · rfl
  | some x =>
    obtain ⟨hx, hx2⟩ := hs x rfl
    obtain ⟨s1, s2, rfl⟩ := len2 hx2
    have hsd := hx.1.2
    refine hlen.elim (fun hl => ?_) (fun hl => ?_)
    · obtain ⟨h1, rfl⟩ := len1 hl
      refine ⟨"1:23:45".toList, by decide, ['0', h1, m1, m2, s1, s2], ?_, ?_⟩
      · intro c hc
        simp only [List.mem_cons, List.not_mem_nil, or_false] at hc
        rcases hc with rfl | rfl | rfl | rfl | rfl | rfl
        · decide
        · exact hh.1.2 _ (by simp)
        · exact hmd _ (by simp)
        · exact hmd _ (by simp)
        · exact hsd _ (by simp)
        · exact hsd _ (by simp)
      · rfl
    · obtain ⟨h1, h2, rfl⟩ := len2 hl
      refine ⟨"12:34:56".toList, by decide, ['0', h1, h2, m1, m2, s1, s2], ?_, ?_⟩
      · intro c hc
        simp only [List.mem_cons, List.not_mem_nil, or_false] at hc
        rcases hc with rfl | rfl | rfl | rfl | rfl | rfl | rfl
        · decide
        · exact hh.1.2 _ (by simp)
        · exact hh.1.2 _ (by simp)
        · exact hmd _ (by simp)
        · exact hmd _ (by simp)
        · exact hsd _ (by simp)
        · exact hsd _ (by simp)
      · rfl

/-- Normalization of a text that is tidy afterwards. -/
theorem normal_tidy {U : Uni} (hU : PersianUni U) {s : List Char} (h : PersianText s) (hl : ∀ c ∈ s, ¬ (65 ≤ c.toNat ∧ c.toNat ≤ 90))
    (ht : tidy ((s.map plainLetter).map asciiDigit) = true) :
    normalizeDigits U.isDigit (U.normalizeString s) = (s.map plainLetter).map asciiDigit := by
  have hknown : ∀ c ∈ persianLetters, asciiDigit c = c ∧ c.isDigit = false ∧ 128 ≤ c.toNat ∧ toLowerC c = c ∧ isSpace c = false ∧ (c != '\u00a0') = true ∧ plainLetter c ∈ persianLetters := by
    intro c hc
    have := List.all_eq_true.mp persian_known c hc
    simp only [Bool.and_eq_true, decide_eq_true_eq, Bool.not_eq_true', beq_iff_eq] at this
    obtain ⟨⟨⟨⟨⟨⟨k1, k2⟩, k3⟩, k4⟩, k5⟩, k6⟩, k7⟩ := this
    exact ⟨k1, k2, k3, k4, k5, k6, k7⟩
  refine normal_persian hU h (fun c hc => ?_) ?_
  · rcases h c hc with h1 | h1 | h1
    · have hp : plainLetter c = c := by
        unfold plainLetter
        rw [if_neg]
        rintro rfl
        revert h1; decide
      rw [hp]
      unfold toLowerC
      rw [if_neg]
      exact fun hh => hl c hc ⟨hh.1, hh.2⟩
    · exact (hknown _ (hknown c h1).2.2.2.2.2.2).2.2.2.1
    · have := any_known h1; rw [this.2.1]; exact this.1
  · apply tidy_spaces
    rw [← ht]
    have hp : PersianText (s.map plainLetter) := by
      intro c hc
      obtain ⟨x, hx, rfl⟩ := List.mem_map.mp hc
      exact plain_persian (c := x) (fun y hy => by rw [List.mem_singleton] at hy; subst hy; exact h y hx) _ (by simp)
    generalize s.map plainLetter = u at hp
    have key : ∀ (u : List Char), PersianText u → ∀ b, tidyFrom b u = tidyFrom b (u.map asciiDigit) := by
      intro u hu
      have hrel : Rel2 (fun x y => y = asciiDigit x ∧ PersianText [x]) u (u.map asciiDigit) := by
        clear ht
        induction u with
        | nil => exact .nil
        | cons c u ih => exact .cons ⟨rfl, fun y hy => by rw [List.mem_singleton] at hy; subst hy; exact hu _ (by simp)⟩ (ih fun y hy => hu y (by simp [hy]))
      have fact : ∀ x, PersianText [x] → asciiDigit x = x ∨ ((asciiDigit x).isDigit = true ∧ isSpace x = false ∧ (x != '\u00a0') = true) := by
        intro x hx
        rcases hx x (by simp) with h1 | h1 | h1
        · exact Or.inl (asciiDigit_low h1)
        · exact Or.inl (hknown x h1).1
        · exact Or.inr ⟨h1, (any_known h1).2.2⟩
      have dig : ∀ x : Char, x.isDigit = true → isSpace x = false ∧ (x != '\u00a0') = true := by
        intro x hx
        have := any_known (c := x) (by rw [asciiDigit_low (by have := digit_range hx; omega)]; exact hx)
        exact this.2.2
      refine tidyFrom_rel ?_ ?_ ?_ hrel
      · rintro x _ ⟨rfl, hx⟩
        rcases fact x hx with e | ⟨e, e1, _⟩
        · rw [e]
        · rw [e1, (dig _ e).1]
      · rintro x _ ⟨rfl, hx⟩
        rcases fact x hx with e | ⟨e, e1, _⟩
        · rw [e]
        · have a1 : (x == ' ') = false := by
            rw [beq_eq_false_iff_ne]; rintro rfl; revert e1; decide
          have a2 : (asciiDigit x == ' ') = false := by
            rw [beq_eq_false_iff_ne]; intro e2; rw [e2] at e; revert e; decide
          rw [a1, a2]
      · rintro x _ ⟨rfl, hx⟩
        rcases fact x hx with e | ⟨e, _, e1⟩
        · rw [e]
        · rw [e1, (dig _ e).2]
    unfold tidy
    rw [key u hp true]
    cases u <;> rfl

/-- Words. -/
theorem tidy_word : ∀ {A : List Char}, (∀ c ∈ A, isSpace c = false ∧ (c != '\u00a0') = true) → A ≠ [] → ∀ b, tidyFrom b A = true ∧ ∀ B, tidyFrom b (A ++ ' ' :: B) = tidyFrom true B
  | [x], h, _, b => by
    have hx := h x (by simp)
    have hsp : isSpace ' ' = true := by decide
    constructor
    · simp [tidyFrom, hx.1, hx.2]
    · intro B
      simp only [List.cons_append, List.nil_append, tidyFrom, hx.1, hx.2, hsp, Bool.false_eq_true, if_false, if_true]
      simp
  | x :: y :: A, h, _, b => by
    have hx := h x (by simp)
    have ih := tidy_word (A := y :: A) (fun c hc => h c (by simp [hc])) (by simp) false
    constructor
    · rw [tidyFrom, if_neg (by simp [hx.1]), hx.2]
      simpa using ih.1
    · intro B
      rw [List.cons_append, tidyFrom, if_neg (by simp [hx.1]), hx.2]
      simpa using ih.2 B

section
variable {E : Env} (hE : PersianSurroundings E)
include hE

theorem meridian_letters (mr : Meridian) : (∀ c ∈ arabicMeridian mr, c ∈ persianLetters ∧ plainLetter c = c ∧ asciiDigit c = c ∧ isSpace c = false ∧ (c != '\u00a0') = true ∧ ¬ (65 ≤ c.toNat ∧ c.toNat ≤ 90) ∧ 128 ≤ c.toNat) ∧
    arabicMeridian mr ≠ [] := by
  clear hE
  cases mr <;> decide +kernel

/-- The text after normalization. -/
theorem cal_tail_normal (w : Order) (d m y : List Char) (hd : Short (d.map asciiDigit)) (hm : Short (m.map asciiDigit))
    (hy : Four (y.map asciiDigit)) (sep : Char) (hsep : NumericSep w sep) {h mi : List Char} {s : Option (List Char)} {mer : Option Meridian} (hck : ClockOk h mi s mer) (z : List Char)
    (hz : ∀ c ∈ z, (c.toNat < 128 ∨ c ∈ persianLetters) ∧ plainLetter c = c ∧ asciiDigit c = c ∧ ¬ (65 ≤ c.toNat ∧ c.toNat ≤ 90))
    (hzt : ∀ A : List Char, (∀ c ∈ A, isSpace c = false ∧ (c != '\u00a0') = true) → A ≠ [] → tidyFrom true (A ++ z) = true) :
    normalizeDigits E.uni.isDigit (E.uni.normalizeString (w.write d m y [sep] [sep] ++ ' ' :: (clockText h mi s ++ z))) =
      w.write (d.map asciiDigit) (m.map asciiDigit) (y.map asciiDigit) [sep] [sep] ++
        ' ' :: (clockText (h.map asciiDigit) (mi.map asciiDigit) (s.map (·.map asciiDigit)) ++ z) := by
  have hs : toLowerC sep = sep ∧ plainLetter sep = sep ∧ isSpace sep = false ∧ (sep != '\u00a0') = true ∧ sep.toNat < 65 := by
    rcases hsep with rfl | rfl | ⟨rfl, _⟩ <;> decide
  have hmem : ∀ c ∈ w.write d m y [sep] [sep], (asciiDigit c).isDigit = true ∨ c = sep := by
    intro c hc
    rw [write_sep] at hc
    simp only [List.mem_append, List.mem_cons] at hc
    have hp : ∀ c, (c ∈ (w.pick d m y).1 ∨ c ∈ (w.pick d m y).2.1 ∨ c ∈ (w.pick d m y).2.2) → (asciiDigit c).isDigit = true := by
      intro c hc
      have : c ∈ d ∨ c ∈ m ∨ c ∈ y := by cases w <;> simp only [Order.pick] at hc <;> grind
      rcases this with h | h | h
      · exact short_any hd.1 c h
      · exact short_any hm.1 c h
      · exact short_any hy.1 c h
    rcases hc with hc | hc | hc | hc | hc
    · exact Or.inl (hp c (Or.inl hc))
    · exact Or.inr hc
    · exact Or.inl (hp c (Or.inr (Or.inl hc)))
    · exact Or.inr hc
    · exact Or.inl (hp c (Or.inr (Or.inr hc)))
  have hmem2 : ∀ c ∈ clockText h mi s, (asciiDigit c).isDigit = true ∨ c = ':' := by
    intro c hc
    unfold clockText at hc
    simp only [List.mem_append, List.mem_cons] at hc
    rcases hc with hc | hc | hc | hc
    · exact Or.inl (short_any hck.hours.1 c hc)
    · exact Or.inr hc
    · exact Or.inl (short_any hck.minutes.1.1 c hc)
    · cases s with
      | none => cases hc
      | some x =>
        simp only [List.mem_cons] at hc
        rcases hc with hc | hc
        · exact Or.inr hc
        · exact Or.inl (short_any (hck.seconds x rfl).1.1 c hc)
  have hall : ∀ c ∈ w.write d m y [sep] [sep] ++ ' ' :: (clockText h mi s ++ z),
      (asciiDigit c).isDigit = true ∨ c = sep ∨ c = ':' ∨ c = ' ' ∨ c ∈ z := by
    intro c hc
    simp only [List.mem_append, List.mem_cons] at hc
    rcases hc with hc | hc | hc | hc
    · rcases hmem c hc with h | h
      · exact Or.inl h
      · exact Or.inr (Or.inl h)
    · exact Or.inr (Or.inr (Or.inr (Or.inl hc)))
    · rcases hmem2 c hc with h | h
      · exact Or.inl h
      · exact Or.inr (Or.inr (Or.inl h))
    · exact Or.inr (Or.inr (Or.inr (Or.inr hc)))
  have hplain : (w.write d m y [sep] [sep] ++ ' ' :: (clockText h mi s ++ z)).map plainLetter =
      w.write d m y [sep] [sep] ++ ' ' :: (clockText h mi s ++ z) := by
    rw [List.map_congr_left (g := id) (fun c hc => ?_)]
    · simp
    · rcases hall c hc with h | rfl | rfl | rfl | h
      · exact (any_known h).2.1
      · exact hs.2.1
      · decide
      · decide
      · exact (hz c h).2.1
  have easc : asciiDigit sep = sep := asciiDigit_low (by omega)
  have ecol : asciiDigit ':' = ':' := by decide
  have esp : asciiDigit ' ' = ' ' := by decide
  have emer : (z).map asciiDigit = z := by
    rw [List.map_congr_left (g := id) (fun c hc => ?_)]
    · simp
    · exact (hz c hc).2.2.1
  have hres : (w.write d m y [sep] [sep] ++ ' ' :: (clockText h mi s ++ z)).map asciiDigit =
      w.write (d.map asciiDigit) (m.map asciiDigit) (y.map asciiDigit) [sep] [sep] ++
        ' ' :: (clockText (h.map asciiDigit) (mi.map asciiDigit) (s.map (·.map asciiDigit)) ++ z) := by
    have e1 : (w.write d m y [sep] [sep]).map asciiDigit = w.write (d.map asciiDigit) (m.map asciiDigit) (y.map asciiDigit) [sep] [sep] := by
      cases w <;> simp [Order.write, easc]
    have e2 : (clockText h mi s).map asciiDigit = clockText (h.map asciiDigit) (mi.map asciiDigit) (s.map (·.map asciiDigit)) := by
      cases s <;> simp [clockText, ecol]
    simp only [List.map_append, List.map_cons, e1, e2, emer, esp]
  have htidy : tidy ((w.write d m y [sep] [sep] ++ ' ' :: (clockText h mi s ++ z)).map asciiDigit) = true := by
    have hdig : ∀ c, (asciiDigit c).isDigit = true → isSpace (asciiDigit c) = false ∧ (asciiDigit c != '\u00a0') = true := fun c hc =>
      (any_known (c := asciiDigit c) (by rw [asciiDigit_low (by have := digit_range hc; omega)]; exact hc)).2.2
    have w1 : ∀ c ∈ (w.write d m y [sep] [sep]).map asciiDigit, isSpace c = false ∧ (c != '\u00a0') = true := by
      intro c hc
      obtain ⟨x, hx, rfl⟩ := List.mem_map.mp hc
      rcases hmem x hx with h | rfl
      · exact hdig x h
      · rw [easc]; exact ⟨hs.2.2.1, hs.2.2.2.1⟩
    have w2 : ∀ c ∈ (clockText h mi s).map asciiDigit, isSpace c = false ∧ (c != '\u00a0') = true := by
      intro c hc
      obtain ⟨x, hx, rfl⟩ := List.mem_map.mp hc
      rcases hmem2 x hx with h | rfl
      · exact hdig x h
      · decide
    have n1 : (w.write d m y [sep] [sep]).map asciiDigit ≠ [] := by rw [write_sep]; simp
    have n2 : (clockText h mi s).map asciiDigit ≠ [] := by unfold clockText; simp
    simp only [List.map_append, List.map_cons, emer, esp]
    unfold tidy
    rw [(tidy_word w1 n1 true).2]
    rw [hzt _ w2 n2]
    simp
  rw [normal_tidy hE.persian ?_ ?_ (by rw [hplain]; exact htidy), hplain, hres]
  · intro c hc
    rcases hall c hc with h | rfl | rfl | rfl | h
    · exact Or.inr (Or.inr h)
    · exact Or.inl (by omega)
    · exact Or.inl (by decide)
    · exact Or.inl (by decide)
    · rcases (hz c h).1 with h | h
      · exact Or.inl h
      · exact Or.inr (Or.inl h)
  · intro c hc
    rcases hall c hc with h | rfl | rfl | rfl | h
    · intro hh
      rw [asciiDigit_low (by omega)] at h
      have := digit_range h
      omega
    · omega
    · decide
    · decide
    · exact (hz c h).2.2.2

/-- … with the words of the half of the day. -/
theorem cal_time_normal (w : Order) (d m y : List Char) (hd : Short (d.map asciiDigit)) (hm : Short (m.map asciiDigit))
    (hy : Four (y.map asciiDigit)) (sep : Char) (hsep : NumericSep w sep) {h mi : List Char} {s : Option (List Char)} {mer : Option Meridian} (hck : ClockOk h mi s mer) :
    normalizeDigits E.uni.isDigit (E.uni.normalizeString (w.write d m y [sep] [sep] ++ ' ' :: (clockText h mi s ++ arabicEnd mer))) =
      w.write (d.map asciiDigit) (m.map asciiDigit) (y.map asciiDigit) [sep] [sep] ++
        ' ' :: (clockText (h.map asciiDigit) (mi.map asciiDigit) (s.map (·.map asciiDigit)) ++ arabicEnd mer) := by
  refine cal_tail_normal hE w d m y hd hm hy sep hsep hck (arabicEnd mer) ?_ ?_
  · intro c hc
    cases mer with
    | none => cases hc
    | some mr =>
      simp only [arabicEnd, List.mem_cons] at hc
      rcases hc with rfl | hc
      · exact ⟨Or.inl (by decide), by decide, by decide, by decide⟩
      · have := (meridian_letters hE mr).1 c hc
        exact ⟨Or.inr this.1, this.2.1, this.2.2.1, this.2.2.2.2.2.1⟩
  · intro A hA hne
    cases mer with
    | none =>
      simp only [arabicEnd, List.append_nil]
      exact (tidy_word hA hne true).1
    | some mr =>
      have hl := meridian_letters hE mr
      simp only [arabicEnd]
      rw [(tidy_word hA hne true).2, (tidy_word (fun c hc => ⟨(hl.1 c hc).2.2.2.1, (hl.1 c hc).2.2.2.2.1⟩) hl.2 true).1]

/-- The text passes the other stages. -/
theorem cal_time_text (w : Order) (D M Y : List Char) (hd : Short D) (hm : Short M)
    (hy : Four Y) (sep : Char) (hsep : NumericSep w sep) {H Mi : List Char} {S : Option (List Char)} (hh : IsShort H)
    (hmi : IsShort Mi ∧ Mi.length = 2) (hs : ∀ x, S = some x → IsShort x ∧ x.length = 2) (mer : Option Meridian) :
    let t := w.write D M Y [sep] [sep] ++ ' ' :: (clockText H Mi S ++ latinMeridian mer)
    ((jalaliStages t = t ∧ ∀ am, replaceMeridians am t = t) ∧ stripBraces (sanitizeDate E.uni t) = t ∧ popTzOffset E.table t = (t, none)) ∧ ∀ c ∈ t, c.toNat < 128 := by
  intro t
  have hnum : IsNumeral (w.pick D M Y).1 ∧ IsNumeral (w.pick D M Y).2.1 ∧ IsNumeral (w.pick D M Y).2.2 := by
    cases w <;> simp [Order.pick, hd.1, hm.1, hy.1]
  have hsepd : sep.isDigit = false := by
    rcases hsep with rfl | rfl | ⟨rfl, _⟩ <;> decide
  have hshape : ((w.pick D M Y).1.length, (w.pick D M Y).2.1.length, (w.pick D M Y).2.2.length) ∈ shapes w.yearPlace := by
    have h4 := hy.2
    rcases short_len hd with h1 | h1 <;> rcases short_len hm with h2 | h2 <;> cases w <;> simp [Order.pick, h1, h2, h4, Order.yearPlace, shapes]
  obtain ⟨T, hT, es, hes, hTe⟩ := clock_template hh hmi hs
  have hend : latinMeridian mer ∈ timeEnds := by rcases mer with _ | _ | _ <;> decide
  have hone := List.all_eq_true.mp (List.all_eq_true.mp (List.all_eq_true.mp (times_pass (sep_mem hsep)) _ hshape) T hT) _ hend
  have htext := tmpl3_sub hshape hsepd
  rw [← write_sep] at htext
  have hds : ∀ x ∈ '0' :: ((w.pick D M Y).1 ++ (w.pick D M Y).2.1 ++ (w.pick D M Y).2.2), x.isDigit = true := by
    intro x hx
    simp only [List.mem_cons, List.mem_append] at hx
    rcases hx with rfl | (hx | hx) | hx
    · decide
    · exact hnum.1.2 x hx
    · exact hnum.2.1.2 x hx
    · exact hnum.2.2.2 x hx
  have hasc : isAscii (tmpl3 (w.pick D M Y).1.length (w.pick D M Y).2.1.length (w.pick D M Y).2.2.length sep ++ ' ' :: (T ++ latinMeridian mer)) = true := by
    simp only [asciiPass, stagePass, Bool.and_eq_true] at hone
    exact hone.1.1.1.1.1.1.1.1.1.1.1.1
  simp only [isAscii, List.all_append, List.all_cons, Bool.and_eq_true] at hasc
  have r1 : Rel2 (TagRel fun _ _ => True) (tmpl3 (w.pick D M Y).1.length (w.pick D M Y).2.1.length (w.pick D M Y).2.2.length sep) (w.write D M Y [sep] [sep]) := by
    rw [← htext]
    exact (tag_sub hds hasc.1).mono fun _ _ h => ⟨h.left, h.same.imp (fun h => ⟨h.1, h.2.1, trivial⟩) id⟩
  have r2 : Rel2 (TagRel fun _ _ => True) T (clockText H Mi S) := by
    rw [← hTe]
    exact (tag_sub hes hasc.2.2.1).mono fun _ _ h => ⟨h.left, h.same.imp (fun h => ⟨h.1, h.2.1, trivial⟩) id⟩
  have r3 : Rel2 (TagRel fun _ _ => True) (latinMeridian mer) (latinMeridian mer) := tag_word (by rcases mer with _ | _ | _ <;> decide)
  have r := r1.append (.cons (tag_self (x := ' ') (by decide) (by decide)) (r2.append r3))
  refine ⟨ascii_pass hE.persian hone r hE.table, ?_⟩
  have key : ∀ {a b : List Char}, Rel2 (TagRel fun _ _ => True) a b → ∀ c ∈ b, c.toNat < 128 := by
    intro a b h
    induction h with
    | nil => intro c hc; cases hc
    | cons hxy _ ih =>
      intro c hc
      rcases List.mem_cons.mp hc with rfl | hc
      · exact hxy.case.right
      · exact ih c hc
  exact key r

omit hE in
theorem jalaliText_stages (U : Uni) (s : List Char) : jalaliText U s = stripBraces (sanitizeDate U (jalaliStages (normalizeDigits U.isDigit (U.normalizeString s)))) := rfl

omit hE in
theorem meridian_stage (am : Bool) (mr : Meridian) {P : List Char} (hP : ∀ c ∈ P, c.toNat < 128) :
    replaceMeridians am (P ++ arabicEnd (some mr)) = P ++ latinMeridian (some mr) := by
  have hP1 : ∀ c ∈ P ++ [' '], c.toNat < 128 := by
    intro c hc
    rcases List.mem_append.mp hc with h | h
    · exact hP c h
    · rw [List.mem_singleton] at h; subst h; decide
  have no : ∀ x : Char, 128 ≤ x.toNat → x ∉ P ++ [' '] := fun x hx hm => by have := hP1 x hm; omega
  have e : P ++ arabicEnd (some mr) = (P ++ [' ']) ++ arabicMeridian mr := by simp [arabicEnd]
  have e' : P ++ latinMeridian (some mr) = (P ++ [' ']) ++ merWord mr := by cases mr <;> simp [latinMeridian, merWord]
  rw [e, e']
  generalize P ++ [' '] = Q at *
  have nm : ∀ x : Char, 128 ≤ x.toNat → ∀ w : List Char, x ∉ w → x ∉ Q ++ w := fun x hx w hw hm => by
    rcases List.mem_append.mp hm with h | h
    · exact no x hx h
    · exact hw h
  have a1 : replaceStr "صباحا".toList "am".toList (Q ++ "صباحا".toList) = Q ++ "am".toList := replace_end (x := 'ص') (r := "باحا".toList) (by decide) (no _ (by decide))
  have a2 : replaceStr "مساء".toList "pm".toList (Q ++ "مساء".toList) = Q ++ "pm".toList := replace_end (x := 'م') (r := "ساء".toList) (by decide) (no _ (by decide))
  have b1 : ∀ w : List Char, 'ص' ∉ w → replaceStr "صباحا".toList "am".toList (Q ++ w) = Q ++ w := fun w hw =>
    replaceStr_absent (contains_char (c := 'ص') (by decide) (nm _ (by decide) w hw))
  have b2 : ∀ w : List Char, 'م' ∉ w → replaceStr "مساء".toList "pm".toList (Q ++ w) = Q ++ w := fun w hw =>
    replaceStr_absent (contains_char (c := 'م') (by decide) (nm _ (by decide) w hw))
  have e1 : replaceMeridians true (Q ++ arabicMeridian mr) = replaceStr "مساء".toList "pm".toList (replaceStr "صباحا".toList "am".toList (Q ++ arabicMeridian mr)) := rfl
  have e2 : replaceMeridians false (Q ++ arabicMeridian mr) = replaceStr "صباحا".toList "am".toList (replaceStr "مساء".toList "pm".toList (Q ++ arabicMeridian mr)) := rfl
  cases mr <;> cases am
  · rw [e2]; unfold arabicMeridian; rw [b2 _ (by decide), a1]; rfl
  · rw [e1]; unfold arabicMeridian; rw [a1, b2 _ (by decide)]; rfl
  · rw [e2]; unfold arabicMeridian; rw [a2, b1 _ (by decide)]; rfl
  · rw [e1]; unfold arabicMeridian; rw [b1 _ (by decide), a2]; rfl

variable {c : PCfg} (hc : c.validate = .ok ())
include hc

theorem cal_zone_parse (fns : Fns) {two : Int → Int} {month : List Char → Option Int} (hfp : fns.partValue = calPartValue E.uni.isDigit two month) (cfg : Cfg)
    (o w : Order) (ho : toLower cfg.dateOrder = o.letters) (hw : o.Agrees w) (hnow : cfg.currentTime = baseTime c E.now)
    (d m y : List Char) (hd : Short d) (hm : Short m) (hy : Four y) (sep : Char) (hsep : NumericSep w sep)
    (v1 : 1 ≤ natOfDigits m) (v2 : natOfDigits m ≤ 12) (v3 : 1 ≤ natOfDigits d) (v4 : natOfDigits d ≤ 30) (hy1 : 1 ≤ natOfDigits y)
    (n : Notation) (mr : Meridian) (ck : Clock) (hn : n.Written mr) (hck : (cut6 n).meaning mr = some ck)
    (x : List Char) (tz : Option Tz)
    (hpop : popTzOffset E.table x = (w.write d m y [sep] [sep] ++ ' ' :: n.text, tz)) (t : Time)
    (hcr : fns.create cfg (natOfDigits y) (natOfDigits m) (natOfDigits d) ck.hour ck.minute ck.second ck.nano (baseTime c E.now).loc = .ok t) :
    calParse fns E.table cfg E.now E.monthFirst x =
      .ok (applyPopped { period := if cfg.timeAsPeriod then ck.period else .day, time := t } tz) := by
  generalize he : (AEnv.mk fns cfg E.now E.monthFirst) = e
  have hfp' : e.fns.partValue = calPartValue E.uni.isDigit two month := by rw [← he]; exact hfp
  have ho' : toLower e.cfg.dateOrder = o.letters := by rw [← he]; exact ho
  have hnum : IsNumeral (w.pick d m y).1 ∧ IsNumeral (w.pick d m y).2.1 ∧ IsNumeral (w.pick d m y).2.2 := by
    cases w <;> simp [Order.pick, hd.1, hm.1, hy.1]
  have hs : SepPair [sep] [sep] := by
    rcases hsep with rfl | rfl | ⟨rfl, _⟩ <;> (unfold SepPair IsSeparator; decide)
  have hloc : e.now.loc = (baseTime c E.now).loc := by
    rw [← he]
    unfold AEnv.now
    simp only [hnow, base_notZero hE.toSurroundings, Bool.false_eq_true, if_false]
  obtain ⟨s, hst, hvals, hct⟩ := cal_numeric_steps e (digits_ok hE hc) hfp' o w ho' hw d m y hd hm hy v1 v2 v3 v4 hy1
  have hfb : fallbacks s = s := by simp [fallbacks, fallback1, hvals, Vals.get]
  have core := calDateTime_core e tz ⟨_, .digit⟩ ⟨_, .digit⟩ ⟨_, .digit⟩ [sep] [sep] [' '] n mr ck
    (wdOK_digits hnum.1) (wdOK_digits hnum.2.1) (wdOK_digits hnum.2.2) hs.1 hs.2.1 (by unfold IsSeparator; decide) hn hck ?_ ?_
    (natOfDigits y) (natOfDigits m) (natOfDigits d) (by omega) (by omega) (by omega) s ⟨y, .digit⟩ ⟨m, .digit⟩ ⟨d, .digit⟩ hst (by rw [hfb, hvals]) (by rw [hfb, hct]) ?_ t
    (by rw [hloc, ← he]; exact hcr)
  · unfold calParse
    rw [hpop]
    dsimp only
    rw [he]
    have htx : w.write d m y [sep] [sep] ++ ' ' :: n.text = (w.pick d m y).1 ++ [sep] ++ (w.pick d m y).2.1 ++ [sep] ++ (w.pick d m y).2.2 ++ [' '] ++ n.text := by
      rw [write_sep]; simp
    rw [htx]
    have hcfg : e.cfg = cfg := by rw [← he]
    rw [hcfg] at core
    revert core
    cases absInit e ((w.pick d m y).1 ++ [sep] ++ (w.pick d m y).2.1 ++ [sep] ++ (w.pick d m y).2.2 ++ [' '] ++ n.text) with
    | error f => intro core; exact absurd core (by simp)
    | ok s =>
      dsimp only
      intro core
      rw [core]
  · refine ⟨Or.inr ⟨digits_not_skipped hnum.1, digits_no_colon hnum.1.2, findMeridian_digits hnum.2.1.2, ?_⟩,
      Or.inr ⟨digits_not_skipped hnum.2.1, digits_no_colon hnum.2.1.2, findMeridian_digits hnum.2.2.2, ?_⟩,
      Or.inr ⟨digits_not_skipped hnum.2.2, digits_no_colon hnum.2.2.2, clockWord_next n mr hn, Or.inl (by decide)⟩, trivial⟩
    · rcases hs.2.2 with ⟨h, _⟩ | ⟨_, h⟩
      · exact Or.inl h
      · exact Or.inr (Or.inr (Or.inr h))
    · rcases hs.2.2 with ⟨_, h⟩ | ⟨h, _⟩
      · exact Or.inl h
      · exact Or.inr (Or.inr (Or.inl h))
  · intro x hx
    simp only [List.mem_cons, List.not_mem_nil, or_false] at hx
    rcases hx with rfl | rfl | rfl
    · exact digits_not_skipped hnum.1
    · exact digits_not_skipped hnum.2.1
    · exact digits_not_skipped hnum.2.2
  · show y.length ≠ 2
    have := hy.2
    omega

theorem cal_time_parse (fns : Fns) {two : Int → Int} {month : List Char → Option Int} (hfp : fns.partValue = calPartValue E.uni.isDigit two month) (cfg : Cfg)
    (o w : Order) (ho : toLower cfg.dateOrder = o.letters) (hw : o.Agrees w) (hnow : cfg.currentTime = baseTime c E.now)
    (d m y : List Char) (hd : Short d) (hm : Short m) (hy : Four y) (sep : Char) (hsep : NumericSep w sep)
    (v1 : 1 ≤ natOfDigits m) (v2 : natOfDigits m ≤ 12) (v3 : 1 ≤ natOfDigits d) (v4 : natOfDigits d ≤ 30) (hy1 : 1 ≤ natOfDigits y)
    (n : Notation) (mr : Meridian) (ck : Clock) (hn : n.Written mr) (hck : (cut6 n).meaning mr = some ck)
    (hpop : popTzOffset E.table (w.write d m y [sep] [sep] ++ ' ' :: n.text) = (w.write d m y [sep] [sep] ++ ' ' :: n.text, none)) (t : Time)
    (hcr : fns.create cfg (natOfDigits y) (natOfDigits m) (natOfDigits d) ck.hour ck.minute ck.second ck.nano (baseTime c E.now).loc = .ok t) :
    calParse fns E.table cfg E.now E.monthFirst (w.write d m y [sep] [sep] ++ ' ' :: n.text) =
      .ok { period := if cfg.timeAsPeriod then ck.period else .day, time := t } := cal_zone_parse hE hc fns hfp cfg o w ho hw hnow d m y hd hm hy sep hsep v1 v2 v3 v4 hy1 n mr ck hn hck _ none hpop t hcr

/-- **C35** A numeric Jalali date with a time of day after it, in any of the digits, is that day at that time. -/
theorem C35_jalali_date_time (lib : JalaliLib) (o w : Order) (ho : toLower (calendarOrder c) = o.letters) (hw : o.Agrees w)
    (d m y : List Char) (hd : Short (d.map asciiDigit)) (hm : Short (m.map asciiDigit)) (hy : Four (y.map asciiDigit))
    (sep : Char) (hsep : NumericSep w sep) (v1 : 1 ≤ number (m.map asciiDigit)) (v2 : number (m.map asciiDigit) ≤ 12)
    (v3 : 1 ≤ number (d.map asciiDigit)) (v4 : number (d.map asciiDigit) ≤ 30) (hy1 : 1 ≤ number (y.map asciiDigit)) (g : Int × Int × Int)
    (hj : IsJalali lib (number (y.map asciiDigit)) (number (m.map asciiDigit)) (number (d.map asciiDigit)) g)
    (h mi : List Char) (s : Option (List Char)) (hck : ClockOk h mi s none) :
    E.parseJalali lib (some c) (w.write d m y [sep] [sep] ++ ' ' :: clockText h mi s) =
      .ok { period := if c.timeAsPeriod then clockPeriod s else .day
            time := goDate g.1 g.2.1 g.2.2 (anyNumber h) (anyNumber mi) (clockSecond s) 0 (baseTime c E.now).loc } := by
  obtain ⟨cfg, h1, h2, h3, h4, h5⟩ := calendar_cfg hc E.now
  have hnorm := cal_time_normal hE w d m y hd hm hy sep hsep hck
  simp only [arabicEnd, List.append_nil] at hnorm
  obtain ⟨⟨⟨t1, _⟩, t2, t3⟩, _⟩ := cal_time_text hE w _ _ _ hd hm hy sep hsep hck.hours (by have := hck.minutes; rwa [← List.length_map (f := asciiDigit)] at this)
    (S := s.map (·.map asciiDigit)) (by
      intro x hx
      cases s with
      | none => simp at hx
      | some z =>
        simp only [Option.map_some, Option.some.injEq] at hx
        subst hx
        have := hck.seconds z rfl
        rwa [← List.length_map (f := asciiDigit)] at this) none
  simp only [latinMeridian, List.append_nil] at t1 t2 t3
  obtain ⟨k1, k2⟩ := clockNotation_ok hck
  have ktext := clockNotation_text (h.map asciiDigit) (mi.map asciiDigit) (s.map (·.map asciiDigit)) none
  simp only [latinMeridian, List.append_nil] at ktext
  unfold Env.parseJalali
  rw [h1]
  dsimp only
  unfold jalaliParse
  have htext : jalaliText E.uni (w.write d m y [sep] [sep] ++ ' ' :: clockText h mi s) =
      w.write (d.map asciiDigit) (m.map asciiDigit) (y.map asciiDigit) [sep] [sep] ++
        ' ' :: (clockNotation (h.map asciiDigit) (mi.map asciiDigit) (s.map (·.map asciiDigit)) none).text := by
    rw [ktext, jalaliText_stages, hnorm, t1, t2]
  rw [htext, cal_time_parse hE hc (jalaliFns E.uni lib) rfl cfg o w (by rw [h2]; exact ho) hw h3 _ _ _ hd hm hy sep hsep (by have : _ := v1; rw [number_eq] at this; omega) (by have : _ := v2; rw [number_eq] at this; omega)
    (by have : _ := v3; rw [number_eq] at this; omega) (by have : _ := v4; rw [number_eq] at this; omega) (by have : _ := hy1; rw [number_eq] at this; omega) _ _ _ k1 k2 (by rw [ktext]; exact t3) _ (jalali_create (by exact hj) _ _ _ _ _ _), h5]
  cases s <;> rfl

/-- **C35** A numeric Hijri date with a time of day after it, perhaps with "in the morning" or "in the evening" in Arabic, in any of
the digits, is that day at that time. -/
theorem C35_hijri_date_time (lib : HijriLib) (am : Bool) (o w : Order) (ho : toLower (calendarOrder c) = o.letters) (hw : o.Agrees w)
    (d m y : List Char) (hd : Short (d.map asciiDigit)) (hm : Short (m.map asciiDigit)) (hy : Four (y.map asciiDigit))
    (sep : Char) (hsep : NumericSep w sep) (v1 : 1 ≤ number (m.map asciiDigit)) (v2 : number (m.map asciiDigit) ≤ 12)
    (v3 : 1 ≤ number (d.map asciiDigit)) (hy1 : 1 ≤ number (y.map asciiDigit))
    (v4 : number (d.map asciiDigit) ≤ 29 ∨ (number (d.map asciiDigit) = 30 ∧
      (number (m.map asciiDigit) % 2 = 1 ∨ (number (m.map asciiDigit) = 12 ∧ isHijriLeap lib (number (y.map asciiDigit)) = true))))
    (h mi : List Char) (s : Option (List Char)) (mer : Option Meridian) (hck : ClockOk h mi s mer) :
    let g := lib.toGregorian (number (y.map asciiDigit)) (number (m.map asciiDigit)) (number (d.map asciiDigit))
    E.parseHijri lib am (some c) (w.write d m y [sep] [sep] ++ ' ' :: (clockText h mi s ++ arabicEnd mer)) =
      .ok { period := if c.timeAsPeriod then clockPeriod s else .day
            time := goDate g.1 g.2.1 g.2.2 (clockHour h mer) (anyNumber mi) (clockSecond s) 0 (baseTime c E.now).loc } := by
  intro g
  have v30 : number (d.map asciiDigit) ≤ 30 := by omega
  obtain ⟨cfg, h1, h2, h3, h4, h5⟩ := calendar_cfg hc E.now
  have hnorm := cal_time_normal hE w d m y hd hm hy sep hsep hck
  have hmi : IsShort (mi.map asciiDigit) ∧ (mi.map asciiDigit).length = 2 := by rw [List.length_map]; exact hck.minutes
  have hsx : ∀ x, s.map (·.map asciiDigit) = some x → IsShort x ∧ x.length = 2 := by
    intro x hx
    cases s with
    | none => simp at hx
    | some z =>
      simp only [Option.map_some, Option.some.injEq] at hx
      subst hx
      have := hck.seconds z rfl
      rwa [← List.length_map (f := asciiDigit)] at this
  obtain ⟨⟨⟨_, t1⟩, t2, t3⟩, _⟩ := cal_time_text hE w _ _ _ hd hm hy sep hsep hck.hours hmi hsx mer
  obtain ⟨⟨⟨_, t0⟩, _⟩, t4⟩ := cal_time_text hE w _ _ _ hd hm hy sep hsep hck.hours hmi hsx none
  simp only [latinMeridian, List.append_nil] at t0 t4
  obtain ⟨k1, k2⟩ := clockNotation_ok hck
  have ktext := clockNotation_text (h.map asciiDigit) (mi.map asciiDigit) (s.map (·.map asciiDigit)) mer
  unfold Env.parseHijri
  rw [h1]
  dsimp only
  unfold hijriParse
  have htext : hijriText E.uni am (w.write d m y [sep] [sep] ++ ' ' :: (clockText h mi s ++ arabicEnd mer)) =
      w.write (d.map asciiDigit) (m.map asciiDigit) (y.map asciiDigit) [sep] [sep] ++
        ' ' :: (clockNotation (h.map asciiDigit) (mi.map asciiDigit) (s.map (·.map asciiDigit)) mer).text := by
    rw [ktext]
    unfold hijriText
    rw [hnorm]
    have hrep : replaceMeridians am (w.write (d.map asciiDigit) (m.map asciiDigit) (y.map asciiDigit) [sep] [sep] ++
        ' ' :: (clockText (h.map asciiDigit) (mi.map asciiDigit) (s.map (·.map asciiDigit)) ++ arabicEnd mer)) =
        w.write (d.map asciiDigit) (m.map asciiDigit) (y.map asciiDigit) [sep] [sep] ++
        ' ' :: (clockText (h.map asciiDigit) (mi.map asciiDigit) (s.map (·.map asciiDigit)) ++ latinMeridian mer) := by
      cases mer with
      | none => simp only [arabicEnd, latinMeridian, List.append_nil]; exact t0 am
      | some mr =>
        have := meridian_stage am mr t4
        simpa using this
    rw [hrep, t2]
  rw [htext, cal_time_parse hE hc (hijriFns E.uni lib) rfl cfg o w (by rw [h2]; exact ho) hw h3 _ _ _ hd hm hy sep hsep (by have : _ := v1; rw [number_eq] at this; omega) (by have : _ := v2; rw [number_eq] at this; omega)
    (by have : _ := v3; rw [number_eq] at this; omega) (by have : _ := v30; rw [number_eq] at this; omega) (by have : _ := hy1; rw [number_eq] at this; omega) _ _ _ k1 k2 (by rw [ktext]; exact t3) _ (hijri_create v1 v2 v4 _ _ _ _ _ _), h5]
end

end Verif.Props
