import Verif.Props.CalendarWords
import Verif.Props.CalendarTimes
import Verif.Lemmas.WordClean
/-! # C35: Jalali dates with a month name and a time of day -/
set_option autoImplicit false
namespace Verif.Props
open Verif.Go Verif.Model Verif.Data Verif.Lemmas Verif.Spec

/-! ## The stages, after the month -/

/-- What becomes of the text after the month. -/
def tailTime (q : List Char) : List Char := replaceTime (' ' :: ' ' :: replaceDays (replaceWeekdays (replaceMonths q)))

theorem tail_rel {g : Char → Char → Prop} {a q : List Char} (hq : noDayWord (replaceWeekdays (replaceMonths a)) = true) (h : Rel2 (SRel g) a q) :
    Rel2 (SRel g) (tailTime a) (tailTime q) := by
  have h1 : Rel2 (SRel g) (replaceWeekdays (replaceMonths a)) (replaceWeekdays (replaceMonths q)) :=
    each_rel weekdays_plain_pat (each_rel months_plain_pat h)
  have hs : SRel g ' ' ' ' := Or.inr ⟨by decide, rfl⟩
  unfold tailTime
  rw [replaceDays_quiet hq, replaceDays_quiet (by rw [← noDayWord_rel h1]; exact hq)]
  exact replaceTime_rel (.cons hs (.cons hs (deleteAll_rel (digitRx_rel (by decide +kernel)) h1)))

/-- A month in Latin letters. -/
structure MonthPart (w L : List Char) : Prop where
  months : replaceMonths w = ' ' :: L ++ [' ']
  ascii : isAscii L = true
  last : ∃ b x, L = b ++ [x] ∧ x.isDigit = false ∧ isRxSpace x = false
  latin : removeWeekdays L = L

theorem month_latin : (persianMonths.all fun x => isAscii (latinMonth x.2) && decide (removeWeekdays (latinMonth x.2) = latinMonth x.2) &&
    ((latinMonth x.2).getLast?.any fun c => !c.isDigit && !isRxSpace c)) = true := by decide +kernel

theorem month_part {mon : List Char} {n : Int} (h : (mon, n) ∈ persianMonths) : Part mon (plainPersian mon) ∧ MonthPart (plainPersian mon) (latinMonth n) := by
  have h0 := List.all_eq_true.mp month_parts _ h
  simp only [Bool.and_eq_true, decide_eq_true_eq, Bool.not_eq_true'] at h0
  obtain ⟨⟨⟨⟨⟨h1, h2⟩, h3⟩, h4⟩, h5⟩, h6⟩ := h0
  have g0 := List.all_eq_true.mp month_latin _ h
  simp only [Bool.and_eq_true, decide_eq_true_eq] at g0
  obtain ⟨⟨g1, g2⟩, g3⟩ := g0
  refine ⟨part_of h1 h2 h3 fun c hc => Or.inr (Or.inl (List.contains_iff_mem.mp (List.all_eq_true.mp h4 c hc))), h5, g1, ?_, g2⟩
  cases e : (latinMonth n).getLast? with
  | none => rw [e] at g3; simp at g3
  | some x =>
    rw [e] at g3
    simp only [Option.any_some, Bool.and_eq_true, Bool.not_eq_true'] at g3
    obtain ⟨b, hb⟩ := List.getLast?_eq_some_iff.mp e
    exact ⟨b, x, hb, g3⟩

theorem nil_stages : replaceWeekdays [] = [] ∧ replaceDays [] = [] := by
  constructor
  · rw [weekdays_eq]; decide +kernel
  · rw [days_eq]; decide +kernel

theorem stages_month {D d w L q z : List Char} (hD : DayPart D d) (hw : MonthPart w L) (hz : tailTime q = ' ' :: z) (hl : removeWeekdays z = z) :
    jalaliStages (D ++ ' ' :: (w ++ ' ' :: q)) = d ++ ' ' :: ' ' :: (L ++ ' ' :: z) := by
  have eL1 : replaceWeekdays L = L := by
    have := prefix_weekdays hw.ascii []
    rwa [List.append_nil, nil_stages.1, List.append_nil] at this
  have eL2 : replaceDays L = L := by
    have := prefix_days hw.ascii []
    rwa [List.append_nil, nil_stages.2, List.append_nil] at this
  have e1 : replaceMonths (D ++ ' ' :: (w ++ ' ' :: q)) = D ++ ' ' :: ' ' :: (L ++ ' ' :: ' ' :: replaceMonths q) := by
    rw [split_months, hD.months, split_months, hw.months]
    simp
  have e2 : replaceWeekdays (replaceMonths (D ++ ' ' :: (w ++ ' ' :: q))) = D ++ ' ' :: ' ' :: (L ++ ' ' :: ' ' :: replaceWeekdays (replaceMonths q)) := by
    rw [e1, split_weekdays, hD.weekdays, split_weekdays, eL1]
  have e3 : replaceDays (replaceWeekdays (replaceMonths (D ++ ' ' :: (w ++ ' ' :: q)))) = (d ++ ' ' :: ' ' :: L) ++ ' ' :: ' ' :: replaceDays (replaceWeekdays (replaceMonths q)) := by
    rw [e2, split_days, hD.days, split_days, eL2]
    simp
  have hend : LatinEnd (d ++ ' ' :: ' ' :: L) := by
    obtain ⟨b, x, e, hx1, hx2⟩ := hw.last
    refine ⟨?_, d ++ ' ' :: ' ' :: b, x, by rw [e]; simp, hx1, hx2⟩
    have h1 := digits_ascii hD.digits.2
    have h2 := hw.ascii
    unfold isAscii at h1 h2 ⊢
    rw [List.all_append, List.all_cons, List.all_cons, h1, h2]
    decide
  obtain ⟨u, u1, u2⟩ := time_prefix hend (' ' :: ' ' :: replaceDays (replaceWeekdays (replaceMonths q)))
  unfold jalaliStages
  rw [e3, u1, ← u2]
  show removeWeekdays (d ++ ' ' :: ' ' :: L ++ tailTime q) = _
  rw [hz, split_latin, hl]
  have : removeWeekdays (d ++ ' ' :: ' ' :: L) = d ++ ' ' :: ' ' :: L := by
    rw [split_latin, hD.latin, show ' ' :: L = [] ++ ' ' :: L from rfl, split_latin, latin_nil, hw.latin]
  rw [this]
  simp

/-! ## The texts of a time of day -/

/-- A year and a time of day, and what becomes of them: spaces, the year, spaces, the time, spaces. -/
def clockTable : List (List Char × List Char) :=
  [("0123 4:56".toList, "  0123 4:56".toList), ("0123 45:67".toList, "  0123 45:67".toList),
   ("0123 4:56:78".toList, "  0123 4:56:78".toList), ("0123 45:67:89".toList, "  0123 45:67:89".toList),
   ("0123 ساعت 4:56".toList, "  0123  4:56".toList), ("0123 ساعت 45:67".toList, "  0123      45:67".toList),
   ("0123 ساعت 4:56:78".toList, "  0123  4:56:78".toList), ("0123 ساعت 45:67:89".toList, "  0123      45:67:89".toList),
   ("0123 ساعت 4 و 56 دقیقه".toList, "  0123  4:56      ".toList), ("0123 ساعت 45 و 67 دقیقه".toList, "  0123      45:67      ".toList),
   ("0123 ساعت 4 و 56 دقیقه و 78 ثانیه".toList, "  0123  4:56:78      ".toList),
   ("0123 ساعت 45 و 67 دقیقه و 89 ثانیه".toList, "  0123      45:67:89      ".toList)]

theorem clock_table : (clockTable.all fun x => noDayWord (replaceWeekdays (replaceMonths x.1)) && decide (tailTime x.1 = x.2)) = true := by decide +kernel

theorem srel_sub {ds : List Char} (hds : ∀ c ∈ ds, c.isDigit = true) (a : List Char) : Rel2 (SRel fun x y => y = sub ds x) a (a.map (sub ds)) := by
  induction a with
  | nil => exact .nil
  | cons c a ih =>
    refine .cons ?_ ih
    cases e : c.isDigit with
    | true => exact Or.inl ⟨e, sub_digit hds e, rfl⟩
    | false => exact Or.inr ⟨e, sub_other e⟩

theorem of_srel {ds a t : List Char} (h : Rel2 (SRel fun x y => y = sub ds x) a t) : t = a.map (sub ds) := by
  induction h with
  | nil => rfl
  | cons h _ ih =>
    rw [List.map_cons, ← ih]
    rcases h with ⟨_, _, h⟩ | ⟨h, rfl⟩
    · rw [h]
    · rw [sub_other h]

theorem tail_sub {x : List Char × List Char} (hx : x ∈ clockTable) {ds : List Char} (hds : ∀ c ∈ ds, c.isDigit = true) : tailTime (x.1.map (sub ds)) = x.2.map (sub ds) := by
  have := List.all_eq_true.mp clock_table x hx
  simp only [Bool.and_eq_true, decide_eq_true_eq] at this
  rw [← this.2]
  exact of_srel (tail_rel this.1 (srel_sub hds x.1))

/-- … for the texts of the specification, in ASCII digits. -/
theorem tail_clock {y h m : List Char} {s : Option (List Char)} (hy : Four y) (hh : IsShort h) (hm : IsShort m ∧ m.length = 2) (hs : ∀ x, s = some x → IsShort x ∧ x.length = 2)
    {t : List Char} (ht : TimeText h m s t) :
    ∃ S S' : List Char, (∀ c ∈ S, c = ' ') ∧ (∀ c ∈ S', c = ' ') ∧ tailTime (y ++ ' ' :: t) = ' ' :: ' ' :: (y ++ ' ' :: (S ++ (clockText h m s ++ S'))) := by
  obtain ⟨y1, y2, y3, y4, rfl⟩ : ∃ y1 y2 y3 y4, y = [y1, y2, y3, y4] := by
    have h4 := hy.2
    match y, h4 with
    | [a, b, c, d], _ => exact ⟨a, b, c, d, rfl⟩
  obtain ⟨m1, m2, rfl⟩ := len2 hm.2
  have hyd : ∀ c ∈ [y1, y2, y3, y4], c.isDigit = true := hy.1.2
  have hmd : ∀ c ∈ [m1, m2], c.isDigit = true := hm.1.1.2
  have hhd := hh.1.2
  have hlen : (∃ a, h = [a]) ∨ ∃ a b, h = [a, b] := by
    have h1 := hh.2
    have h2 : h.length ≠ 0 := fun e => hh.1.1 (List.length_eq_zero_iff.mp e)
    match h, h1, h2 with
    | [a], _, _ => exact Or.inl ⟨a, rfl⟩
    | [a, b], _, _ => exact Or.inr ⟨a, b, rfl⟩
  have fin : ∀ (x : List Char × List Char), x ∈ clockTable → ∀ ds : List Char, (∀ c ∈ ds, c.isDigit = true) → ∀ q S S' z : List Char, x.1.map (sub ds) = q → (∀ c ∈ S, c = ' ') → (∀ c ∈ S', c = ' ') →
      x.2.map (sub ds) = ' ' :: ' ' :: ([y1, y2, y3, y4] ++ ' ' :: (S ++ (z ++ S'))) →
      ∃ S S' : List Char, (∀ c ∈ S, c = ' ') ∧ (∀ c ∈ S', c = ' ') ∧ tailTime q = ' ' :: ' ' :: ([y1, y2, y3, y4] ++ ' ' :: (S ++ (z ++ S'))) := by
    intro x hx ds hds q S S' z hq hS hS' hz
    refine ⟨S, S', hS, hS', ?_⟩
    rw [← hq, tail_sub hx hds, hz]
  have dg : ∀ l : List Char, (∀ c ∈ l, c.isDigit = true) → ∀ c ∈ [y1, y2, y3, y4] ++ l, c.isDigit = true := by
    intro l hl c hc
    rcases List.mem_append.mp hc with h | h
    · exact hyd c h
    · exact hl c h
  have dg2 : ∀ a b : List Char, (∀ c ∈ a, c.isDigit = true) → (∀ c ∈ b, c.isDigit = true) → ∀ c ∈ a ++ b, c.isDigit = true := by
    intro a b ha hb c hc
    rcases List.mem_append.mp hc with h | h
    · exact ha c h
    · exact hb c h
  cases ht with
  | clock =>
    cases s with
    | none =>
      rcases hlen with ⟨a, rfl⟩ | ⟨a, b, rfl⟩
      · exact fin ("0123 4:56".toList, "  0123 4:56".toList) (by decide) ([y1, y2, y3, y4] ++ ([a] ++ [m1, m2])) (dg _ (dg2 _ _ hhd hmd)) _ [] [] _ rfl (by simp) (by simp) rfl
      · exact fin ("0123 45:67".toList, "  0123 45:67".toList) (by decide) ([y1, y2, y3, y4] ++ ([a, b] ++ [m1, m2])) (dg _ (dg2 _ _ hhd hmd)) _ [] [] _ rfl (by simp) (by simp) rfl
    | some s =>
      obtain ⟨s1, s2, rfl⟩ := len2 (hs s rfl).2
      have hsd : ∀ c ∈ [s1, s2], c.isDigit = true := (hs _ rfl).1.1.2
      rcases hlen with ⟨a, rfl⟩ | ⟨a, b, rfl⟩
      · exact fin ("0123 4:56:78".toList, "  0123 4:56:78".toList) (by decide) ([y1, y2, y3, y4] ++ ([a] ++ ([m1, m2] ++ [s1, s2]))) (dg _ (dg2 _ _ hhd (dg2 _ _ hmd hsd))) _ [] [] _ rfl (by simp) (by simp) rfl
      · exact fin ("0123 45:67:89".toList, "  0123 45:67:89".toList) (by decide) ([y1, y2, y3, y4] ++ ([a, b] ++ ([m1, m2] ++ [s1, s2]))) (dg _ (dg2 _ _ hhd (dg2 _ _ hmd hsd))) _ [] [] _ rfl (by simp) (by simp) rfl
  | hour =>
    cases s with
    | none =>
      rcases hlen with ⟨a, rfl⟩ | ⟨a, b, rfl⟩
      · exact fin ("0123 ساعت 4:56".toList, "  0123  4:56".toList) (by decide) ([y1, y2, y3, y4] ++ ([a] ++ [m1, m2])) (dg _ (dg2 _ _ hhd hmd)) _ [' '] [] _ rfl (by simp) (by simp) rfl
      · exact fin ("0123 ساعت 45:67".toList, "  0123      45:67".toList) (by decide) ([y1, y2, y3, y4] ++ ([a, b] ++ [m1, m2])) (dg _ (dg2 _ _ hhd hmd)) _ [' ', ' ', ' ', ' ', ' '] [] _ rfl (by simp) (by simp) rfl
    | some s =>
      obtain ⟨s1, s2, rfl⟩ := len2 (hs s rfl).2
      have hsd : ∀ c ∈ [s1, s2], c.isDigit = true := (hs _ rfl).1.1.2
      rcases hlen with ⟨a, rfl⟩ | ⟨a, b, rfl⟩
      · exact fin ("0123 ساعت 4:56:78".toList, "  0123  4:56:78".toList) (by decide) ([y1, y2, y3, y4] ++ ([a] ++ ([m1, m2] ++ [s1, s2]))) (dg _ (dg2 _ _ hhd (dg2 _ _ hmd hsd))) _ [' '] [] _ rfl (by simp) (by simp) rfl
      · exact fin ("0123 ساعت 45:67:89".toList, "  0123      45:67:89".toList) (by decide) ([y1, y2, y3, y4] ++ ([a, b] ++ ([m1, m2] ++ [s1, s2]))) (dg _ (dg2 _ _ hhd (dg2 _ _ hmd hsd))) _ [' ', ' ', ' ', ' ', ' '] [] _ rfl (by simp) (by simp) rfl
  | minutes =>
    rcases hlen with ⟨a, rfl⟩ | ⟨a, b, rfl⟩
    · exact fin ("0123 ساعت 4 و 56 دقیقه".toList, "  0123  4:56      ".toList) (by decide) ([y1, y2, y3, y4] ++ ([a] ++ [m1, m2])) (dg _ (dg2 _ _ hhd hmd)) _ [' '] [' ', ' ', ' ', ' ', ' ', ' '] _ rfl (by simp) (by simp) rfl
    · exact fin ("0123 ساعت 45 و 67 دقیقه".toList, "  0123      45:67      ".toList) (by decide) ([y1, y2, y3, y4] ++ ([a, b] ++ [m1, m2])) (dg _ (dg2 _ _ hhd hmd)) _ [' ', ' ', ' ', ' ', ' '] [' ', ' ', ' ', ' ', ' ', ' '] _ rfl (by simp) (by simp) rfl
  | @seconds s =>
    obtain ⟨s1, s2, rfl⟩ := len2 (hs s rfl).2
    have hsd : ∀ c ∈ [s1, s2], c.isDigit = true := (hs _ rfl).1.1.2
    rcases hlen with ⟨a, rfl⟩ | ⟨a, b, rfl⟩
    · exact fin ("0123 ساعت 4 و 56 دقیقه و 78 ثانیه".toList, "  0123  4:56:78      ".toList) (by decide) ([y1, y2, y3, y4] ++ ([a] ++ ([m1, m2] ++ [s1, s2]))) (dg _ (dg2 _ _ hhd (dg2 _ _ hmd hsd))) _ [' '] [' ', ' ', ' ', ' ', ' ', ' '] _ rfl (by simp) (by simp) rfl
    · exact fin ("0123 ساعت 45 و 67 دقیقه و 89 ثانیه".toList, "  0123      45:67:89      ".toList) (by decide) ([y1, y2, y3, y4] ++ ([a, b] ++ ([m1, m2] ++ [s1, s2]))) (dg _ (dg2 _ _ hhd (dg2 _ _ hmd hsd))) _ [' ', ' ', ' ', ' ', ' '] [' ', ' ', ' ', ' ', ' ', ' '] _ rfl (by simp) (by simp) rfl

/-! ## The text before the parser -/

/-- Characters of such a text after the stages. -/
def clockChar (c : Char) : Bool := c.isDigit || isLetterTok c || c == ' ' || c == ':'

theorem clockChar_facts {c : Char} (h : clockChar c = true) : c.toNat < 128 ∧ c ≠ ',' ∧ c ≠ '.' ∧ c ≠ '\t' ∧ c ≠ '\n' ∧ c ≠ '\r' := by
  have hk : c.toNat < 128 := by
    unfold clockChar at h
    simp only [Bool.or_eq_true, beq_iff_eq] at h
    rcases h with ((h | h) | rfl) | rfl
    · have := digit_range h; omega
    · unfold isLetterTok at h
      simp only [Bool.or_eq_true, Bool.and_eq_true, decide_eq_true_eq] at h
      rcases h with ⟨_, h⟩ | ⟨_, h⟩
      · have : c.toNat ≤ 122 := h
        omega
      · have : c.toNat ≤ 90 := h
        omega
    · decide
    · decide
  refine ⟨hk, ?_, ?_, ?_, ?_, ?_⟩ <;> (rintro rfl; revert h; decide)

/-- Only the spaces are changed. -/
theorem sanitize_words {U : Uni} {s t : List Char} (hs : ∀ c ∈ s, clockChar c = true) (ht : sanitizeSpaces s = t) (hc : cleanDate U t = true) (ha : ∀ c ∈ t, c.toNat < 128) :
    sanitizeDate U s = t := by
  have key := sanitize_clean hc ha
  simp only [cleanDate, Bool.and_eq_true, Bool.not_eq_true'] at hc
  obtain ⟨⟨⟨⟨⟨⟨h0, h1⟩, h2⟩, h3⟩, h4⟩, h5⟩, h6⟩ := hc
  have fact : ∀ {st : MSt} {c : Char}, At s st → c ∈ st.rest → c.toNat < 128 ∧ c ≠ ',' ∧ c ≠ '.' ∧ c ≠ '\t' ∧ c ≠ '\n' ∧ c ≠ '\r' :=
    fun hst hcm => clockChar_facts (hs _ (hst.mem hcm))
  have g1 : rxSanitizeSkip.matches s = false := by
    refine no_match fun st hst u hu => ?_
    rcases alt_run hu with hu | hu
    · obtain ⟨c, hc, hp⟩ := wordChr_run hu
      have hf := fact hst (c := c) (by rw [hc]; simp)
      have hp : c = '\t' ∨ c = '\n' ∨ c = '\r' ∨ c = '\u00bb' := by simpa using hp
      rcases hp with rfl | rfl | rfl | rfl
      · exact hf.2.2.2.1 rfl
      · exact hf.2.2.2.2.1 rfl
      · exact hf.2.2.2.2.2 rfl
      · exact absurd hf.1 (by decide)
    · rcases alt_run hu with hu | hu
      · obtain ⟨u1, k1, hu⟩ := seq_run hu
        obtain ⟨c1, e1, p1⟩ := wordChr_run k1
        have p1 : c1 = ',' := by simpa using p1
        exact (fact hst (c := c1) (by rw [e1]; simp)).2.1 p1
      · obtain ⟨c, hc, hp⟩ := wordChr_run hu
        have hf := fact hst (c := c) (by rw [hc]; simp)
        have hp : c = '\u200e' ∨ c = '\u00b7' ∨ c = '\u200f' ∨ c = '\u064e' ∨ c = '\u064f' := by simpa using hp
        rcases hp with rfl | rfl | rfl | rfl | rfl <;> exact absurd hf.1 (by decide)
  have g2 : (rxSanitizeRussian U).matches s = false := by
    refine no_match fun st hst u hu => ?_
    obtain ⟨u1, k1, hu⟩ := seq_run hu
    obtain ⟨u2, k2, hu⟩ := seq_run hu
    obtain ⟨c2, e2, p2⟩ := wordChr_run k2
    have hf := fact (hst.run k1) (c := c2) (by rw [e2]; simp)
    have p2 : c2 = '\u0433' ∨ c2 = '\u0413' := by simpa using p2
    rcases p2 with rfl | rfl <;> exact absurd hf.1 (by decide)
  have g3 : (rxSanitizeCroatian U).matches s = false := by
    refine no_match fun st hst u hu => ?_
    obtain ⟨u1, k1, hu⟩ := seq_run hu
    obtain ⟨u2, k2, hu⟩ := seq_run hu
    obtain ⟨c2, e2, p2⟩ := wordChr_run k2
    have p2 : c2 = '.' := by simpa using p2
    exact (fact (hst.run k1) (c := c2) (by rw [e2]; simp)).2.2.1 p2
  unfold sanitizeDate at key ⊢
  simp only [replaceAll_none h1, replaceAll_none h2, replaceAll_none h3, tidy_spaces h0] at key
  simp only [replaceAll_none g1, replaceAll_none g2, replaceAll_none g3, ht]
  exact key

/-- A text without a zone, clean. -/
def clockPass (a : List Char) : Bool :=
  isAscii a && cleanDate asciiUni a && noBraces a && !nameAfter (a.map foldC) && !containsStr "utc".toList (a.map foldC) && !containsStr "gmt".toList (a.map foldC) && !offsetEnd (a.map foldC)

theorem clock_pass {g : Char → Char → Prop} {U : Uni} (hU : PersianUni U) {a t : List Char} (hp : clockPass a = true) (h : Rel2 (TagRel g) a t) {tb : List TzEntry} (ht : IsTable tb) :
    cleanDate U t = true ∧ (∀ c ∈ t, c.toNat < 128) ∧ stripBraces t = t ∧ popTzOffset tb t = (t, none) := by
  simp only [clockPass, Bool.and_eq_true, Bool.not_eq_true'] at hp
  obtain ⟨⟨⟨⟨⟨⟨h1, h2⟩, h3⟩, h4⟩, h5⟩, h6⟩, h7⟩ := hp
  have hcase : Rel2 CaseRel a t := h.mono fun _ _ hxy => hxy.case
  refine ⟨by rw [← clean_rel hU.toAsciiUni hcase]; exact h2, ?_, strip_noBraces (by rw [← noBraces_rel hcase]; exact h3), plain_pop ?_ ht⟩
  · have key : ∀ {a b : List Char}, Rel2 (TagRel g) a b → ∀ c ∈ b, c.toNat < 128 := by
      intro a b h
      induction h with
      | nil => intro c hc; cases hc
      | cons hxy _ ih =>
        intro c hc
        rcases List.mem_cons.mp hc with rfl | hc
        · exact hxy.case.right
        · exact ih c hc
    exact key h
  · rw [← calPlain_rel h]
    unfold calPlain mayHaveZone
    rw [h3, ← nameAfter_eq, h4, h5, h6, h7]
    rfl

def clockDays : List (List Char) := ["1".toList, "12".toList]

theorem clock_passes : (persianMonths.all fun x => clockDays.all fun a => timeTmpls.all fun T =>
    clockPass (a ++ ' ' :: (latinMonth x.2 ++ ' ' :: ("3456".toList ++ ' ' :: T)))) = true := by decide +kernel

theorem digits_rel : ∀ {a b : List Char}, a.length = b.length → (∀ c ∈ a, c.isDigit = true) → (∀ c ∈ b, c.isDigit = true) → Rel2 (TagRel fun _ _ => True) a b
  | [], [], _, _, _ => .nil
  | x :: a, y :: b, h, ha, hb => by
    have hx := ha x (by simp)
    refine .cons ⟨by have := digit_range hx; omega, Or.inl ⟨hx, hb y (by simp), trivial⟩⟩ (digits_rel (by simpa using h) (fun c hc => ha c (by simp [hc])) fun c hc => hb c (by simp [hc]))

theorem word_fields {w s : List Char} (h : Word w) : fields (w ++ ' ' :: s) = w :: fields s := by
  rw [fields_append (show startsWord (' ' :: s) = false from rfl), words_fields (Or.inr h), if_neg h.1, fields_space s (by decide)]
  rfl

/-- What the stages leave, cleaned. -/
theorem clock_clean {U : Uni} (hU : PersianUni U) {tb : List TzEntry} (htb : IsTable tb) {d y h m : List Char} {s : Option (List Char)} {mon : List Char} {n : Int} (hmon : (mon, n) ∈ persianMonths)
    (hd : Short d) (hy : Four y) (hh : IsShort h) (hm : IsShort m ∧ m.length = 2) (hs : ∀ x, s = some x → IsShort x ∧ x.length = 2)
    {S S' : List Char} (hS : ∀ c ∈ S, c = ' ') (hS' : ∀ c ∈ S', c = ' ') :
    let t := d ++ ' ' :: (latinMonth n ++ ' ' :: (y ++ ' ' :: clockText h m s))
    stripBraces (sanitizeDate U (d ++ ' ' :: ' ' :: (latinMonth n ++ ' ' :: ' ' :: (y ++ ' ' :: (S ++ (clockText h m s ++ S')))))) = t ∧ popTzOffset tb t = (t, none) := by
  intro t
  have hfact := List.all_eq_true.mp month_facts _ hmon
  simp only [Bool.and_eq_true, Bool.not_eq_true', decide_eq_true_eq] at hfact
  obtain ⟨⟨⟨⟨⟨⟨⟨⟨f1, f2⟩, f3⟩, f4⟩, f5⟩, f6⟩, f7⟩, f8⟩, f9⟩ := hfact
  obtain ⟨T, hT, es, hes, hTe⟩ := clock_template hh hm hs
  obtain ⟨a, ha, hal, had⟩ : ∃ a ∈ clockDays, a.length = d.length ∧ ∀ c ∈ a, c.isDigit = true := by
    rcases short_len hd with e | e
    · exact ⟨"1".toList, by decide, by rw [e]; decide, by decide⟩
    · exact ⟨"12".toList, by decide, by rw [e]; decide, by decide⟩
  have hone := List.all_eq_true.mp (List.all_eq_true.mp (List.all_eq_true.mp clock_passes _ hmon) a ha) T hT
  have hasc : isAscii (a ++ ' ' :: (latinMonth n ++ ' ' :: ("3456".toList ++ ' ' :: T))) = true := by
    simp only [clockPass, Bool.and_eq_true] at hone
    exact hone.1.1.1.1.1.1
  simp only [isAscii, List.all_append, List.all_cons, Bool.and_eq_true] at hasc
  have hlet : ∀ c ∈ latinMonth n, isLetterTok c = true := fun c hc => List.all_eq_true.mp f4 c hc
  have hld : ∀ c : Char, isLetterTok c = true → c.isDigit = false := by
    intro c hc
    have h0 := clockChar_facts (c := c) (by unfold clockChar; rw [hc]; simp)
    cases e : c.isDigit with
    | false => rfl
    | true =>
      have := digit_range e
      unfold isLetterTok at hc
      simp only [Bool.or_eq_true, Bool.and_eq_true, decide_eq_true_eq] at hc
      rcases hc with ⟨h, _⟩ | ⟨h, _⟩
      · have : 97 ≤ c.toNat := h
        omega
      · have : 65 ≤ c.toNat := h
        omega
  have r1 := digits_rel hal had hd.1.2
  have r2 : Rel2 (TagRel fun _ _ => True) (latinMonth n) (latinMonth n) := tag_word (by
    rw [List.all_eq_true]
    intro c hc
    rw [hld c (hlet c hc)]
    simpa using (clockChar_facts (c := c) (by unfold clockChar; rw [hlet c hc]; simp)).1)
  have r3 : Rel2 (TagRel fun _ _ => True) "3456".toList y := digits_rel (by rw [hy.2]; rfl) (by decide) hy.1.2
  have r4 : Rel2 (TagRel fun _ _ => True) T (clockText h m s) := by
    rw [← hTe]
    exact (tag_sub hes hasc.2.2.2.2.2.2).mono fun _ _ h => ⟨h.left, h.same.imp (fun h => ⟨h.1, h.2.1, trivial⟩) id⟩
  have sp : TagRel (fun _ _ => True) ' ' ' ' := tag_self (by decide) (by decide)
  obtain ⟨c1, c2, c3, c4⟩ := clock_pass hU hone (r1.append (.cons sp (r2.append (.cons sp (r3.append (.cons sp r4)))))) htb
  refine ⟨?_, c4⟩
  have hck : ∀ c ∈ clockText h m s, c.isDigit = true ∨ c = ':' := by
    intro x hx
    unfold clockText at hx
    simp only [List.mem_append, List.mem_cons] at hx
    rcases hx with hx | rfl | hx | hx
    · exact Or.inl (hh.1.2 x hx)
    · exact Or.inr rfl
    · exact Or.inl (hm.1.1.2 x hx)
    · cases s with
      | none => cases hx
      | some q =>
        simp only [List.mem_cons] at hx
        rcases hx with rfl | hx
        · exact Or.inr rfl
        · exact Or.inl ((hs q rfl).1.1.2 x hx)
  have hall : ∀ c ∈ d ++ ' ' :: ' ' :: (latinMonth n ++ ' ' :: ' ' :: (y ++ ' ' :: (S ++ (clockText h m s ++ S')))), clockChar c = true := by
    have cd : ∀ c : Char, c.isDigit = true → clockChar c = true := fun c hc => by unfold clockChar; rw [hc]; simp
    intro c hc
    simp only [List.mem_append, List.mem_cons] at hc
    rcases hc with hc | rfl | rfl | hc | rfl | rfl | hc | rfl | hc | hc | hc
    · exact cd c (hd.1.2 c hc)
    · decide
    · decide
    · unfold clockChar; rw [hlet c hc]; simp
    · decide
    · decide
    · exact cd c (hy.1.2 c hc)
    · decide
    · rw [hS c hc]; decide
    · rcases hck c hc with h | rfl
      · exact cd c h
      · decide
    · rw [hS' c hc]; decide
  have hsp : sanitizeSpaces (d ++ ' ' :: ' ' :: (latinMonth n ++ ' ' :: ' ' :: (y ++ ' ' :: (S ++ (clockText h m s ++ S'))))) = t := by
    unfold sanitizeSpaces
    rw [List.filter_eq_self.mpr (by
      intro c hc
      have := (clockChar_facts (hall c hc)).1
      simp only [bne_iff_ne, ne_eq]
      rintro rfl
      revert this; decide)]
    have dsp : ∀ c : Char, c.isDigit = true → isSpace c = false := fun c hc =>
      (any_known (c := c) (by rw [asciiDigit_low (by have := digit_range hc; omega)]; exact hc)).2.2.1
    have lsp : ∀ c : Char, isLetterTok c = true → isSpace c = false := by
      intro c hc
      cases e : isSpace c with
      | false => rfl
      | true =>
        have h1 := space_class e
        rw [classOf_letter hc] at h1
        cases h1
    have wd : Word d := ⟨hd.1.1, fun c hc => dsp c (hd.1.2 c hc)⟩
    have wl : Word (latinMonth n) := ⟨by intro e; rw [e] at f5; simp at f5, fun c hc => lsp c (hlet c hc)⟩
    have wy : Word y := ⟨hy.1.1, fun c hc => dsp c (hy.1.2 c hc)⟩
    have wc : Word (clockText h m s) := ⟨by unfold clockText; simp, fun c hc => by
      rcases hck c hc with h | rfl
      · exact dsp c h
      · decide⟩
    have hsps : ∀ {S : List Char}, (∀ c ∈ S, c = ' ') → ∀ c ∈ S, isSpace c = true := fun h c hc => by rw [h c hc]; decide
    rw [word_fields wd, fields_space _ (by decide), word_fields wl, fields_space _ (by decide), word_fields wy, fields_dropSpaces (hsps hS),
      fields_append (startsWord_allSpace (hsps hS')), fields_allSpace (hsps hS'), words_fields (Or.inr wc), if_neg wc.1]
    simp [joinWith, t]
  rw [sanitize_words hall hsp c1 c2]
  exact c3

/-! ## Normalization -/

/-- A word of digits and colons. -/
theorem word_part {D : List Char} (hne : D ≠ []) (h : ∀ c ∈ D, (asciiDigit c).isDigit = true ∨ c = ':') : Part D (D.map asciiDigit) := by
  have hk : ∀ c ∈ D, toLowerC (plainLetter c) = c ∧ isSpace c = false := by
    intro c hc
    rcases h c hc with h | rfl
    · have := any_known h; rw [this.2.1]; exact ⟨this.1, this.2.2.1⟩
    · decide
  have hp : plainPersian D = D := by
    unfold plainPersian toLower
    rw [List.map_map]
    have : ∀ c ∈ D, (toLowerC ∘ plainLetter) c = c := fun c hc => (hk c hc).1
    rw [List.map_congr_left this, List.map_id']
  have hf : fields D = [D] := by rw [words_fields (Or.inr ⟨hne, fun c hc => (hk c hc).2⟩), if_neg hne]
  refine ⟨fun c hc => ?_, ?_, by rw [hp]⟩
  · rcases h c hc with h | rfl
    · exact Or.inr (Or.inr h)
    · left; decide
  · rw [hp]
    exact ⟨by rw [hf]; rfl, by rw [hf]; simp⟩

theorem time_words : ([persianHour, persianAnd, persianMinutes, persianSeconds].all fun x => decide (plainPersian x = x) && decide (joinWith [' '] (fields x) = x) && !x.isEmpty &&
    decide (x.map asciiDigit = x) && (x.all fun c => c == ' ' || persianLetters.contains c)) = true := by decide +kernel

theorem time_word {x : List Char} (hx : x ∈ [persianHour, persianAnd, persianMinutes, persianSeconds]) : Part x x := by
  have := List.all_eq_true.mp time_words x hx
  simp only [Bool.and_eq_true, decide_eq_true_eq, Bool.not_eq_true'] at this
  obtain ⟨⟨⟨⟨h1, h2⟩, h3⟩, h4⟩, h5⟩ := this
  exact ⟨persian_of h5, by rw [h1]; exact tidy_of h2 h3, by rw [h1]; exact h4⟩

/-- What normalization makes of a text. -/
structure Normal (s w : List Char) : Prop where
  persian : PersianText s
  some : fields (plainPersian s) ≠ []
  same : (joinWith [' '] (fields (plainPersian s))).map asciiDigit = w

theorem Part.normal {x w : List Char} (h : Part x w) : Normal x w := ⟨h.persian, h.tidy.some, by rw [h.tidy.words]; exact h.same⟩

section
variable {E : Env} (hE : PersianSurroundings E)
include hE

theorem normal_cons {x w s v : List Char} (hx : Part x w) (hs : Normal s v) : Normal (x ++ ' ' :: s) (w ++ ' ' :: v) := by
  obtain ⟨h1, h2, h3⟩ := normal_part hE hx hs.persian hs.some
  exact ⟨h1, h2, by rw [h3, hs.same]⟩

theorem clock_word {h m : List Char} {s : Option (List Char)} (hc : ClockOk h m s none) :
    Part (clockText h m s) (clockText (h.map asciiDigit) (m.map asciiDigit) (s.map (·.map asciiDigit))) := by
  have e : (clockText h m s).map asciiDigit = clockText (h.map asciiDigit) (m.map asciiDigit) (s.map (·.map asciiDigit)) := by
    have ecol : asciiDigit ':' = ':' := by decide
    cases s <;> simp [clockText, ecol]
  rw [← e]
  refine word_part (by unfold clockText; simp) fun c hx => ?_
  unfold clockText at hx
  simp only [List.mem_append, List.mem_cons] at hx
  rcases hx with hx | rfl | hx | hx
  · exact Or.inl (short_any hc.hours.1 c hx)
  · exact Or.inr rfl
  · exact Or.inl (short_any hc.minutes.1.1 c hx)
  · cases s with
    | none => cases hx
    | some q =>
      simp only [List.mem_cons] at hx
      rcases hx with rfl | hx
      · exact Or.inr rfl
      · exact Or.inl (short_any (hc.seconds q rfl).1.1 c hx)

theorem time_part {h m t : List Char} {s : Option (List Char)} (hc : ClockOk h m s none) (ht : TimeText h m s t) :
    ∃ t', Normal t t' ∧ TimeText (h.map asciiDigit) (m.map asciiDigit) (s.map (·.map asciiDigit)) t' := by
  have pH : Part persianHour persianHour := time_word (by simp)
  have pA : Part persianAnd persianAnd := time_word (by simp)
  have pM : Part persianMinutes persianMinutes := time_word (by simp)
  have pS : Part persianSeconds persianSeconds := time_word (by simp)
  have ph := digits_part hc.hours
  have pm := digits_part hc.minutes.1
  cases ht with
  | clock => exact ⟨_, (clock_word hE hc).normal, .clock⟩
  | hour => exact ⟨_, normal_cons hE pH (clock_word hE hc).normal, .hour⟩
  | minutes => exact ⟨_, normal_cons hE pH (normal_cons hE ph (normal_cons hE pA (normal_cons hE pm pM.normal))), .minutes⟩
  | @seconds s =>
    have ps := digits_part (hc.seconds s rfl).1
    exact ⟨_, normal_cons hE pH (normal_cons hE ph (normal_cons hE pA (normal_cons hE pm (normal_cons hE pM (normal_cons hE pA (normal_cons hE ps pS.normal)))))), .seconds⟩

/-- Nothing like the Latin name of a weekday in digits, colons and spaces. -/
theorem no_latin {z : List Char} (h : ∀ c ∈ z, c.isDigit = true ∨ c = ':' ∨ c = ' ') : removeWeekdays z = z := by
  clear hE
  have hb : (latinPats.all fun x => (x.1.head?.any fun c => !c.isDigit && c != ':' && c != ' ')) = true := by decide +kernel
  rw [latin_eq]
  apply replaceEach_absent
  rw [List.all_eq_true] at hb ⊢
  intro x hx
  have := hb x hx
  cases e : x.1 with
  | nil => rw [e] at this; simp at this
  | cons y r =>
    rw [e] at this
    simp only [List.head?_cons, Option.any_some, Bool.and_eq_true, Bool.not_eq_true', bne_iff_ne, ne_eq] at this
    rw [Bool.not_eq_true']
    refine contains_head rfl ?_
    intro hm
    rcases h y hm with h | h | h
    · rw [h] at this; simp at this
    · exact this.1.2 h
    · exact this.2 h

/-- The text given to the parser. -/
theorem clock_text {D d mon y h m t : List Char} {s : Option (List Char)} {n : Int} (hD : DayText D d) (hmon : (mon, n) ∈ persianMonths) (hy : Four (y.map asciiDigit))
    (hc : ClockOk h m s none) (ht : TimeText h m s t) :
    let x := d ++ ' ' :: (latinMonth n ++ ' ' :: (y.map asciiDigit ++ ' ' :: clockText (h.map asciiDigit) (m.map asciiDigit) (s.map (·.map asciiDigit))))
    jalaliText E.uni (D ++ ' ' :: (mon ++ ' ' :: (y ++ ' ' :: t))) = x ∧ popTzOffset E.table x = (x, none) := by
  intro x
  obtain ⟨w, hw, hd⟩ := day_part hD
  obtain ⟨pm, hmp⟩ := month_part hmon
  obtain ⟨t', ht', htt⟩ := time_part hE hc ht
  have py : Part y (y.map asciiDigit) := word_part (by intro e; apply hy.1.1; rw [e]; rfl) fun c hc => Or.inl (short_any hy.1 c hc)
  have hn := normal_cons hE hw (normal_cons hE pm (normal_cons hE py ht'))
  have hmi : IsShort (m.map asciiDigit) ∧ (m.map asciiDigit).length = 2 := by rw [List.length_map]; exact hc.minutes
  have hsx : ∀ x, s.map (·.map asciiDigit) = some x → IsShort x ∧ x.length = 2 := by
    intro x hx
    cases s with
    | none => simp at hx
    | some z =>
      simp only [Option.map_some, Option.some.injEq] at hx
      subst hx
      have := hc.seconds z rfl
      rwa [← List.length_map (f := asciiDigit)] at this
  obtain ⟨S, S', hS, hS', htl⟩ := tail_clock hy hc.hours hmi hsx htt
  obtain ⟨c1, c2⟩ := clock_clean hE.persian hE.table hmon (day_short hD).1 hy hc.hours hmi hsx hS hS'
  refine ⟨?_, c2⟩
  rw [stages_text hE, normal_any hE.persian hn.persian, hn.same, stages_month hd hmp htl (no_latin hE ?_)]
  · exact c1
  · intro c hm
    have dc : ∀ c ∈ clockText (h.map asciiDigit) (m.map asciiDigit) (s.map (·.map asciiDigit)), c.isDigit = true ∨ c = ':' := by
      intro c hx
      unfold clockText at hx
      simp only [List.mem_append, List.mem_cons] at hx
      rcases hx with hx | rfl | hx | hx
      · exact Or.inl (hc.hours.1.2 c hx)
      · exact Or.inr rfl
      · exact Or.inl (hmi.1.1.2 c hx)
      · cases s with
        | none => cases hx
        | some q =>
          simp only [Option.map_some, List.mem_cons] at hx
          rcases hx with rfl | hx
          · exact Or.inr rfl
          · exact Or.inl ((hsx _ rfl).1.1.2 c hx)
    simp only [List.mem_cons, List.mem_append] at hm
    rcases hm with rfl | hm | rfl | hm | hm | hm
    · exact Or.inr (Or.inr rfl)
    · exact Or.inl (hy.1.2 c hm)
    · exact Or.inr (Or.inr rfl)
    · exact Or.inr (Or.inr (hS c hm))
    · rcases dc c hm with h | h
      · exact Or.inl h
      · exact Or.inr (Or.inl h)
    · exact Or.inr (Or.inr (hS' c hm))

variable {c : PCfg} (hc : c.validate = .ok ())
include hc

/-- **C35** A Jalali date with a Persian month name and a time of day, in figures or in words, gives this time on the same day in the
Gregorian calendar; the day may be in words. -/
theorem C35_jalali_month_name_time (lib : JalaliLib) (o : Order) (ho : toLower (calendarOrder c) = o.letters) (hod : o = .dmy ∨ o = .dym ∨ o = .mdy)
    (D d mon y : List Char) (n : Int) (hD : DayText D d) (hmon : (mon, n) ∈ persianMonths) (hy : Four (y.map asciiDigit))
    (v3 : 1 ≤ number d) (v4 : number d ≤ 30) (hy1 : 1 ≤ number (y.map asciiDigit)) (g : Int × Int × Int)
    (hj : IsJalali lib (number (y.map asciiDigit)) n (number d) g)
    (h m t : List Char) (s : Option (List Char)) (hck : ClockOk h m s none) (ht : TimeText h m s t) :
    let res : Except Fault DateRes := .ok { period := if c.timeAsPeriod then clockPeriod s else .day
                                            time := goDate g.1 g.2.1 g.2.2 (anyNumber h) (anyNumber m) (clockSecond s) 0 (baseTime c E.now).loc }
    E.parseJalali lib (some c) (D ++ ' ' :: (mon ++ ' ' :: (y ++ ' ' :: t))) = res ∧
    ∀ W ∈ persianWeekdays, E.parseJalali lib (some c) (W ++ ' ' :: (D ++ ' ' :: (mon ++ ' ' :: (y ++ ' ' :: t)))) = res := by
  intro res
  obtain ⟨t1, t2⟩ := clock_text hE hD hmon hy hck ht
  have hd := (day_short hD).1
  obtain ⟨cfg, h1, h2, h3, h4, h5⟩ := calendar_cfg hc E.now
  have hfact := List.all_eq_true.mp month_facts _ hmon
  simp only [Bool.and_eq_true, Bool.not_eq_true', decide_eq_true_eq] at hfact
  obtain ⟨⟨⟨⟨⟨⟨⟨⟨f1, f2⟩, f3⟩, f4⟩, f5⟩, f6⟩, f7⟩, f8⟩, f9⟩ := hfact
  obtain ⟨k1, k2⟩ := clockNotation_ok hck
  have ktext := clockNotation_text (h.map asciiDigit) (m.map asciiDigit) (s.map (·.map asciiDigit)) none
  simp only [latinMeridian, List.append_nil] at ktext
  have key : E.parseJalali lib (some c) (D ++ ' ' :: (mon ++ ' ' :: (y ++ ' ' :: t))) = res := by
    generalize he : (AEnv.mk (jalaliFns E.uni lib) cfg E.now E.monthFirst) = e
    have hloc : e.now.loc = (baseTime c E.now).loc := by
      rw [← he]
      unfold AEnv.now
      simp only [h3, base_notZero hE.toSurroundings, Bool.false_eq_true, if_false]
    have v3' : 1 ≤ (natOfDigits d : Int) := v3
    have hy1' : 1 ≤ (natOfDigits (y.map asciiDigit) : Int) := hy1
    have f9' : 1 ≤ n := f9
    obtain ⟨st, hst, hvals, hct⟩ := cal_name_steps e (digits_ok hE hc) (by rw [← he]; rfl) o (by rw [← he]; show toLower cfg.dateOrder = _; rw [h2]; exact ho) hod d (latinMonth n) _ n hd f8 hy f9 v3 v4 hy1
    have hfb : fallbacks st = st := by simp [fallbacks, fallback1, hvals, Vals.get]
    have hrun : Run .letter (latinMonth n) := fun c hc => classOf_letter (List.all_eq_true.mp f4 c hc)
    have hmok : (Wd.mk (latinMonth n) .letter).OK := ⟨by intro e; dsimp only at e; rw [e] at f5; simp at f5, hrun, by simp⟩
    have hsep : IsSeparator [' '] := by unfold IsSeparator; decide
    have core := calDateTime_core e none ⟨d, .digit⟩ ⟨latinMonth n, .letter⟩ ⟨y.map asciiDigit, .digit⟩ [' '] [' '] [' '] _ _ _
      (wdOK_digits hd.1) hmok (wdOK_digits hy.1) hsep hsep hsep k1 k2
      ⟨Or.inr ⟨digits_not_skipped hd.1, digits_no_colon hd.1.2, by simpa [nextText] using f7, Or.inl (by decide)⟩,
        Or.inr ⟨f6, letter_no_colon hrun, findMeridian_digits hy.1.2, Or.inl (by decide)⟩,
        Or.inr ⟨digits_not_skipped hy.1, digits_no_colon hy.1.2, clockWord_next _ _ k1, Or.inl (by decide)⟩, trivial⟩
      (by
        intro x hx
        simp only [List.mem_cons, List.not_mem_nil, or_false] at hx
        rcases hx with rfl | rfl | rfl
        · exact digits_not_skipped hd.1
        · exact f6
        · exact digits_not_skipped hy.1)
      (natOfDigits (y.map asciiDigit)) n (natOfDigits d) (by omega) (by omega) (by omega) st ⟨y.map asciiDigit, .digit⟩ ⟨latinMonth n, .letter⟩ ⟨d, .digit⟩ hst
      (by rw [hfb, hvals]) (by rw [hfb, hct]) (by have := hy.2; show (y.map asciiDigit).length ≠ 2; omega)
      (goDate g.1 g.2.1 g.2.2 (anyNumber h) (anyNumber m) (clockSecond s) 0 (baseTime c E.now).loc)
      (by rw [hloc, ← he]; exact jalali_create (by exact hj) _ _ _ _ _ _)
    unfold Env.parseJalali
    rw [h1]
    dsimp only
    unfold jalaliParse
    rw [t1]
    unfold calParse
    rw [t2]
    dsimp only
    rw [he]
    have htx : d ++ ' ' :: (latinMonth n ++ ' ' :: (y.map asciiDigit ++ ' ' :: clockText (h.map asciiDigit) (m.map asciiDigit) (s.map (·.map asciiDigit)))) =
        d ++ [' '] ++ latinMonth n ++ [' '] ++ y.map asciiDigit ++ [' '] ++ (clockNotation (h.map asciiDigit) (m.map asciiDigit) (s.map (·.map asciiDigit)) none).text := by
      rw [ktext]; simp
    rw [htx]
    have hcfg : e.cfg.timeAsPeriod = c.timeAsPeriod := by rw [← he]; exact h5
    rw [hcfg] at core
    revert core
    cases absInit e _ with
    | error f => intro core; exact absurd core (by simp)
    | ok s =>
      dsimp only
      intro core
      rw [core]
      rfl
  refine ⟨key, fun W hW => ?_⟩
  obtain ⟨hs, e⟩ := day_short hD
  have hr : RestText (' ' :: (y ++ ' ' :: t)) := by
    obtain ⟨t', ht', _⟩ := time_part hE hck ht
    refine ⟨?_, Or.inr ⟨_, rfl⟩⟩
    intro c hc
    rcases List.mem_cons.mp hc with rfl | hc
    · left; decide
    · rcases List.mem_append.mp hc with hc | hc
      · exact Or.inr (Or.inr (short_any hy.1 c hc))
      · rcases List.mem_cons.mp hc with rfl | hc
        · left; decide
        · exact ht'.persian c hc
  rw [C35_jalali_weekday hE lib (some c) W D d mon _ n hW hD hmon hr, ← C35_jalali_day_words hE lib (some c) D d mon _ n hD hmon hr]
  exact key
end

/-! ## Example -/

/-- Saturday, the first of Farvardin 1394, hour 8 and 46 minutes and 55 seconds. -/
example : persianEnv.parseJalali demoJalali (some {}) "شنبه اول فروردین ۱۳۹۴ ساعت ۸ و ۴۶ دقیقه و ۵۵ ثانیه".toList =
    .ok { period := .day, time := goDate 2015 3 21 8 46 55 0 Loc.utc } := by
  have := (C35_jalali_month_name_time persian_sound (c := {}) rfl demoJalali .dmy (by decide) (Or.inl rfl) "اول".toList "1".toList "فروردین".toList "۱۳۹۴".toList 1
    (.ordinal (by decide)) (by decide) ⟨by unfold IsNumeral; decide, by decide⟩ (by decide) (by decide) (by decide) (2015, 3, 21)
    ⟨⟨31, by decide +kernel, by decide⟩, ⟨false, by decide +kernel, by decide⟩, by decide +kernel⟩ "۸".toList "۴۶".toList _ (some "۵۵".toList)
    ⟨⟨by unfold IsNumeral; decide, by decide⟩, ⟨⟨by unfold IsNumeral; decide, by decide⟩, by decide⟩,
      fun x hx => by cases hx; exact ⟨⟨by unfold IsNumeral; decide, by decide⟩, by decide⟩, by decide, by decide, fun x hx => by cases hx; decide⟩
    .seconds).2 "شنبه".toList (by decide)
  have e : "شنبه اول فروردین ۱۳۹۴ ساعت ۸ و ۴۶ دقیقه و ۵۵ ثانیه".toList = "شنبه".toList ++ ' ' :: ("اول".toList ++ ' ' :: ("فروردین".toList ++ ' ' :: ("۱۳۹۴".toList ++ ' ' ::
      (persianHour ++ ' ' :: ("۸".toList ++ ' ' :: (persianAnd ++ ' ' :: ("۴۶".toList ++ ' ' :: (persianMinutes ++ ' ' :: (persianAnd ++ ' ' :: ("۵۵".toList ++ ' ' :: persianSeconds)))))))))) := by decide
  rw [e]
  exact this

end Verif.Props
