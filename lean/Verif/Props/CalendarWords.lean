import Verif.Lemmas.CalNormal
import Verif.Props.Calendars
/-! # C35: weekdays and days in words in a Jalali date -/
set_option autoImplicit false
namespace Verif.Props
open Verif.Go Verif.Model Verif.Data Verif.Lemmas Verif.Spec

theorem tidy_of {w : List Char} (h : joinWith [' '] (fields w) = w) (hne : w.isEmpty = false) : Tidy w := by
  refine ⟨h, ?_⟩
  intro e
  rw [e] at h
  rw [← h] at hne
  simp [joinWith] at hne

theorem persian_of {x : List Char} (h : (x.all fun c => c == ' ' || persianLetters.contains c) = true) : PersianText x := by
  intro c hc
  have := List.all_eq_true.mp h c hc
  simp only [Bool.or_eq_true, beq_iff_eq] at this
  rcases this with rfl | h
  · left; decide
  · exact Or.inr (Or.inl (List.contains_iff_mem.mp h))

/-- A part of the text: what normalization makes of it. -/
structure Part (x w : List Char) : Prop where
  persian : PersianText x
  tidy : Tidy (plainPersian x)
  same : (plainPersian x).map asciiDigit = w

theorem part_of {x : List Char} (h1 : joinWith [' '] (fields (plainPersian x)) = plainPersian x) (h2 : (plainPersian x).isEmpty = false) (h3 : (plainPersian x).map asciiDigit = plainPersian x)
    (h4 : PersianText x) : Part x (plainPersian x) := ⟨h4, tidy_of h1 h2, h3⟩

theorem digits_part {D : List Char} (h : IsShort (D.map asciiDigit)) : Part D (D.map asciiDigit) := by
  have hk := fun c hc => any_known (short_any h.1 c hc)
  have hp : plainPersian D = D := by
    unfold plainPersian toLower
    rw [List.map_map]
    have : ∀ c ∈ D, (toLowerC ∘ plainLetter) c = c := by
      intro c hc
      show toLowerC (plainLetter c) = c
      rw [(hk c hc).2.1, (hk c hc).1]
    rw [List.map_congr_left this, List.map_id']
  have hne : D ≠ [] := by intro e; apply h.1.1; rw [e]; rfl
  have hf : fields D = [D] := by rw [words_fields (Or.inr ⟨hne, fun c hc => (hk c hc).2.2.1⟩), if_neg hne]
  refine ⟨fun c hc => Or.inr (Or.inr (short_any h.1 c hc)), ?_, by rw [hp]⟩
  rw [hp]
  exact ⟨by rw [hf]; rfl, by rw [hf]; simp⟩

theorem month_beyond : (beyond monthPats && decide (replaceEach monthPats [] = []) && decide (replaceEach weekdayPats [] = []) && decide (replaceEach dayPats [] = []) &&
    (latinPats.all fun x => (x.1.head?.any fun c => !c.isDigit))) = true := by decide +kernel

theorem contains_head {w s : List Char} {y : Char} {r : List Char} (hw : w = y :: r) : y ∉ s → containsStr w s = false := by
  subst hw
  induction s with
  | nil => intro _; rfl
  | cons c s ih =>
    intro h
    simp only [List.mem_cons, not_or] at h
    have : (y == c) = false := by rw [beq_eq_false_iff_ne]; exact h.1
    simp [containsStr, List.isPrefixOf, this, ih h.2]

theorem digits_day {d : List Char} (hne : d ≠ []) (h : ∀ c ∈ d, c.isDigit = true) : DayPart d d := by
  have hb := month_beyond
  simp only [Bool.and_eq_true, decide_eq_true_eq] at hb
  obtain ⟨⟨⟨⟨b1, b2⟩, b3⟩, b4⟩, b5⟩ := hb
  have hp := pats_ok
  simp only [Bool.and_eq_true] at hp
  have ha := digits_ascii h
  refine ⟨?_, ?_, ?_, ?_, hne, h⟩
  · have := each_prefix b1 ha []
    rw [b2, List.append_nil] at this
    rw [months_eq, this]
  · have := prefix_weekdays ha []
    rw [List.append_nil, weekdays_eq [], b3, List.append_nil] at this
    exact this
  · have := prefix_days ha []
    rw [List.append_nil, days_eq [], show delOrd [] = [] from rfl, b4, List.append_nil] at this
    exact this
  · rw [latin_eq]
    apply replaceEach_absent
    rw [List.all_eq_true] at b5 ⊢
    intro x hx
    have := b5 x hx
    cases e : x.1 with
    | nil => rw [e] at this; simp at this
    | cons y r =>
      rw [e] at this
      simp only [List.head?_cons, Option.any_some, Bool.not_eq_true'] at this
      rw [Bool.not_eq_true']
      refine contains_head rfl ?_
      intro hm
      rw [h y hm] at this
      cases this

theorem day_ok {D d : List Char} (h : dayOk (D, d) = true) : Part D (plainPersian D) ∧ DayPart (plainPersian D) d := by
  unfold dayOk at h
  simp only [Bool.and_eq_true, decide_eq_true_eq, Bool.not_eq_true'] at h
  obtain ⟨⟨⟨⟨⟨⟨⟨⟨⟨h1, h2⟩, h3⟩, h4⟩, h5⟩, h6⟩, h7⟩, h8⟩, h9⟩, h10⟩ := h
  exact ⟨part_of h1 h2 h3 (persian_of h4), ⟨h5, h6, h7, h8, by intro e; rw [e] at h9; simp at h9, fun c hc => List.all_eq_true.mp h10 c hc⟩⟩

theorem day_part {D d : List Char} (h : DayText D d) : ∃ w, Part D w ∧ DayPart w d := by
  cases h with
  | digits h => exact ⟨_, digits_part h, digits_day h.1.1 h.1.2⟩
  | cardinal h => exact ⟨_, day_ok (List.all_eq_true.mp number_parts _ h)⟩
  | ordinal h => exact ⟨_, day_ok (List.all_eq_true.mp ordinal_parts _ h)⟩

theorem week_part {W : List Char} (h : W ∈ persianWeekdays) : ∃ w L, Part W w ∧ WeekPart w L := by
  have := List.all_eq_true.mp week_parts W h
  simp only [Bool.and_eq_true, decide_eq_true_eq, Bool.not_eq_true', List.any_eq_true] at this
  obtain ⟨⟨⟨⟨⟨⟨h1, h2⟩, h3⟩, h4⟩, h5⟩, h6⟩, l, _, ⟨h7, h8⟩, h9⟩ := this
  exact ⟨_, l.1, part_of h1 h2 h3 (persian_of h4), ⟨h5, h6, h7, h8, fun c hc => by simpa using List.all_eq_true.mp h9 c hc⟩⟩

theorem day_short {D d : List Char} (h : DayText D d) : IsShort d ∧ d.map asciiDigit = d := by
  obtain ⟨w, _, hd⟩ := day_part h
  refine ⟨⟨hd.digits, ?_⟩, ?_⟩
  · cases h with
    | digits h => exact h.2
    | cardinal h =>
      have : (persianNumbers.all fun x => decide (x.2.length ≤ 2)) = true := by decide +kernel
      simpa using List.all_eq_true.mp this _ h
    | ordinal h =>
      have : (persianOrdinals.all fun x => decide (x.2.length ≤ 2)) = true := by decide +kernel
      simpa using List.all_eq_true.mp this _ h
  · have : ∀ c ∈ d, asciiDigit c = c := fun c hc => asciiDigit_low (digit_ascii (hd.digits.2 c hc))
    rw [List.map_congr_left this, List.map_id']

/-- A day in digits is the same in digits. -/
theorem day_digits {D d : List Char} (h : DayText D d) : DayText d d := by
  obtain ⟨hs, e⟩ := day_short h
  have := DayText.digits (D := d) (by rw [e]; exact hs)
  rwa [e] at this

/-- The month and what follows it. -/
theorem rest_part {mon t : List Char} {n : Int} (hm : (mon, n) ∈ persianMonths) (ht : RestText t) :
    ∃ R x R', PersianText (mon ++ t) ∧ fields (plainPersian (mon ++ t)) ≠ [] ∧ (joinWith [' '] (fields (plainPersian (mon ++ t)))).map asciiDigit = R ∧ RestPart R x R' := by
  have := List.all_eq_true.mp month_parts _ hm
  simp only [Bool.and_eq_true, decide_eq_true_eq, Bool.not_eq_true'] at this
  obtain ⟨⟨⟨⟨⟨h1, h2⟩, h3⟩, h4⟩, h5⟩, h6⟩ := this
  have hp : PersianText mon := fun c hc => Or.inr (Or.inl (List.contains_iff_mem.mp (List.all_eq_true.mp h4 c hc)))
  have hti := tidy_of h1 h2
  have ht' : plainPersian t = [] ∨ ∃ r, plainPersian t = ' ' :: r := by
    rcases ht.space with rfl | ⟨r, rfl⟩
    · exact Or.inl rfl
    · exact Or.inr ⟨_, plain_space r⟩
  obtain ⟨z, hz, hz'⟩ := join_rest ht'
  obtain ⟨x, l, hl⟩ : ∃ x l, latinMonth n = x :: l := by
    cases e : latinMonth n with
    | nil => rw [e] at h6; simp at h6
    | cons x l => exact ⟨x, l, rfl⟩
  rw [hl] at h6 h5
  simp only [List.head?_cons, Option.any_some, Bool.and_eq_true, decide_eq_true_eq, Bool.not_eq_true'] at h6
  have hlet : x.toNat < 128 ∧ x.isDigit = false ∧ isRxSpace x = false := ⟨h6.1.1, h6.1.2, h6.2⟩
  have hf : fields (plainPersian (mon ++ t)) ≠ [] := by
    rw [plain_append]
    rcases ht' with e | ⟨r, e⟩
    · rw [e, List.append_nil]; exact hti.some
    · rw [e]; exact fields_ne hti
  rcases hz' with rfl | ⟨r, rfl⟩
  · refine ⟨plainPersian mon, x, l ++ [' '], persian_append hp ht.letters, hf, ?_, ?_, hlet⟩
    · rw [plain_append, hz _ hti, List.append_nil, h3]
    · rw [h5]; rfl
  · refine ⟨plainPersian mon ++ ' ' :: r.map asciiDigit, x, l ++ ' ' :: ' ' :: replaceMonths (r.map asciiDigit), persian_append hp ht.letters, hf, ?_, ?_, hlet⟩
    · rw [plain_append, hz _ hti, List.map_append, h3]
      rfl
    · rw [split_months, h5]
      simp

section
variable {E : Env} (hE : PersianSurroundings E)
include hE

theorem normal_part {x w s : List Char} (hx : Part x w) (hs : PersianText s) (hf : fields (plainPersian s) ≠ []) :
    PersianText (x ++ ' ' :: s) ∧ fields (plainPersian (x ++ ' ' :: s)) ≠ [] ∧
    (joinWith [' '] (fields (plainPersian (x ++ ' ' :: s)))).map asciiDigit = w ++ ' ' :: (joinWith [' '] (fields (plainPersian s))).map asciiDigit := by
  have e : plainPersian (x ++ ' ' :: s) = plainPersian x ++ ' ' :: plainPersian s := by rw [plain_append, plain_space]
  refine ⟨?_, ?_, ?_⟩
  · refine persian_append hx.persian ?_
    intro c hc
    rcases List.mem_cons.mp hc with rfl | hc
    · left; decide
    · exact hs c hc
  · rw [e]; exact fields_ne hx.tidy
  · rw [e, join_tidy hx.tidy hf, List.map_append, hx.same]
    rfl

theorem stages_text (s : List Char) : jalaliText E.uni s = stripBraces (sanitizeDate E.uni (jalaliStages (normalizeDigits E.uni.isDigit (E.uni.normalizeString s)))) := rfl

/-- The text of a day in words is that of the day in digits. -/
theorem words_text {D d mon t : List Char} {n : Int} (hD : DayText D d) (hm : (mon, n) ∈ persianMonths) (ht : RestText t) :
    jalaliText E.uni (D ++ ' ' :: (mon ++ t)) = jalaliText E.uni (d ++ ' ' :: (mon ++ t)) ∧
    ∀ W ∈ persianWeekdays, jalaliText E.uni (W ++ ' ' :: (D ++ ' ' :: (mon ++ t))) = jalaliText E.uni (d ++ ' ' :: (mon ++ t)) := by
  obtain ⟨R, x, R', r1, r2, r3, r4⟩ := rest_part hm ht
  obtain ⟨w, hw, hd⟩ := day_part hD
  obtain ⟨w', hw', hd'⟩ := day_part (day_digits hD)
  obtain ⟨p1, p2, p3⟩ := normal_part hE hw r1 r2
  obtain ⟨q1, q2, q3⟩ := normal_part hE hw' r1 r2
  have key : jalaliText E.uni (D ++ ' ' :: (mon ++ t)) = jalaliText E.uni (d ++ ' ' :: (mon ++ t)) := by
    rw [stages_text hE, stages_text hE, normal_any hE.persian p1, normal_any hE.persian q1, p3, q3, r3, stages_day hd r4, stages_day hd' r4]
  refine ⟨key, fun W hW => ?_⟩
  obtain ⟨v, L, hv, hl⟩ := week_part hW
  obtain ⟨s1, s2, s3⟩ := normal_part hE hv p1 p2
  rw [← key, stages_text hE, stages_text hE, normal_any hE.persian p1, normal_any hE.persian s1, s3, p3, r3]
  obtain ⟨S, hS, e⟩ := stages_week hl hd r4
  rw [e, stages_day hd r4]
  obtain ⟨c0, d', rfl⟩ : ∃ c0 d', d = c0 :: d' := by
    cases d with
    | nil => exact absurd rfl hd.digits.1
    | cons c0 d' => exact ⟨c0, d', rfl⟩
  rw [List.cons_append, sanitize_spaces hE.persian.toAsciiUni hS (hd.digits.2 c0 (by simp))]

/-- **C35** A day of the month in words, as a number or as an ordinal, and in any digits, reads as the same day in ASCII digits: for
every configuration, every month name and everything that may follow. -/
theorem C35_jalali_day_words (lib : JalaliLib) (c : Option PCfg) (D d mon t : List Char) (n : Int) (hD : DayText D d) (hm : (mon, n) ∈ persianMonths) (ht : RestText t) :
    E.parseJalali lib c (D ++ ' ' :: (mon ++ t)) = E.parseJalali lib c (d ++ ' ' :: (mon ++ t)) := by
  unfold Env.parseJalali jalaliParse
  rw [(words_text hE hD hm ht).1]

/-- **C35** A weekday before such a date changes nothing. -/
theorem C35_jalali_weekday (lib : JalaliLib) (c : Option PCfg) (W D d mon t : List Char) (n : Int) (hW : W ∈ persianWeekdays) (hD : DayText D d)
    (hm : (mon, n) ∈ persianMonths) (ht : RestText t) :
    E.parseJalali lib c (W ++ ' ' :: (D ++ ' ' :: (mon ++ t))) = E.parseJalali lib c (d ++ ' ' :: (mon ++ t)) := by
  unfold Env.parseJalali jalaliParse
  rw [(words_text hE hD hm ht).2 W hW]

/-- **C35** A Jalali date with the day in words, a Persian month name and a year, with or without a weekday, gives the same day in the
Gregorian calendar. -/
theorem C35_jalali_words {c : PCfg} (hc : c.validate = .ok ()) (lib : JalaliLib) (o : Order) (ho : toLower (calendarOrder c) = o.letters) (hod : o = .dmy ∨ o = .dym ∨ o = .mdy)
    (D d mon y : List Char) (n : Int) (hD : DayText D d) (hmon : (mon, n) ∈ persianMonths) (hy : Four (y.map asciiDigit))
    (v3 : 1 ≤ number d) (v4 : number d ≤ 30) (hy1 : 1 ≤ number (y.map asciiDigit)) (g : Int × Int × Int)
    (hj : IsJalali lib (number (y.map asciiDigit)) n (number d) g) :
    let res : Except Fault DateRes := .ok { period := .day, time := goDate g.1 g.2.1 g.2.2 0 0 0 0 (baseTime c E.now).loc }
    E.parseJalali lib (some c) (D ++ ' ' :: (mon ++ ' ' :: y)) = res ∧
    ∀ W ∈ persianWeekdays, E.parseJalali lib (some c) (W ++ ' ' :: (D ++ ' ' :: (mon ++ ' ' :: y))) = res := by
  intro res
  have ht : RestText (' ' :: y) := ⟨by
    intro c hc
    rcases List.mem_cons.mp hc with rfl | hc
    · left; decide
    · exact Or.inr (Or.inr (short_any hy.1 c hc)), Or.inr ⟨_, rfl⟩⟩
  obtain ⟨hs, e⟩ := day_short hD
  have hs : Short (d.map asciiDigit) := by rw [e]; exact hs
  have key : E.parseJalali lib (some c) (d ++ ' ' :: (mon ++ ' ' :: y)) = res :=
    C35_jalali_month_name hE hc lib o ho hod d mon y n hs hmon hy (by rw [e]; exact v3) (by rw [e]; exact v4) hy1 g (by rw [e]; exact hj)
  exact ⟨(C35_jalali_day_words hE lib (some c) D d mon _ n hD hmon ht).trans key,
    fun W hW => (C35_jalali_weekday hE lib (some c) W D d mon _ n hW hD hmon ht).trans key⟩
end

/-! ## Examples -/

/-- Friday, the twenty-third of Ordibehesht 1401. -/
example : persianEnv.parseJalali demoJalali (some {}) "جمعه بیست و سوم اردیبهشت ۱۴۰۱".toList = .ok { period := .day, time := goDate 2022 5 13 0 0 0 0 Loc.utc } := by
  have := (C35_jalali_words persian_sound (c := {}) rfl demoJalali .dmy (by decide) (Or.inl rfl) "بیست و سوم".toList "23".toList "اردیبهشت".toList "۱۴۰۱".toList 2
    (.ordinal (by decide)) (by decide) ⟨by unfold IsNumeral; decide, by decide⟩ (by decide) (by decide) (by decide) (2022, 5, 13)
    ⟨⟨31, by decide +kernel, by decide⟩, ⟨false, by decide +kernel, by decide⟩, by decide +kernel⟩).2 "جمعه".toList (by decide)
  have e : "جمعه بیست و سوم اردیبهشت ۱۴۰۱".toList = "جمعه".toList ++ ' ' :: ("بیست و سوم".toList ++ ' ' :: ("اردیبهشت".toList ++ ' ' :: "۱۴۰۱".toList)) := by decide
  rw [e]
  exact this

/-- With a time of day after the date. -/
example : persianEnv.parseJalali demoJalali none "سه شنبه نوزده آبان 1394 ساعت 10:11".toList = persianEnv.parseJalali demoJalali none "19 آبان 1394 ساعت 10:11".toList := by
  have ht : RestText " 1394 ساعت 10:11".toList := ⟨by
      have : (" 1394 ساعت 10:11".toList.all fun c => decide (c.toNat < 128) || persianLetters.contains c) = true := by decide
      intro c hc
      have := List.all_eq_true.mp this c hc
      simp only [Bool.or_eq_true, decide_eq_true_eq] at this
      rcases this with h | h
      · exact Or.inl h
      · exact Or.inr (Or.inl (List.contains_iff_mem.mp h)), Or.inr ⟨"1394 ساعت 10:11".toList, by decide⟩⟩
  have := C35_jalali_weekday persian_sound demoJalali none "سه شنبه".toList "نوزده".toList "19".toList "آبان".toList _ 8 (by decide) (.cardinal (by decide)) (by decide) ht
  have e1 : "سه شنبه نوزده آبان 1394 ساعت 10:11".toList = "سه شنبه".toList ++ ' ' :: ("نوزده".toList ++ ' ' :: ("آبان".toList ++ " 1394 ساعت 10:11".toList)) := by decide
  have e2 : "19 آبان 1394 ساعت 10:11".toList = "19".toList ++ ' ' :: ("آبان".toList ++ " 1394 ساعت 10:11".toList) := by decide
  rw [e1, e2]
  exact this

end Verif.Props
