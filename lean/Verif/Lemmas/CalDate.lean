import Verif.Lemmas.CalText
import Verif.Lemmas.Spaces
import Verif.Lemmas.NoZone
import Verif.Props.English
/-! Helper lemmas: Jalali and Hijri dates, from the text to the tokens. -/
set_option autoImplicit false
namespace Verif.Lemmas
open Verif.Go Verif.Model Verif.Spec Verif.Props Verif.Data

/-! ## Normalization -/

theorem asciiDigit_low {c : Char} (h : c.toNat < 128) : asciiDigit c = c := by
  unfold asciiDigit
  rw [if_neg (by omega), if_neg (by omega)]

theorem persian_known : (persianLetters.all fun c => decide (asciiDigit c = c) && !c.isDigit && decide (128 ≤ c.toNat) && (toLowerC c == c) && !isSpace c && c != '\u00a0' && decide (plainLetter c ∈ persianLetters)) = true := by
  decide +kernel

theorem plain_persian {c : Char} (h : PersianText [c]) : PersianText [plainLetter c] := by
  intro x hx
  rw [List.mem_singleton] at hx; subst hx
  rcases h c (by simp) with h | h | h
  · left
    unfold plainLetter
    split
    · rename_i e; subst e; revert h; decide
    · exact h
  · right; left
    have := List.all_eq_true.mp persian_known c h
    simp only [Bool.and_eq_true, decide_eq_true_eq] at this
    exact this.2
  · right; right
    unfold plainLetter
    split
    · rename_i e; subst e; revert h; decide
    · exact h

theorem arabic_digit {n : Nat} (h : n ≤ 9) : (Char.ofNat (48 + n)).isDigit = true := by
  have : ∀ n : Fin 10, (Char.ofNat (48 + n.1)).isDigit = true := by decide
  exact this ⟨n, by omega⟩

theorem ofNat_toNat {c : Char} (h : c.isDigit = true) : Char.ofNat (48 + (c.toNat - 48)) = c := by
  have := digit_range h
  rw [show 48 + (c.toNat - 48) = c.toNat by omega]
  exact Char.ofNat_toNat c

theorem digits_persian {U : Uni} (hU : PersianUni U) {s : List Char} (h : PersianText s) : normalizeDigits U.isDigit s = s.map asciiDigit := by
  unfold normalizeDigits
  refine loop_map _ _ _ (fun r hr last hl => ?_) _ (by decide)
  have hr' : PersianText [r] := fun x hx => by rw [List.mem_singleton] at hx; subst hx; exact h x hr
  have hd := hU.isDigitP r hr'
  obtain ⟨_, h1, h2, _⟩ := step_fst U.isDigit last hl r
  cases e : U.isDigit r with
  | false =>
    rw [h1 e]
    rw [e] at hd
    unfold asciiDigit at hd ⊢
    split at hd
    · rename_i hc; rw [arabic_digit (by omega)] at hd; simp at hd
    · rename_i hc
      rw [if_neg hc]
      split at hd
      · rename_i hc; rw [arabic_digit (by omega)] at hd; simp at hd
      · rename_i hc'; rw [if_neg hc']
  | true =>
    rw [e] at hd
    unfold asciiDigit at hd ⊢
    split
    · rename_i hc
      exact h2 e (0x6F0, 0x6F9) (by decide) hc.1 hc.2
    · rename_i hc
      rw [if_neg hc] at hd
      split
      · rename_i hc
        exact h2 e (0x660, 0x669) (by decide) hc.1 hc.2
      · rename_i hc'
        rw [if_neg hc'] at hd
        have hr := digit_range hd.symm
        rw [h2 e (0x30, 0x39) (by decide) hr.1 hr.2]
        exact ofNat_toNat hd.symm

/-- The text after normalization. -/
theorem normal_persian {U : Uni} (hU : PersianUni U) {s : List Char} (h : PersianText s) (hl : ∀ c ∈ s, toLowerC (plainLetter c) = plainLetter c)
    (hsp : sanitizeSpaces (s.map plainLetter) = s.map plainLetter) :
    normalizeDigits U.isDigit (U.normalizeString s) = (s.map plainLetter).map asciiDigit := by
  have hp : PersianText (s.map plainLetter) := by
    intro c hc
    obtain ⟨x, hx, rfl⟩ := List.mem_map.mp hc
    exact plain_persian (c := x) (fun y hy => by rw [List.mem_singleton] at hy; subst hy; exact h y hx) _ (by simp)
  unfold Uni.normalizeString
  rw [hU.nfkcP s h, hU.lowerP _ hp]
  have : toLower (s.map plainLetter) = s.map plainLetter := by
    unfold toLower
    rw [List.map_map]
    exact List.map_congr_left fun c hc => hl c hc
  rw [this, hsp, digits_persian hU hp]

/-! ## The stages -/

/-- A text in which there is nothing more to translate. -/
def calQuiet (b : List Char) : Bool :=
  isAscii b && ((jalaliWeekdays.flatMap fun x => x.2).all fun p => !containsStr p b) && !rxOrdinal.matches b &&
    ((jalaliDays.flatMap fun x => x.2).all fun p => !containsStr p b) && !rxHourPattern.matches b && !rxMinutePattern.matches b &&
    !rxSecondPattern.matches b && !rxColon.matches b && !containsStr hourWord b && (jalaliWeekdays.all fun x => !containsStr x.1 b)

theorem patterns_plain : ((jalaliWeekdays.flatMap fun x => x.2).all digitFree && (jalaliDays.flatMap fun x => x.2).all digitFree && digitFree hourWord &&
    (jalaliWeekdays.all fun x => digitFree x.1)) = true := by decide +kernel

theorem quiet_sub {ds b : List Char} (hds : ∀ c ∈ ds, c.isDigit = true) (h : calQuiet b = true) : calQuiet (b.map (sub ds)) = true := by
  unfold calQuiet at h ⊢
  simp only [Bool.and_eq_true, Bool.not_eq_true'] at h ⊢
  obtain ⟨⟨⟨⟨⟨⟨⟨⟨⟨h1, h2⟩, h3⟩, h4⟩, h5⟩, h6⟩, h7⟩, h8⟩, h9⟩, h10⟩ := h
  have hpat := patterns_plain
  simp only [Bool.and_eq_true] at hpat
  obtain ⟨⟨⟨p1, p2⟩, p3⟩, p4⟩ := hpat
  have hrel := tag_sub hds h1
  have hc : ∀ w, digitFree w = true → containsStr w (b.map (sub ds)) = containsStr w b := fun w hw => (containsStr_rel (TagRel.digits _) hw hrel).symm
  have hm : ∀ r, caseRx r = true → r.matches (b.map (sub ds)) = r.matches b := fun r hr => (matches_rel (RxRel.tag (caseRx_rel hr)) hrel).symm
  have m1 := hm rxOrdinal (by decide +kernel)
  have m2 := hm rxHourPattern (by decide +kernel)
  have m3 := hm rxMinutePattern (by decide +kernel)
  have m4 := hm rxSecondPattern (by decide +kernel)
  have m5 := hm rxColon (by decide +kernel)
  refine ⟨⟨⟨⟨⟨⟨⟨⟨⟨?_, ?_⟩, by rw [m1]; exact h3⟩, ?_⟩, by rw [m2]; exact h5⟩, by rw [m3]; exact h6⟩, by rw [m4]; exact h7⟩, by rw [m5]; exact h8⟩, by rw [hc _ p3]; exact h9⟩, ?_⟩
  · unfold isAscii
    rw [List.all_eq_true]
    intro c hcc
    obtain ⟨x, hx, rfl⟩ := List.mem_map.mp hcc
    have := isAscii_mem h1 x hx
    cases e : x.isDigit with
    | true => have := digit_range (sub_digit hds e); simp; omega
    | false => rw [sub_other e]; simpa using this
  · rw [List.all_eq_true] at h2 p1 ⊢
    intro p hp
    rw [hc _ (p1 p hp)]; exact h2 p hp
  · rw [List.all_eq_true] at h4 p2 ⊢
    intro p hp
    rw [hc _ (p2 p hp)]; exact h4 p hp
  · rw [List.all_eq_true] at h10 p4 ⊢
    intro p hp
    rw [hc _ (p4 p hp)]; exact h10 p hp

theorem quiet_stages {b : List Char} (h : calQuiet b = true) : removeWeekdays (replaceTime (replaceDays (replaceWeekdays b))) = b := by
  unfold calQuiet at h
  simp only [Bool.and_eq_true, Bool.not_eq_true'] at h
  obtain ⟨⟨⟨⟨⟨⟨⟨⟨⟨_, h2⟩, h3⟩, h4⟩, h5⟩, h6⟩, h7⟩, h8⟩, h9⟩, h10⟩ := h
  have e1 : replaceWeekdays b = b := by
    unfold replaceWeekdays
    apply replaceEach_absent
    rw [List.all_eq_true] at h2 ⊢
    intro x hx
    obtain ⟨y, hy, hx⟩ := List.mem_flatMap.mp hx
    obtain ⟨p, hp, rfl⟩ := List.mem_map.mp hx
    exact h2 p (List.mem_flatMap.mpr ⟨y, hy, hp⟩)
  have e2 : replaceDays b = b := by
    unfold replaceDays
    rw [deleteAll_absent h3]
    apply replaceEach_absent
    rw [List.all_eq_true] at h4 ⊢
    intro x hx
    obtain ⟨y, hy, hx⟩ := List.mem_flatMap.mp hx
    obtain ⟨p, hp, rfl⟩ := List.mem_map.mp hx
    exact h4 p (List.mem_flatMap.mpr ⟨y, hy, hp⟩)
  have e3 : replaceTime b = b := by
    unfold replaceTime
    rw [numbersOnly_absent h5, numbersOnly_absent h6, numbersOnly_absent h7]
    have : replaceAllTmpl rxColon [.lit [':']] b = b := by
      simp [replaceAllTmpl, findAll_absent h8]
    rw [this, deleteStr_absent h9]
  have e4 : removeWeekdays b = b := by
    unfold removeWeekdays
    apply replaceEach_absent
    rw [List.all_eq_true] at h10 ⊢
    intro x hx
    obtain ⟨p, hp, rfl⟩ := List.mem_map.mp hx
    exact h10 p hp
  rw [e1, e2, e3, e4]

theorem months_plain_pat : ((jalaliMonths.flatMap fun x => x.2.1.map fun p => (p, [' '] ++ x.1 ++ [' '])).all fun x => digitFree x.1 && digitFree x.2) = true := by
  decide +kernel

theorem months_sub {ds : List Char} (hds : ∀ c ∈ ds, c.isDigit = true) (a : List Char) : replaceMonths (a.map (sub ds)) = (replaceMonths a).map (sub ds) := by
  refine of_subRel ?_
  unfold replaceMonths
  refine replaceEach_rel (SubRel.digits ds) (fun x hx => ?_) (subRel_sub hds a)
  have := List.all_eq_true.mp months_plain_pat x hx
  rw [Bool.and_eq_true] at this
  exact ⟨this.1, subRel_plain this.2⟩

theorem sanitize_sub {U : Uni} (hU : AsciiUni U) {ds b c : List Char} (hds : ∀ c ∈ ds, c.isDigit = true) (hb : isAscii b = true) (h : sanitizeDate asciiUni b = c) :
    sanitizeDate U (b.map (sub ds)) = c.map (sub ds) := by
  rw [← h]
  exact of_tag_sub (sanitizeDate_rel hU (tag_sub hds hb))

/-- No braces, no time zone. -/
def calPlain (c : List Char) : Bool := noBraces c && !mayHaveZone (c.map foldC)

theorem fold_sub {ds : List Char} (hds : ∀ c ∈ ds, c.isDigit = true) (c : List Char) :
    Rel2 (fun x y => (x = y ∧ x.isDigit = false) ∨ (x.isDigit = true ∧ y.isDigit = true)) (c.map foldC) ((c.map (sub ds)).map foldC) := by
  induction c with
  | nil => exact .nil
  | cons x c ih =>
    refine .cons ?_ ih
    cases e : x.isDigit with
    | true => right; rw [foldC_isDigit e, foldC_isDigit (sub_digit hds e)]; exact ⟨e, sub_digit hds e⟩
    | false =>
      rw [sub_other e]
      cases e' : (foldC x).isDigit with
      | true => exact Or.inr ⟨rfl, rfl⟩
      | false => exact Or.inl ⟨rfl, rfl⟩

theorem plain_sub {ds c : List Char} (hds : ∀ c ∈ ds, c.isDigit = true) (h : calPlain c = true) : calPlain (c.map (sub ds)) = true := by
  unfold calPlain at h ⊢
  simp only [Bool.and_eq_true, Bool.not_eq_true'] at h ⊢
  refine ⟨?_, ?_⟩
  · unfold noBraces at h ⊢
    rw [List.all_eq_true] at h ⊢
    intro x hx
    obtain ⟨y, hy, rfl⟩ := List.mem_map.mp hx
    cases e : y.isDigit with
    | false => rw [sub_other e]; exact h.1 y hy
    | true =>
      have := sub_digit hds e
      rw [Bool.not_eq_true', ← Bool.not_eq_true, List.contains_iff_mem]
      intro hm
      generalize sub ds y = z at this hm
      simp only [List.mem_cons, List.not_mem_nil, or_false] at hm
      rcases hm with rfl | rfl | rfl | rfl | rfl | rfl | rfl | rfl <;> revert this <;> decide
  · rw [← mayHaveZone_rel (R := fun x y => (x = y ∧ x.isDigit = false) ∨ (x.isDigit = true ∧ y.isDigit = true)) (fun x y h => h) (fold_sub hds c)]
    exact h.2

/-- The template is turned into another. -/
def jalaliPass (a c : List Char) : Bool := calQuiet (replaceMonths a) && sanitizeDate asciiUni (replaceMonths a) == c && calPlain c

theorem jalali_text {U : Uni} (hU : PersianUni U) {ds a c : List Char} (hds : ∀ c ∈ ds, c.isDigit = true) (hp : jalaliPass a c = true)
    {s : List Char} (hs : normalizeDigits U.isDigit (U.normalizeString s) = a.map (sub ds)) {tb : List TzEntry} (ht : IsTable tb) :
    jalaliText U s = c.map (sub ds) ∧ popTzOffset tb (c.map (sub ds)) = (c.map (sub ds), none) := by
  unfold jalaliPass at hp
  simp only [Bool.and_eq_true, beq_iff_eq] at hp
  obtain ⟨⟨h1, h2⟩, h3⟩ := hp
  have hasc : isAscii (replaceMonths a) = true := by
    unfold calQuiet at h1
    simp only [Bool.and_eq_true] at h1
    exact h1.1.1.1.1.1.1.1.1.1
  have h4 := plain_sub hds h3
  unfold calPlain at h4
  rw [Bool.and_eq_true, Bool.not_eq_true'] at h4
  refine ⟨?_, pop_none_fold ht h4.2⟩
  unfold jalaliText
  rw [hs]
  dsimp only
  rw [months_sub hds, quiet_stages (quiet_sub hds h1), sanitize_sub hU.toAsciiUni hds hasc h2, strip_noBraces h4.1]

/-- … for the Hijri calendar. -/
def hijriPass (a c : List Char) : Bool :=
  isAscii a && !containsStr "صباحا".toList a && !containsStr "مساء".toList a && sanitizeDate asciiUni a == c && calPlain c

theorem hijri_text {U : Uni} (hU : PersianUni U) {ds a c : List Char} (hds : ∀ c ∈ ds, c.isDigit = true) (hp : hijriPass a c = true)
    {s : List Char} (hs : normalizeDigits U.isDigit (U.normalizeString s) = a.map (sub ds)) {tb : List TzEntry} (ht : IsTable tb) (amFirst : Bool) :
    hijriText U amFirst s = c.map (sub ds) ∧ popTzOffset tb (c.map (sub ds)) = (c.map (sub ds), none) := by
  unfold hijriPass at hp
  simp only [Bool.and_eq_true, beq_iff_eq, Bool.not_eq_true'] at hp
  obtain ⟨⟨⟨⟨h1, ha⟩, hb⟩, h2⟩, h3⟩ := hp
  have h4 := plain_sub hds h3
  unfold calPlain at h4
  rw [Bool.and_eq_true, Bool.not_eq_true'] at h4
  refine ⟨?_, pop_none_fold ht h4.2⟩
  have hrel := tag_sub hds h1
  have hc : ∀ w, digitFree w = true → containsStr w (a.map (sub ds)) = containsStr w a := fun w hw => (containsStr_rel (TagRel.digits _) hw hrel).symm
  unfold hijriText
  have : replaceMeridians amFirst (a.map (sub ds)) = a.map (sub ds) := by
    unfold replaceMeridians
    apply replaceEach_absent
    have e1 := hc _ (show digitFree "صباحا".toList = true by decide +kernel)
    have e2 := hc _ (show digitFree "مساء".toList = true by decide +kernel)
    rw [ha] at e1
    rw [hb] at e2
    cases amFirst <;> simp only [Bool.false_eq_true, if_false, if_true, List.all_cons, List.all_nil, e1, e2] <;> rfl
  rw [hs, this, sanitize_sub hU.toAsciiUni hds h1 h2, strip_noBraces h4.1]

end Verif.Lemmas
