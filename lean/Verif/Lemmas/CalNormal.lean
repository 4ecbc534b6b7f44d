import Verif.Lemmas.CalClean
import Verif.Lemmas.Fields
import Verif.Lemmas.CalWhole
import Verif.Spec.CalendarWords
/-! Helper lemmas: the words of a Jalali date. -/
set_option autoImplicit false
namespace Verif.Lemmas
open Verif.Go Verif.Model Verif.Spec Verif.Props Verif.Data

/-! ## Normalization of any text in this alphabet -/

theorem persian_append {a b : List Char} (ha : PersianText a) (hb : PersianText b) : PersianText (a ++ b) := by
  intro c hc
  rcases List.mem_append.mp hc with h | h
  · exact ha c h
  · exact hb c h

theorem persian_char {c : Char} (h : PersianText [c]) : (c != '\u00a0') = true ∧ PersianText [toLowerC c] := by
  rcases h c (by simp) with h | h | h
  · refine ⟨?_, ?_⟩
    · rw [bne_iff_ne]; rintro rfl; revert h; decide
    · intro x hx
      rw [List.mem_singleton] at hx
      subst hx
      left
      have : ∀ n : Fin 128, (toLowerC (Char.ofNat n.1)).toNat < 128 := by decide +kernel
      have := this ⟨c.toNat, h⟩
      rwa [Char.ofNat_toNat] at this
  · have := List.all_eq_true.mp persian_known c h
    simp only [Bool.and_eq_true, decide_eq_true_eq, Bool.not_eq_true', beq_iff_eq] at this
    obtain ⟨⟨⟨⟨⟨⟨k1, k2⟩, k3⟩, k4⟩, k5⟩, k6⟩, k7⟩ := this
    exact ⟨k6, by rw [k4]; intro x hx; rw [List.mem_singleton] at hx; subst hx; exact Or.inr (Or.inl h)⟩
  · have := any_known h
    exact ⟨this.2.2.2, by rw [this.1]; intro x hx; rw [List.mem_singleton] at hx; subst hx; exact Or.inr (Or.inr h)⟩

/-- Letters and case. -/
def plainPersian (s : List Char) : List Char := toLower (s.map plainLetter)

theorem plain_text {s : List Char} (h : PersianText s) : PersianText (plainPersian s) := by
  intro c hc
  unfold plainPersian toLower at hc
  obtain ⟨x, hx, rfl⟩ := List.mem_map.mp hc
  obtain ⟨y, hy, rfl⟩ := List.mem_map.mp hx
  exact (persian_char (plain_persian fun z hz => by rw [List.mem_singleton] at hz; subst hz; exact h _ hy)).2 _ (by simp)

theorem plain_append (a b : List Char) : plainPersian (a ++ b) = plainPersian a ++ plainPersian b := by simp [plainPersian, toLower]
theorem plain_space (s : List Char) : plainPersian (' ' :: s) = ' ' :: plainPersian s := by
  simp only [plainPersian, toLower, List.map_cons]; congr 1

theorem mem_fields {c : Char} : ∀ {s : List Char} {w : List Char}, w ∈ fields s → c ∈ w → c ∈ s := by
  have : ∀ (s cur w : List Char), w ∈ fieldsAux s cur → c ∈ w → c ∈ s ∨ c ∈ cur := by
    intro s
    induction s with
    | nil =>
      intro cur w hw hc
      unfold fieldsAux at hw
      split at hw
      · simp at hw
      · rw [List.mem_singleton] at hw; subst hw; exact Or.inr (List.mem_reverse.mp hc)
    | cons x s ih =>
      intro cur w hw hc
      unfold fieldsAux at hw
      split at hw
      · split at hw
        · rcases ih [] w hw hc with h | h
          · exact Or.inl (by simp [h])
          · simp at h
        · rcases List.mem_cons.mp hw with rfl | hw
          · exact Or.inr (List.mem_reverse.mp hc)
          · rcases ih [] w hw hc with h | h
            · exact Or.inl (by simp [h])
            · simp at h
      · rcases ih (x :: cur) w hw hc with h | h
        · exact Or.inl (by simp [h])
        · rcases List.mem_cons.mp h with rfl | h
          · exact Or.inl (by simp)
          · exact Or.inr h
  intro s w hw hc
  rcases this s [] w hw hc with h | h
  · exact h
  · simp at h

theorem mem_joinSpace {c : Char} : ∀ {l : List (List Char)}, c ∈ joinWith [' '] l → c = ' ' ∨ ∃ w ∈ l, c ∈ w
  | [], h => by simp [joinWith] at h
  | [x], h => Or.inr ⟨x, by simp, by simpa [joinWith] using h⟩
  | x :: y :: r, h => by
    simp only [joinWith, List.mem_append, List.mem_singleton] at h
    rcases h with (h | h) | h
    · exact Or.inr ⟨x, by simp, h⟩
    · exact Or.inl h
    · rcases mem_joinSpace h with h | ⟨w, hw, h⟩
      · exact Or.inl h
      · exact Or.inr ⟨w, by simp only [List.mem_cons] at hw ⊢; exact Or.inr hw, h⟩

theorem spaces_persian {s : List Char} (h : PersianText s) : sanitizeSpaces s = joinWith [' '] (fields s) ∧ PersianText (sanitizeSpaces s) := by
  have hf : s.filter (fun c => c != '\u00a0') = s := List.filter_eq_self.mpr fun c hc =>
    (persian_char (c := c) fun x hx => by rw [List.mem_singleton] at hx; subst hx; exact h x hc).1
  have e : sanitizeSpaces s = joinWith [' '] (fields s) := by unfold sanitizeSpaces; rw [hf]
  refine ⟨e, ?_⟩
  rw [e]
  intro c hc
  rcases mem_joinSpace hc with rfl | ⟨w, hw, hc⟩
  · left; decide
  · exact h c (mem_fields hw hc)

/-- The text after normalization. -/
theorem normal_any {U : Uni} (hU : PersianUni U) {s : List Char} (h : PersianText s) :
    normalizeDigits U.isDigit (U.normalizeString s) = (joinWith [' '] (fields (plainPersian s))).map asciiDigit := by
  have hp : PersianText (s.map plainLetter) := by
    intro c hc
    obtain ⟨x, hx, rfl⟩ := List.mem_map.mp hc
    exact plain_persian (c := x) (fun y hy => by rw [List.mem_singleton] at hy; subst hy; exact h y hx) _ (by simp)
  have hs := spaces_persian (plain_text h)
  unfold Uni.normalizeString
  rw [hU.nfkcP s h, hU.lowerP _ hp]
  show normalizeDigits U.isDigit (sanitizeSpaces (plainPersian s)) = _
  rw [digits_persian hU hs.2, hs.1]

/-! ## Words one after the other -/

/-- Something to which normalization of spaces does nothing. -/
structure Tidy (w : List Char) : Prop where
  words : joinWith [' '] (fields w) = w
  some : fields w ≠ []

theorem join_append {a b : List (List Char)} (ha : a ≠ []) (hb : b ≠ []) : joinWith [' '] (a ++ b) = joinWith [' '] a ++ ' ' :: joinWith [' '] b := by
  induction a with
  | nil => exact absurd rfl ha
  | cons x a ih =>
    cases a with
    | nil =>
      cases b with
      | nil => exact absurd rfl hb
      | cons y b => simp [joinWith]
    | cons z a =>
      have := ih (by simp)
      simp only [List.cons_append] at this ⊢
      simp only [joinWith, this, List.append_assoc]

theorem join_tidy {w s : List Char} (hw : Tidy w) (hs : fields s ≠ []) : joinWith [' '] (fields (w ++ ' ' :: s)) = w ++ ' ' :: joinWith [' '] (fields s) := by
  have h1 : startsWord (' ' :: s) = false := by rfl
  have h2 : fields (' ' :: s) = fields s := fields_space s (by decide)
  rw [fields_append h1, h2, join_append hw.some hs, hw.words]

theorem fields_ne {w s : List Char} (hw : Tidy w) : fields (w ++ ' ' :: s) ≠ [] := by
  rw [fields_append (show startsWord (' ' :: s) = false from rfl)]
  have := hw.some
  intro e
  exact this (List.append_eq_nil_iff.mp e).1

/-- What follows the month, after normalization: nothing, or a space and something. -/
theorem join_rest {t : List Char} (ht : t = [] ∨ ∃ r, t = ' ' :: r) :
    ∃ z, (∀ w', Tidy w' → joinWith [' '] (fields (w' ++ t)) = w' ++ z) ∧ (z = [] ∨ ∃ r, z = ' ' :: r) := by
  rcases ht with rfl | ⟨r, rfl⟩
  · exact ⟨[], fun w' hw' => by rw [List.append_nil]; simpa using hw'.words, Or.inl rfl⟩
  · cases hr : fields r with
    | nil =>
      refine ⟨[], fun w' hw' => ?_, Or.inl rfl⟩
      rw [fields_append (show startsWord (' ' :: r) = false from rfl), fields_space r (by decide), hr, List.append_nil, List.append_nil, hw'.words]
    | cons x l =>
      refine ⟨' ' :: joinWith [' '] (fields r), fun w' hw' => ?_, Or.inr ⟨_, rfl⟩⟩
      rw [join_tidy hw' (by rw [hr]; simp)]


/-! ## The parts -/

theorem month_parts : (persianMonths.all fun x => let w := plainPersian x.1
    decide (joinWith [' '] (fields w) = w) && !w.isEmpty && decide (w.map asciiDigit = w) && (x.1.all fun c => persianLetters.contains c) &&
    decide (replaceMonths w = ' ' :: latinMonth x.2 ++ [' ']) && ((latinMonth x.2).head?.any fun c => decide (c.toNat < 128) && !c.isDigit && !isRxSpace c)) = true := by
  decide +kernel

/-- `DayPart`, and what normalization needs. -/
def dayOk (x : List Char × List Char) : Bool := let w := plainPersian x.1
    decide (joinWith [' '] (fields w) = w) && !w.isEmpty && decide (w.map asciiDigit = w) && (x.1.all fun c => c == ' ' || persianLetters.contains c) &&
    decide (replaceMonths w = w) && decide (replaceWeekdays w = w) && decide (replaceDays w = x.2) && decide (removeWeekdays x.2 = x.2) &&
    !x.2.isEmpty && x.2.all Char.isDigit

theorem number_parts : persianNumbers.all dayOk = true := by decide +kernel
theorem ordinal_parts : persianOrdinals.all dayOk = true := by decide +kernel

theorem week_parts : (persianWeekdays.all fun x => let w := plainPersian x
    decide (joinWith [' '] (fields w) = w) && !w.isEmpty && decide (w.map asciiDigit = w) && (x.all fun c => c == ' ' || persianLetters.contains c) &&
    decide (replaceMonths w = w) && noReaches weekdayPats w && (jalaliWeekdays.any fun l => decide (replaceWeekdays w = ' ' :: l.1 ++ [' ']) && isAscii l.1 &&
      (removeWeekdays (' ' :: l.1 ++ [' '])).all fun c => c == ' ')) = true := by decide +kernel

end Verif.Lemmas
