import Verif.Lemmas.Layout
/-! Helper lemmas: what the formatted parser takes a layout to contain. -/
set_option autoImplicit false
namespace Verif.Lemmas
open Verif.Go Verif.Model Verif.Spec

theorem containsStr_one (c : Char) (s : List Char) : containsStr [c] s = s.any (· == c) := by
  induction s with
  | nil => rfl
  | cons a b ih =>
    rw [containsStr, ih, List.any_cons]
    simp [List.isPrefixOf, Bool.beq_comm]

theorem fracDigits_checker (n : Nat) : ∀ c ∈ fracDigits n checker.nsec, c = '0' ∨ c = '8' := by
  intro c hc
  unfold fracDigits at hc
  have h := List.mem_of_mem_take hc
  have : ∀ c ∈ digitsW 9 checker.nsec.toNat, c = '0' ∨ c = '8' := by decide +kernel
  exact this c h

theorem dropZeros_mem {ds : List Char} : ∀ c ∈ dropZeros ds, c ∈ ds := by
  intro c hc
  obtain ⟨k, hk⟩ := dropZeros_spec ds
  rw [hk]; simp [hc]

/-- "1" and "01". -/
def isNumMonthElt : Chunk → Bool | .month1 | .month01 => true | _ => false

/-- What the check of a layout looks for, in what it writes. -/
theorem checker_digit (x : Char) (hx : x = '3' ∨ x = '4') (c : Chunk) (hc : EltOK c) :
    (formatChunk checker c).any (· == x) =
      if x = '4' then (isDayElt c || isYearDayElt c) else isNumMonthElt c := by
  have seps : ∀ sep : Char, sep = '.' ∨ sep = ',' → (sep == x) = false := by
    intro sep hs; rcases hx with h | h <;> rcases hs with h' | h' <;> subst h <;> subst h' <;> decide
  have d08 : ∀ y : Char, y = '0' ∨ y = '8' → (y == x) = false := by
    intro sep hs; rcases hx with h | h <;> rcases hs with h' | h' <;> subst h <;> subst h' <;> decide
  have rhs : (∀ v : Bool, (if x = '4' then v else v) = v) := by intro v; split <;> rfl
  cases c with
  | lit c =>
    have : (c == x) = false := by rcases hx with h | h <;> subst h <;> simp [hc.1, hc.2.1]
    simp [formatChunk, isDayElt, isYearDayElt, isNumMonthElt, this]
  | spaces n =>
    have : (' ' == x) = false := by rcases hx with h | h <;> subst h <;> decide
    simp [formatChunk, isDayElt, isYearDayElt, isNumMonthElt]
    intro _; rcases hx with h | h <;> subst h <;> decide
  | frac9 sep n =>
    simp only [formatChunk, isDayElt, isYearDayElt, isNumMonthElt, Bool.or_self, rhs]
    split
    · rfl
    · rw [List.any_cons, seps sep hc.1, Bool.false_or, List.any_eq_false]
      intro y hy
      rw [d08 y (fracDigits_checker n y (dropZeros_mem y hy))]; decide
  | frac0 sep n =>
    simp only [formatChunk, isDayElt, isYearDayElt, isNumMonthElt, Bool.or_self, rhs]
    rw [List.any_cons, seps sep hc.1, Bool.false_or, List.any_eq_false]
    intro y hy
    rw [d08 y (fracDigits_checker n y hy)]; decide
  | zone iso colon n =>
    rcases hc with h | h | h <;> subst h <;> rcases hx with h | h <;> subst h <;> clear seps d08 rhs <;> cases iso <;> cases colon <;> decide +kernel
  | _ => clear hc; rcases hx with h | h <;> subst h <;> decide +kernel

theorem hasDay_iff (layout : List Char) :
    formatHasDay layout = (layoutChunks layout).any (fun c => isDayElt c || isYearDayElt c) := by
  unfold formatHasDay timeFormat
  rw [containsStr_one]
  unfold formatWith
  rw [List.any_flatMap]
  have hok := layoutChunks_ok layout
  generalize layoutChunks layout = cs at *
  induction cs with
  | nil => rfl
  | cons c cs ih =>
    rw [List.any_cons, List.any_cons, ih (fun x hx => hok x (by simp [hx])), checker_digit '4' (Or.inr rfl) c (hok c (by simp))]
    rfl

theorem containsStr_append_left (sub a b : List Char) (h : containsStr sub a = true) : containsStr sub (a ++ b) = true := by
  induction a with
  | nil =>
    have : sub = [] := by simpa [containsStr] using h
    subst this
    cases b <;> simp [containsStr, List.isPrefixOf]
  | cons x a ih =>
    rw [containsStr, Bool.or_eq_true] at h
    rw [List.cons_append, containsStr, Bool.or_eq_true]
    rcases h with h | h
    · left
      rw [List.isPrefixOf_iff_prefix] at h ⊢
      exact h.trans (by rw [← List.cons_append]; exact List.prefix_append _ _)
    · right; exact ih h

theorem containsStr_append_right (sub a b : List Char) (h : containsStr sub b = true) : containsStr sub (a ++ b) = true := by
  induction a with
  | nil => exact h
  | cons x a ih => rw [List.cons_append, containsStr, ih, Bool.or_true]

theorem hasMonth_of (layout : List Char) (h : (layoutChunks layout).any isMonthElt = true) : formatHasMonth layout = true := by
  unfold formatHasMonth timeFormat
  have hok := layoutChunks_ok layout
  generalize layoutChunks layout = cs at *
  induction cs with
  | nil => simp at h
  | cons c cs ih =>
    rw [List.any_cons, Bool.or_eq_true] at h
    have e : formatWith (c :: cs) checker = formatChunk checker c ++ formatWith cs checker := by simp [formatWith]
    rw [e, Bool.or_eq_true]
    rcases h with h | h
    · cases c <;> simp [isMonthElt] at h
      · right; exact containsStr_append_left _ _ _ (by decide +kernel)
      · right; exact containsStr_append_left _ _ _ (by decide +kernel)
      · left; exact containsStr_append_left _ _ _ (by decide +kernel)
      · left; exact containsStr_append_left _ _ _ (by decide +kernel)
    · have := ih h (fun x hx => hok x (by simp [hx]))
      rw [Bool.or_eq_true] at this
      rcases this with h | h
      · left; exact containsStr_append_right _ _ _ h
      · right; exact containsStr_append_right _ _ _ h

/-- Every "a" is followed by a character, other than "r". -/
def noAr : List Char → Bool
  | [] => true
  | [c] => c != 'a'
  | c :: d :: r => (c != 'a' || d != 'r') && noAr (d :: r)

theorem noAr_append : ∀ (a b : List Char), noAr a = true → noAr b = true → noAr (a ++ b) = true
  | [], b, _, h => h
  | [c], [], h, _ => h
  | [c], d :: r, h, hb => by
    have hc : (c != 'a') = true := h
    show ((c != 'a' || d != 'r') && noAr (d :: r)) = true
    rw [hc, hb]; rfl
  | c :: d :: r, b, h, hb => by
    rw [noAr, Bool.and_eq_true] at h
    have ih := noAr_append (d :: r) b h.2 hb
    show ((c != 'a' || d != 'r') && noAr (d :: r ++ b)) = true
    rw [h.1, ih]; rfl

theorem noAr_mar : ∀ s : List Char, noAr s = true → containsStr ['M', 'a', 'r'] s = false
  | [], _ => rfl
  | [c], _ => by simp [containsStr, List.isPrefixOf]
  | [c, d], _ => by simp [containsStr, List.isPrefixOf]
  | c :: d :: e :: r, h => by
    rw [noAr, Bool.and_eq_true] at h
    have ih := noAr_mar (d :: e :: r) h.2
    have h2 := h.2
    rw [noAr, Bool.and_eq_true] at h2
    rw [containsStr, ih, Bool.or_false]
    simp only [List.isPrefixOf, Bool.and_true]
    have := h2.1
    by_cases hd : d = 'a'
    · subst hd
      have : (e != 'r') = true := by simpa using this
      have : ('r' == e) = false := by simpa [Bool.beq_comm] using this
      simp [this]
    · have : ('a' == d) = false := beq_false_of_ne (Ne.symm hd)
      simp [this]

theorem noAr_of_noA : ∀ s : List Char, (∀ c ∈ s, c ≠ 'a') → noAr s = true
  | [], _ => rfl
  | [c], h => by simpa [noAr] using h c (by simp)
  | c :: d :: r, h => by
    rw [noAr, noAr_of_noA (d :: r) (fun x hx => h x (by simp [hx]))]
    have := h c (by simp)
    simp [this]

/-- A layout without a month, and without a literal "a". -/
theorem hasMonth_not (layout : List Char) (h : (layoutChunks layout).any isMonthElt = false)
    (ha : Chunk.lit 'a' ∉ layoutChunks layout) : formatHasMonth layout = false := by
  unfold formatHasMonth timeFormat
  have hok := layoutChunks_ok layout
  generalize layoutChunks layout = cs at *
  rw [Bool.or_eq_false_iff]
  constructor
  · rw [containsStr_one]
    unfold formatWith
    rw [List.any_flatMap]
    rw [List.any_eq_false] at h ⊢
    intro c hc
    have h1 := h c hc
    rw [checker_digit '3' (Or.inl rfl) c (hok c hc), if_neg (by decide)]
    cases c <;> first | (simp [isNumMonthElt]; done) | (simp [isMonthElt] at h1; done)
  · apply noAr_mar
    induction cs with
    | nil => rfl
    | cons c cs ih =>
      have e : formatWith (c :: cs) checker = formatChunk checker c ++ formatWith cs checker := by simp [formatWith]
      rw [e]
      rw [List.any_cons, Bool.or_eq_false_iff] at h
      refine noAr_append _ _ ?_ (ih h.2 (fun hm => ha (by simp [hm])) (fun x hx => hok x (by simp [hx])))
      have hc := hok c (by simp)
      have hcm := h.1
      have hca : c ≠ .lit 'a' := fun hh => ha (by simp [hh])
      have sepA : ∀ sep : Char, sep = '.' ∨ sep = ',' → sep ≠ 'a' := by
        intro sep hs; rcases hs with h | h <;> subst h <;> decide
      have dA : ∀ y : Char, y = '0' ∨ y = '8' → y ≠ 'a' := by
        intro sep hs; rcases hs with h | h <;> subst h <;> decide
      cases c with
      | lit x =>
        have : x ≠ 'a' := fun hh => hca (by rw [hh])
        simpa [formatChunk, noAr] using this
      | spaces n =>
        apply noAr_of_noA
        intro y hy
        have := List.eq_of_mem_replicate hy
        subst this; decide
      | frac9 sep n =>
        apply noAr_of_noA
        intro y hy
        simp only [formatChunk] at hy
        split at hy
        · simp at hy
        · rcases List.mem_cons.mp hy with h | h
          · subst h; exact sepA _ hc.1
          · exact dA y (fracDigits_checker n y (dropZeros_mem y h))
      | frac0 sep n =>
        apply noAr_of_noA
        intro y hy
        simp only [formatChunk] at hy
        rcases List.mem_cons.mp hy with h | h
        · subst h; exact sepA _ hc.1
        · exact dA y (fracDigits_checker n y h)
      | zone iso colon n =>
        rcases hc with h | h | h <;> subst h <;> cases iso <;> cases colon <;> decide +kernel
      | month3 => simp [isMonthElt] at hcm
      | monthLong => simp [isMonthElt] at hcm
      | _ => decide +kernel

end Verif.Lemmas
