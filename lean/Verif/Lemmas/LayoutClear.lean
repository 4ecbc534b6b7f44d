import Verif.Lemmas.Layout
/-! Helper lemmas: layouts whose texts are unambiguous whatever the time. -/
set_option autoImplicit false
namespace Verif.Lemmas
open Verif.Go Verif.Model Verif.Spec

/-- What an element starts with. -/
inductive FirstKind where
  | digit | letter | blank | sign | lit (c : Char) | any
deriving DecidableEq

def firstKind : Chunk → FirstKind
  | .lit c => .lit c
  | .spaces _ => .blank
  | .year2 | .year4 | .month1 | .month01 | .day2 | .day02 | .hour15 | .hour3 | .hour03 | .min4 | .min04 | .sec5 | .sec05 | .yday3 => .digit
  | .month3 | .monthLong | .wday3 | .wdayLong | .pm | .pmLower | .tzName => .letter
  | .zone _ _ _ => .sign
  | .frac9 _ _ | .frac0 _ _ | .dayUnder | .ydayUnder => .any

/-- A character of this kind. -/
def FirstKind.Has : FirstKind → Char → Prop
  | .digit, c => c.isDigit = true
  | .letter, c => c.isAlpha = true
  | .blank, c => c = ' '
  | .sign, c => c = 'Z' ∨ c = '+' ∨ c = '-'
  | .lit x, c => c = x
  | .any, _ => True

instance (k : FirstKind) (c : Char) : Decidable (k.Has c) := by
  cases k <;> unfold FirstKind.Has <;> infer_instance

theorem padInt_head {w : Nat} {x : Int} (h : 0 ≤ x) : ∃ c r, padInt w x = c :: r ∧ c.isDigit = true := by
  have hne : ∀ s : List Char, (∀ c ∈ s, c.isDigit = true) → s ≠ [] → ∃ c r, s = c :: r ∧ c.isDigit = true := by
    intro s hs hn
    cases s with
    | nil => exact absurd rfl hn
    | cons a b => exact ⟨a, b, rfl, hs a (by simp)⟩
  unfold padInt
  rw [if_neg (by omega)]
  unfold padNat
  split
  · rename_i hw
    refine hne _ (digitsW_digits _ _) ?_
    intro he
    have := digitsW_length w x.toNat
    rw [he] at this
    simp at this; omega
  · exact hne _ (natDigits_digits _).1 (natDigits_digits _).2.1

theorem month_head (m : Int) (h1 : 1 ≤ m) (h2 : m ≤ 12) :
    (∃ c r, longMonthNames.getD (m - 1).toNat [] = c :: r ∧ c.isAlpha = true) ∧
    (∃ c r, (longMonthNames.getD (m - 1).toNat []).take 3 = c :: r ∧ c.isAlpha = true) := by
  have : m = 1 ∨ m = 2 ∨ m = 3 ∨ m = 4 ∨ m = 5 ∨ m = 6 ∨ m = 7 ∨ m = 8 ∨ m = 9 ∨ m = 10 ∨ m = 11 ∨ m = 12 := by omega
  rcases this with h | h | h | h | h | h | h | h | h | h | h | h <;> subst h <;> exact ⟨⟨_, _, rfl, by decide⟩, ⟨_, _, rfl, by decide⟩⟩

theorem wday_head (k : Int) (h1 : 0 ≤ k) (h2 : k < 7) :
    (∃ c r, longDayNames.getD k.toNat [] = c :: r ∧ c.isAlpha = true) ∧
    (∃ c r, (longDayNames.getD k.toNat []).take 3 = c :: r ∧ c.isAlpha = true) := by
  rcases wday_cases h1 h2 with h | h | h | h | h | h | h <;> subst h <;> exact ⟨⟨_, _, rfl, by decide⟩, ⟨_, _, rfl, by decide⟩⟩

theorem upper_isAlpha {c : Char} (h : 'A' ≤ c ∧ c ≤ 'Z') : c.isAlpha = true := by
  unfold Char.isAlpha Char.isUpper
  have h1 : (c.val ≥ 65) := h.1
  have h2 : (c.val ≤ 90) := h.2
  simp [h1, h2]

theorem weekday_bounds (t : Time) : 0 ≤ t.weekday ∧ t.weekday < 7 := by
  unfold Time.weekday weekdayOfDays; omega

/-- What is written for an element starts with a character of its kind. -/
theorem first_of {t : Time} {cs : List Chunk} (hw : Writable t cs) {c : Chunk} (hm : c ∈ cs) (hok : EltOK c) (hk : firstKind c ≠ .any) :
    ∃ x r, formatChunk t c = x :: r ∧ (firstKind c).Has x := by
  have hclk := t.clockOK hw.wf
  obtain ⟨c1, c2, c3, c4, c5, c6, c7, c8⟩ := hclk
  obtain ⟨m1, m2, d1, d2⟩ := t.year_month_day_valid
  obtain ⟨y1, y2⟩ := hw.year
  have hyd := yearDay_range t
  cases c with
  | lit c => exact ⟨c, [], rfl, rfl⟩
  | spaces n =>
    cases n with
    | zero => exact absurd (show 1 ≤ 0 from hok) (by decide)
    | succ n => exact ⟨' ', List.replicate n ' ', rfl, rfl⟩
  | year2 => exact padInt_head (by split <;> omega)
  | year4 => exact padInt_head (by omega)
  | month3 => exact (month_head _ m1 m2).2
  | monthLong => exact (month_head _ m1 m2).1
  | month1 => exact padInt_head (by omega)
  | month01 => exact padInt_head (by omega)
  | wday3 => exact (wday_head _ (weekday_bounds t).1 (weekday_bounds t).2).2
  | wdayLong => exact (wday_head _ (weekday_bounds t).1 (weekday_bounds t).2).1
  | day2 => exact padInt_head (by omega)
  | day02 => exact padInt_head (by omega)
  | hour15 => exact padInt_head (by omega)
  | hour3 => exact padInt_head (by split <;> omega)
  | hour03 => exact padInt_head (by split <;> omega)
  | min4 => exact padInt_head (by omega)
  | min04 => exact padInt_head (by omega)
  | sec5 => exact padInt_head (by omega)
  | sec05 => exact padInt_head (by omega)
  | yday3 => exact padInt_head (by omega)
  | pm =>
    show ∃ x r, (if 12 ≤ t.hour then ['P', 'M'] else ['A', 'M']) = x :: r ∧ _
    split
    · exact ⟨_, _, rfl, by show Char.isAlpha 'P' = true; decide⟩
    · exact ⟨_, _, rfl, by show Char.isAlpha 'A' = true; decide⟩
  | pmLower =>
    show ∃ x r, (if 12 ≤ t.hour then ['p', 'm'] else ['a', 'm']) = x :: r ∧ _
    split
    · exact ⟨_, _, rfl, by show Char.isAlpha 'p' = true; decide⟩
    · exact ⟨_, _, rfl, by show Char.isAlpha 'a' = true; decide⟩
  | tzName =>
    obtain ⟨h1, h2⟩ := hw.abbr hm
    simp only [formatChunk]
    cases ha : t.loc.abbr t.sec with
    | nil => rw [ha] at h2; simp at h2
    | cons a b =>
      rw [ha] at h1
      exact ⟨a, b, by simp, upper_isAlpha (h1 a (by simp))⟩
  | zone iso colon n =>
    simp only [formatChunk]
    unfold formatZone
    split
    · exact ⟨_, _, rfl, Or.inl rfl⟩
    · simp only
      refine ⟨_, _, rfl, ?_⟩
      split
      · exact Or.inr (Or.inr rfl)
      · exact Or.inr (Or.inl rfl)
  | frac9 _ _ => exact absurd rfl hk
  | frac0 _ _ => exact absurd rfl hk
  | dayUnder => exact absurd rfl hk
  | ydayUnder => exact absurd rfl hk

/-- What may follow. -/
def FirstKind.noDigit : FirstKind → Bool
  | .letter | .blank | .sign => true
  | .lit c => !c.isDigit
  | _ => false
def FirstKind.noPoint : FirstKind → Bool
  | .digit | .letter | .blank | .sign => true
  | .lit c => c != '.' && c != ','
  | _ => false
def FirstKind.noBlank : FirstKind → Bool
  | .digit | .letter | .sign => true
  | .lit c => c != ' '
  | _ => false
def FirstKind.noCapital : FirstKind → Bool
  | .digit | .blank => true
  | .lit c => !('A' ≤ c ∧ c ≤ 'Z') && c != '+' && c != '-'
  | _ => false

/-- The rest of the layout is empty or starts like this. -/
def restIs (p : FirstKind → Bool) : List Chunk → Bool
  | [] => true
  | c :: _ => p (firstKind c)

def clearElt (c : Chunk) (cs : List Chunk) : Bool :=
  match c with
  | .month1 | .day2 | .dayUnder | .hour3 | .min4 | .ydayUnder => restIs FirstKind.noDigit cs
  | .sec5 => restIs FirstKind.noDigit cs && (nextIsFrac (nextStd cs) || restIs FirstKind.noPoint cs)
  | .sec05 => nextIsFrac (nextStd cs) || restIs FirstKind.noPoint cs
  | .frac9 _ _ => restIs FirstKind.noDigit cs && restIs FirstKind.noPoint cs
  | .frac0 _ n => decide (n ≤ 9)
  | .spaces _ => restIs FirstKind.noBlank cs || (match cs.head? with | some .dayUnder => true | some .ydayUnder => true | _ => false)
  | .tzName => restIs FirstKind.noCapital cs
  | _ => true

/-- A layout that writes unambiguous texts, as can be seen from its elements. -/
def clearLayout : List Chunk → Bool
  | [] => true
  | c :: cs => clearElt c cs && clearLayout cs

theorem rest_first {t : Time} {cs : List Chunk} (hw : Writable t cs) (hok : ∀ c ∈ cs, EltOK c) {p : FirstKind → Bool} (hp : p .any = false)
    (h : restIs p cs = true) : formatWith cs t = [] ∨ ∃ x r k, formatWith cs t = x :: r ∧ p k = true ∧ k.Has x := by
  cases cs with
  | nil => exact Or.inl rfl
  | cons c cs =>
    right
    have hk : firstKind c ≠ .any := by
      intro he
      have : p (firstKind c) = true := h
      rw [he, hp] at this; cases this
    obtain ⟨x, r, e, hx⟩ := first_of hw (by simp) (hok c (by simp)) hk
    exact ⟨x, r ++ formatWith cs t, firstKind c, by simp [formatWith, e], h, hx⟩

theorem alphaChar_range {c : Char} (h : c.isAlpha = true) : (65 ≤ c.toNat ∧ c.toNat ≤ 90) ∨ (97 ≤ c.toNat ∧ c.toNat ≤ 122) := by
  unfold Char.isAlpha Char.isUpper Char.isLower at h
  simp only [Bool.or_eq_true, Bool.and_eq_true, decide_eq_true_eq] at h
  rcases h with h | h
  · left; exact ⟨h.1, h.2⟩
  · right; exact ⟨h.1, h.2⟩

theorem digitChar_range {c : Char} : c.isDigit = true ↔ 48 ≤ c.toNat ∧ c.toNat ≤ 57 := by
  unfold Char.isDigit
  simp only [Bool.and_eq_true, decide_eq_true_eq]
  exact Iff.rfl

theorem noDigit_next {t : Time} {cs : List Chunk} (hw : Writable t cs) (hok : ∀ c ∈ cs, EltOK c) (h : restIs FirstKind.noDigit cs = true) :
    NoDigitNext (formatWith cs t) := by
  intro c hc
  rcases rest_first hw hok rfl h with he | ⟨x, r, k, he, hp, hk⟩
  · rw [he] at hc; simp at hc
  · rw [he] at hc
    have hxc : x = c := by simpa using hc
    subst hxc
    cases k with
    | digit => simp [FirstKind.noDigit] at hp
    | letter =>
      have := alphaChar_range hk
      cases hd : x.isDigit with
      | false => rfl
      | true => rw [digitChar_range] at hd; omega
    | blank => rw [show x = ' ' from hk]; decide
    | sign => rcases hk with h | h | h <;> rw [h] <;> decide
    | lit y => rw [show x = y from hk]; simpa [FirstKind.noDigit] using hp
    | any => simp [FirstKind.noDigit] at hp

theorem noPoint_next {t : Time} {cs : List Chunk} (hw : Writable t cs) (hok : ∀ c ∈ cs, EltOK c) (h : restIs FirstKind.noPoint cs = true) :
    NoFractionNext (formatWith cs t) := by
  intro p d y hy hpp
  exfalso
  rcases rest_first hw hok rfl h with he | ⟨x, r, k, he, hp, hk⟩
  · rw [he] at hy; simp at hy
  · rw [he] at hy
    have hxc : x = p := by injection hy
    subst hxc
    cases k with
    | digit => rcases hpp with h | h <;> subst h <;> exact absurd hk (by decide)
    | letter => rcases hpp with h | h <;> subst h <;> exact absurd hk (by decide)
    | blank => rcases hpp with h | h <;> subst h <;> exact absurd hk (by decide)
    | sign => rcases hpp with h | h <;> subst h <;> exact absurd hk (by decide)
    | lit z =>
      rw [show x = z from hk] at hpp
      rcases hpp with h | h <;> subst h <;> simp [FirstKind.noPoint] at hp
    | any => simp [FirstKind.noPoint] at hp

theorem noBlank_next {t : Time} {cs : List Chunk} (hw : Writable t cs) (hok : ∀ c ∈ cs, EltOK c) (h : restIs FirstKind.noBlank cs = true) :
    (formatWith cs t).head? ≠ some ' ' := by
  intro hy
  rcases rest_first hw hok rfl h with he | ⟨x, r, k, he, hp, hk⟩
  · rw [he] at hy; simp at hy
  · rw [he] at hy
    have hxc : x = ' ' := by simpa using hy
    subst hxc
    cases k with
    | digit => exact absurd hk (by decide)
    | letter => exact absurd hk (by decide)
    | blank => simp [FirstKind.noBlank] at hp
    | sign => exact absurd hk (by decide)
    | lit z =>
      have hz : ' ' = z := hk
      subst hz
      simp [FirstKind.noBlank] at hp
    | any => simp [FirstKind.noBlank] at hp

theorem noCapital_next {t : Time} {cs : List Chunk} (hw : Writable t cs) (hok : ∀ c ∈ cs, EltOK c) (h : restIs FirstKind.noCapital cs = true) :
    ∀ c, (formatWith cs t).head? = some c → ¬ ('A' ≤ c ∧ c ≤ 'Z') ∧ c ≠ '+' ∧ c ≠ '-' := by
  intro c hc
  rcases rest_first hw hok rfl h with he | ⟨x, r, k, he, hp, hk⟩
  · rw [he] at hc; simp at hc
  · rw [he] at hc
    have hxc : x = c := by simpa using hc
    subst hxc
    cases k with
    | digit =>
      have hk := digitChar_range.mp hk
      refine ⟨?_, ?_, ?_⟩
      · intro hh
        have : 65 ≤ x.toNat := hh.1
        omega
      · intro hh; subst hh; exact absurd hk (by decide)
      · intro hh; subst hh; exact absurd hk (by decide)
    | letter => simp [FirstKind.noCapital] at hp
    | blank => rw [show x = ' ' from hk]; decide
    | sign => simp [FirstKind.noCapital] at hp
    | lit z =>
      rw [show x = z from hk]
      simp only [FirstKind.noCapital, Bool.and_eq_true, Bool.not_eq_true', decide_eq_false_iff_not, bne_iff_ne] at hp
      exact ⟨hp.1.1, hp.1.2, hp.2⟩
    | any => simp [FirstKind.noCapital] at hp

theorem clear_ok {t : Time} : ∀ {cs : List Chunk}, Writable t cs → (∀ c ∈ cs, EltOK c) → clearLayout cs = true → Unambiguous t cs
  | [], _, _, _ => trivial
  | c :: cs, hw, hok, h => by
    unfold clearLayout at h
    rw [Bool.and_eq_true] at h
    have hw' := writable_tail hw
    have hok' : ∀ c ∈ cs, EltOK c := fun x hx => hok x (by simp [hx])
    refine ⟨?_, clear_ok hw' hok' h.2⟩
    have hc := h.1
    have A := fun h => noDigit_next hw' hok' h
    have B := fun h => noPoint_next hw' hok' h
    have C := fun h => noBlank_next hw' hok' h
    have D := fun h => noCapital_next hw' hok' h
    cases c with
    | month1 => exact A hc
    | day2 => exact A hc
    | dayUnder => exact A hc
    | hour3 => exact A hc
    | min4 => exact A hc
    | ydayUnder => exact A hc
    | sec5 =>
      simp only [clearElt, Bool.and_eq_true, Bool.or_eq_true] at hc
      exact ⟨A hc.1, hc.2.imp id B⟩
    | sec05 =>
      simp only [clearElt, Bool.or_eq_true] at hc
      exact hc.imp id B
    | frac9 a b =>
      simp only [clearElt, Bool.and_eq_true] at hc
      exact ⟨A hc.1, B hc.2⟩
    | frac0 a b => simpa [clearElt, EndsClearly] using hc
    | spaces n =>
      simp only [clearElt, Bool.or_eq_true] at hc
      intro hh
      rcases hc with hc | hc
      · exact absurd hh (C hc)
      · split at hc
        · rename_i e; exact Or.inl e
        · rename_i e; exact Or.inr e
        · cases hc
    | tzName => exact D hc
    | _ => trivial

end Verif.Lemmas
