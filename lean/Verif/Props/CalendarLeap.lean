import Verif.Props.Calendars
/-! # C35: the 30th day of the last month of a common year -/
set_option autoImplicit false
namespace Verif.Props
open Verif.Go Verif.Model Verif.Data Verif.Lemmas Verif.Spec

theorem leap_loop_back (lib : JalaliLib) (orig : Int) : ∀ (k : Nat) (y : Int) (n : Nat), k < n → (∀ z, y - (k + 1) < z → z < y → lib.isLeap z = some false) →
    lib.isLeap (y - (k + 1)) = some true → jalaliLeapLoop lib orig (-1) n y = some (y - (k + 1))
  | 0, y, n + 1, _, _, h => by
    unfold jalaliLeapLoop
    have h : lib.isLeap (y + -1) = some true := by rw [show y + -1 = y - ((0 : Nat) + 1) by omega]; exact h
    simp only [h]
    congr 1
  | k + 1, y, n + 1, hn, hf, h => by
    unfold jalaliLeapLoop
    rw [hf (y + -1) (by omega) (by omega)]
    dsimp only
    rw [leap_loop_back lib orig k (y + -1) n (by omega) (fun z h1 h2 => hf z (by omega) (by omega)) (by rw [show y + -1 - ((k : Int) + 1) = y - ((k + 1 : Nat) + 1) by omega]; exact h)]
    congr 1
    omega

theorem jalali_next {lib : JalaliLib} {y n : Int} (h : NextLeap lib.isLeap y n) : jalaliLeapYear lib y true = .ok n := by
  obtain ⟨h1, h2, h4, h3⟩ := h
  obtain ⟨k, hk⟩ : ∃ k : Nat, n = y + (k + 1) := ⟨(n - y - 1).toNat, by omega⟩
  unfold jalaliLeapYear
  rw [if_pos rfl, leap_loop lib _ k _ 10000 (by omega) (fun z a b => h3 z (by omega) (by omega)) (by rw [← hk]; exact h4)]
  dsimp only
  rw [hk]

theorem jalali_last {lib : JalaliLib} {y n : Int} (h : LastLeap lib.isLeap y n) : jalaliLeapYear lib y false = .ok n := by
  obtain ⟨h1, h2, h4, h3⟩ := h
  obtain ⟨k, hk⟩ : ∃ k : Nat, n = y - (k + 1) := ⟨(y - n - 1).toNat, by omega⟩
  unfold jalaliLeapYear
  rw [if_neg (by decide), leap_loop_back lib _ k _ 10000 (by omega) (fun z a b => h3 z (by omega) (by omega)) (by rw [← hk]; exact h4)]
  dsimp only
  rw [hk]

/-- Leap years of the Hijri calendar, as a partial function. -/
def hijriLeap (lib : HijriLib) (y : Int) : Option Bool := some (isHijriLeap lib y)

theorem hijri_loop (lib : HijriLib) : ∀ (k : Nat) (y : Int) (n : Nat), k < n → (∀ z, y < z → z < y + (k + 1) → isHijriLeap lib z = false) →
    isHijriLeap lib (y + (k + 1)) = true → hijriLeapLoop lib 1 n y = some (y + (k + 1))
  | 0, y, n + 1, _, _, h => by
    unfold hijriLeapLoop
    have h : isHijriLeap lib (y + 1) = true := by simpa using h
    simp [h]
  | k + 1, y, n + 1, hn, hf, h => by
    unfold hijriLeapLoop
    rw [hf (y + 1) (by omega) (by omega), if_neg (by decide)]
    rw [hijri_loop lib k (y + 1) n (by omega) (fun z h1 h2 => hf z (by omega) (by omega)) (by rw [show y + 1 + ((k : Int) + 1) = y + ((k + 1 : Nat) + 1) by omega]; exact h)]
    congr 1
    omega

theorem hijri_loop_back (lib : HijriLib) : ∀ (k : Nat) (y : Int) (n : Nat), k < n → (∀ z, y - (k + 1) < z → z < y → isHijriLeap lib z = false) →
    isHijriLeap lib (y - (k + 1)) = true → hijriLeapLoop lib (-1) n y = some (y - (k + 1))
  | 0, y, n + 1, _, _, h => by
    unfold hijriLeapLoop
    have h : isHijriLeap lib (y + -1) = true := by rw [show y + -1 = y - ((0 : Nat) + 1) by omega]; exact h
    rw [if_pos h]
    congr 1
  | k + 1, y, n + 1, hn, hf, h => by
    unfold hijriLeapLoop
    rw [hf (y + -1) (by omega) (by omega), if_neg (by decide)]
    rw [hijri_loop_back lib k (y + -1) n (by omega) (fun z h1 h2 => hf z (by omega) (by omega)) (by rw [show y + -1 - ((k : Int) + 1) = y - ((k + 1 : Nat) + 1) by omega]; exact h)]
    congr 1
    omega

theorem hijri_next {lib : HijriLib} {y n : Int} (h : NextLeap (hijriLeap lib) y n) : hijriLeapYear lib y true = .ok n := by
  obtain ⟨h1, h2, h4, h3⟩ := h
  obtain ⟨k, hk⟩ : ∃ k : Nat, n = y + (k + 1) := ⟨(n - y - 1).toNat, by omega⟩
  unfold hijriLeapYear
  rw [if_pos rfl, hijri_loop lib k _ 10000 (by omega) (fun z a b => Option.some.inj (h3 z (by omega) (by omega))) (by rw [← hk]; exact Option.some.inj h4)]
  dsimp only
  rw [hk]

theorem hijri_last {lib : HijriLib} {y n : Int} (h : LastLeap (hijriLeap lib) y n) : hijriLeapYear lib y false = .ok n := by
  obtain ⟨h1, h2, h4, h3⟩ := h
  obtain ⟨k, hk⟩ : ∃ k : Nat, n = y - (k + 1) := ⟨(y - n - 1).toNat, by omega⟩
  unfold hijriLeapYear
  rw [if_neg (by decide), hijri_loop_back lib k _ 10000 (by omega) (fun z a b => Option.some.inj (h3 z (by omega) (by omega))) (by rw [← hk]; exact Option.some.inj h4)]
  dsimp only
  rw [hk]

/-- The year chosen is the one that stands in. -/
theorem correctLeapYear_standsIn {leap : Int → Option Bool} {find : Int → Bool → Except Fault Int} {y y' : Int} {src : DateSource}
    (h1 : ∀ n, NextLeap leap y n → find y true = .ok n) (h2 : ∀ n, LastLeap leap y n → find y false = .ok n) (h : StandsIn leap y src y') :
    correctLeapYear find src y = .ok y' := by
  cases h with
  | future h => exact h1 _ h
  | past h => exact h2 _ h
  | later h h' hlt =>
    unfold correctLeapYear
    simp only [h1 _ h, h2 _ h', bind, pure, Except.bind, Except.pure]
    rw [if_pos hlt]
  | earlier h h' hle =>
    unfold correctLeapYear
    simp only [h1 _ h, h2 _ h', bind, pure, Except.bind, Except.pure]
    rw [if_neg (by omega)]

theorem standsIn_common {leap : Int → Option Bool} {y y' : Int} {src : DateSource} (h : StandsIn leap y src y') : leap y = some false ∧ leap y' = some true := by
  cases h with
  | future h => exact ⟨h.2.2.2 y (Int.le_refl _) h.1, h.2.2.1⟩
  | past h => exact ⟨h.2.2.2 y h.1 (Int.le_refl _), h.2.2.1⟩
  | later h h' _ => exact ⟨h.2.2.2 y (Int.le_refl _) h.1, h.2.2.1⟩
  | earlier h h' _ => exact ⟨h.2.2.2 y (Int.le_refl _) h.1, h'.2.2.1⟩

section
variable {E : Env} (hE : PersianSurroundings E) {c : PCfg} (hc : c.validate = .ok ())
include hE hc

/-- **C35** The 30th of the last month of a common Jalali year is read as that day of the leap year that stands in for it: the next, the last
or the nearer one, as the configuration prefers. -/
theorem C35_jalali_leap_year (lib : JalaliLib) (o w : Order) (ho : toLower (calendarOrder c) = o.letters) (hw : o.Agrees w)
    (d m y : List Char) (hd : d.map asciiDigit = "30".toList) (hm : m.map asciiDigit = "12".toList) (hy : Four (y.map asciiDigit))
    (sep : Char) (hsep : NumericSep w sep) (hy1 : 1 ≤ number (y.map asciiDigit)) (y' : Int)
    (hl : StandsIn lib.isLeap (number (y.map asciiDigit)) (DateSource.ofCode c.dateSource) y') (n : Int)
    (h5 : lib.monthLength y' 12 = some n) (h6 : 30 ≤ n) (g : Int × Int × Int) (h7 : lib.toGregorian y' 12 30 = some g) :
    E.parseJalali lib (some c) (w.write d m y [sep] [sep]) =
      .ok { period := .day, time := goDate g.1 g.2.1 g.2.2 0 0 0 0 (baseTime c E.now).loc } := by
  obtain ⟨cfg, c1, c2, c3, c4, _⟩ := calendar_cfg hc E.now
  have hds : Short (d.map asciiDigit) := by rw [hd]; exact ⟨by unfold IsNumeral; decide, by decide⟩
  have hms : Short (m.map asciiDigit) := by rw [hm]; exact ⟨by unfold IsNumeral; decide, by decide⟩
  obtain ⟨⟨t1, _⟩, t2⟩ := cal_numeric_text hE hc w d m y hds hms hy sep hsep true
  have hv : natOfDigits (d.map asciiDigit) = 30 := by rw [hd]; decide
  have hvm : natOfDigits (m.map asciiDigit) = 12 := by rw [hm]; decide
  unfold Env.parseJalali
  rw [c1]
  dsimp only
  unfold jalaliParse
  rw [t1, (cal_numeric_parse hE hc (jalaliFns E.uni lib) rfl cfg o w (by rw [c2]; exact ho) hw c3 _ _ _ hds hms hy sep hsep (by omega) (by omega) (by omega) hy1 t2).1 (by omega)]
  rw [hv, hvm]
  show Except.map _ (jalaliCreate lib cfg (number (y.map asciiDigit)) 12 30 0 0 0 0 _) = _
  unfold jalaliCreate
  rw [(standsIn_common hl).1]
  dsimp only
  rw [if_pos ⟨rfl, rfl, rfl⟩, c4, correctLeapYear_standsIn (fun n => jalali_next) (fun n => jalali_last) hl]
  simp only [bind, Except.bind, h5]
  rw [if_neg (by omega), h7]
  rfl

/-- **C35** … and the same in the Hijri calendar. -/
theorem C35_hijri_leap_year (lib : HijriLib) (am : Bool) (o w : Order) (ho : toLower (calendarOrder c) = o.letters) (hw : o.Agrees w)
    (d m y : List Char) (hd : d.map asciiDigit = "30".toList) (hm : m.map asciiDigit = "12".toList) (hy : Four (y.map asciiDigit))
    (sep : Char) (hsep : NumericSep w sep) (hy1 : 1 ≤ number (y.map asciiDigit)) (y' : Int)
    (hl : StandsIn (hijriLeap lib) (number (y.map asciiDigit)) (DateSource.ofCode c.dateSource) y') :
    let g := lib.toGregorian y' 12 30
    E.parseHijri lib am (some c) (w.write d m y [sep] [sep]) =
      .ok { period := .day, time := goDate g.1 g.2.1 g.2.2 0 0 0 0 (baseTime c E.now).loc } := by
  have hds : Short (d.map asciiDigit) := by rw [hd]; exact ⟨by unfold IsNumeral; decide, by decide⟩
  have hms : Short (m.map asciiDigit) := by rw [hm]; exact ⟨by unfold IsNumeral; decide, by decide⟩
  have hv : number (d.map asciiDigit) = 30 := by rw [hd]; decide
  have hvm : number (m.map asciiDigit) = 12 := by rw [hm]; decide
  obtain ⟨cfg, hs, h⟩ := hijri_numeric hE hc lib am o w ho hw d m y hds hms hy sep hsep (by omega) (by omega) (by omega) (by omega) hy1
  intro g
  obtain ⟨k1, k2⟩ := standsIn_common hl
  have k1 : isHijriLeap lib (number (y.map asciiDigit)) = false := Option.some.inj k1
  have k2 : isHijriLeap lib y' = true := Option.some.inj k2
  rw [h, hv, hvm]
  unfold hijriCreate
  rw [if_pos ⟨rfl, rfl, by rw [k1]; rfl⟩, hs, correctLeapYear_standsIn (fun n => hijri_next) (fun n => hijri_last) hl]
  simp only [bind, Except.bind, pure, Except.pure]
  have hlast : lastDayOfHijriMonth lib y' 12 = 30 := by unfold lastDayOfHijriMonth; rw [if_pos ⟨rfl, k2⟩]
  rw [hlast, if_neg (by decide)]
  rfl
end

/-! ## Examples -/

theorem demo_near : StandsIn demoJalali.isLeap 1400 .current 1399 := by
  have hn : NextLeap demoJalali.isLeap 1400 1403 := ⟨by decide, by decide, by decide +kernel, fun z h1 h2 => by
    have : z = 1400 ∨ z = 1401 ∨ z = 1402 := by omega
    rcases this with rfl | rfl | rfl <;> decide +kernel⟩
  have hp : LastLeap demoJalali.isLeap 1400 1399 := ⟨by decide, by decide, by decide +kernel, fun z h1 h2 => by
    have : z = 1400 := by omega
    subst this; decide +kernel⟩
  exact .earlier hn hp (by decide)

/-- 30 Esfand 1400 does not exist; the nearest is in 1399. -/
example : persianEnv.parseJalali demoJalali (some {}) "30/12/1400".toList = .ok { period := .day, time := goDate 2021 3 20 0 0 0 0 Loc.utc } :=
  C35_jalali_leap_year (c := {}) persian_sound rfl demoJalali .dmy .dmy (by decide) (Order.agrees_self _) "30".toList "12".toList "1400".toList
    (by decide) (by decide) ⟨by unfold IsNumeral; decide, by decide⟩ '/' (Or.inl rfl) (by decide) 1399 demo_near
    30 (by decide +kernel) (by decide) (2021, 3, 20) (by decide +kernel)

end Verif.Props
