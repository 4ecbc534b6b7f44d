import Verif.Spec.Calendars
import Verif.Spec.Demo
/-! # Calendar libraries and Unicode tables for the examples

`demoJalali` follows the published algorithm of the jalaali libraries; `demoHijri` is the tabular calendar, not Umm al-Qura.
The theorems hold for every library; these two only show that their hypotheses can be met. -/
set_option autoImplicit false
namespace Verif.Spec
open Verif.Go Verif.Model Verif.Lemmas

/-- Years in which the cycle of leap years changes. -/
def jalaliBreaks : List Int := [-61, 9, 38, 199, 426, 686, 756, 818, 1111, 1181, 1210, 1635, 2060, 2097, 2192, 2262, 2324, 2394, 2456, 3178]

/-- Sum up the leap years; (years since the last break, length of the interval, leap years before). -/
def jalaliCycle (jy : Int) : Int → Int → List Int → Int × Int × Int
  | jp, leapJ, [] => (jy - jp, 0, leapJ)
  | jp, leapJ, jm :: rest =>
    let jump := jm - jp
    if jy < jm then (jy - jp, jump, leapJ)
    else jalaliCycle jy jm (leapJ + jump / 33 * 8 + jump % 33 / 4) rest

/-- (years since the last leap year, Gregorian year, day in March of the first day). -/
def jalCal (jy : Int) : Int × Int × Int :=
  let gy := jy + 621
  let c := jalaliCycle jy (-61) (-14) (jalaliBreaks.drop 1)
  let n := c.1
  let jump := c.2.1
  let leapJ := c.2.2 + n / 33 * 8 + (n % 33 + 3) / 4
  let leapJ := if jump % 33 = 4 ∧ jump - n = 4 then leapJ + 1 else leapJ
  let leapG := gy / 4 - (gy / 100 + 1) * 3 / 4 - 150
  let n := if jump - n < 6 then n - jump + (jump + 4) / 33 * 33 else n
  let leap := ((n + 1) % 33 - 1) % 4
  ((if leap = -1 then 4 else leap), gy, 20 + leapJ - leapG)

/-- A Jalali calendar. -/
def demoJalali : JalaliLib where
  fromTime _ := (1403, 1, 1)
  isLeap y := if -61 ≤ y ∧ y < 3178 then some ((jalCal y).1 == 0) else none
  monthLength y m :=
    if -61 ≤ y ∧ y < 3178 ∧ 1 ≤ m ∧ m ≤ 12 then some (if m ≤ 6 then 31 else if m ≤ 11 then 30 else if (jalCal y).1 == 0 then 30 else 29) else none
  toGregorian y m d :=
    if -61 ≤ y ∧ y < 3178 ∧ 1 ≤ m ∧ m ≤ 12 then
      let r := jalCal y
      let t := goDate r.2.1 3 (r.2.2 + (m - 1) * 31 - m / 7 * (m - 7) + d - 1) 0 0 0 0 Loc.utc
      some (t.year, t.month, t.day)
    else none

/-- The tabular Hijri calendar. -/
def demoHijri : HijriLib where
  fromDate _ _ _ := (1436, 12, 29)
  fromTime _ := (1445, 9, 5)
  toGregorian y m d :=
    let t := goDate 622 7 (19 + (y - 1) * 354 + (3 + 11 * y) / 30 + (29 * (m - 1) + m / 2) + d - 1) 0 0 0 0 Loc.utc
    (t.year, t.month, t.day)

/-- Tables for ASCII and Persian texts. -/
def persianUni : Uni where
  nfkc s := s.map plainLetter
  lower := toLower
  isDigit c := (asciiDigit c).isDigit
  isNumber := asciiUni.isNumber
  isLetter := asciiUni.isLetter
  isMark := asciiUni.isMark

theorem persianUni_ok : PersianUni persianUni where
  nfkc s h := by
    show s.map plainLetter = s
    have : ∀ c ∈ s, plainLetter c = c := by
      intro c hc
      unfold plainLetter
      split
      · rename_i e; subst e; have := h _ hc; revert this; decide
      · rfl
    rw [List.map_congr_left this, List.map_id']
  lower _ _ := rfl
  isDigit c h := by
    show (asciiDigit c).isDigit = _
    unfold asciiDigit
    rw [if_neg (by omega), if_neg (by omega)]
  isNumber := asciiUni_ok.isNumber
  isLetter := asciiUni_ok.isLetter
  isMark := asciiUni_ok.isMark
  nfkcP _ _ := rfl
  lowerP _ _ := rfl
  isDigitP _ _ := rfl

/-- The demo surroundings, with these tables. -/
def persianEnv : Env := { demoEnv with uni := persianUni }

theorem persian_sound : PersianSurroundings persianEnv := ⟨⟨persianUni_ok.toAsciiUni, demo_sound.table, demo_sound.clock⟩, persianUni_ok⟩

end Verif.Spec
