import Verif.Spec.Calendars
/-! # Specification vocabulary: the words of a Jalali date -/
set_option autoImplicit false
namespace Verif.Spec
open Verif.Go Verif.Model

/-- The days of the week, in Persian. -/
def persianWeekdays : List (List Char) :=
  ["شنبه".toList, "یکشنبه".toList, "دوشنبه".toList, "سه شنبه".toList, "سهشنبه".toList, "چهارشنبه".toList, "چهار شنبه".toList, "پنجشنبه".toList,
   "پنج شنبه".toList, "جمعه".toList, "روز شنبه".toList]

/-- The numbers from 1 to 31, in Persian. -/
def persianNumbers : List (List Char × List Char) :=
  [("یک".toList, "1".toList), ("دو".toList, "2".toList), ("سه".toList, "3".toList), ("چهار".toList, "4".toList), ("پنج".toList, "5".toList),
   ("شش".toList, "6".toList), ("هفت".toList, "7".toList), ("هشت".toList, "8".toList), ("نه".toList, "9".toList), ("ده".toList, "10".toList),
   ("یازده".toList, "11".toList), ("دوازده".toList, "12".toList), ("سیزده".toList, "13".toList), ("چهارده".toList, "14".toList),
   ("پانزده".toList, "15".toList), ("شانزده".toList, "16".toList), ("هفده".toList, "17".toList), ("هجده".toList, "18".toList),
   ("نوزده".toList, "19".toList), ("بیست".toList, "20".toList), ("بیست و یک".toList, "21".toList), ("بیست و دو".toList, "22".toList),
   ("بیست و سه".toList, "23".toList), ("بیست و چهار".toList, "24".toList), ("بیست و پنج".toList, "25".toList), ("بیست و شش".toList, "26".toList),
   ("بیست و هفت".toList, "27".toList), ("بیست و هشت".toList, "28".toList), ("بیست و نه".toList, "29".toList), ("سی".toList, "30".toList),
   ("سی و یک".toList, "31".toList)]

/-- First to thirty-first, in Persian. -/
def persianOrdinals : List (List Char × List Char) :=
  [("اول".toList, "1".toList), ("یکم".toList, "1".toList), ("دوم".toList, "2".toList), ("سوم".toList, "3".toList), ("چهارم".toList, "4".toList),
   ("پنجم".toList, "5".toList), ("ششم".toList, "6".toList), ("هفتم".toList, "7".toList), ("هشتم".toList, "8".toList), ("نهم".toList, "9".toList),
   ("دهم".toList, "10".toList), ("یازدهم".toList, "11".toList), ("دوازدهم".toList, "12".toList), ("سیزدهم".toList, "13".toList),
   ("چهاردهم".toList, "14".toList), ("پانزدهم".toList, "15".toList), ("شانزدهم".toList, "16".toList), ("هفدهم".toList, "17".toList),
   ("هجدهم".toList, "18".toList), ("نوزدهم".toList, "19".toList), ("بیستم".toList, "20".toList), ("بیست و یکم".toList, "21".toList),
   ("بیست و دوم".toList, "22".toList), ("بیست و سوم".toList, "23".toList), ("بیست و چهارم".toList, "24".toList), ("بیست و پنجم".toList, "25".toList),
   ("بیست و ششم".toList, "26".toList), ("بیست و هفتم".toList, "27".toList), ("بیست و هشتم".toList, "28".toList), ("بیست و نهم".toList, "29".toList),
   ("سی و یکم".toList, "31".toList)]

/-- A day of the month as it is written, and the same in ASCII digits: a number of one or two digits of any of the three scripts, or
the number, or the ordinal, in words. -/
inductive DayText : List Char → List Char → Prop
  | digits {D : List Char} : IsShort (D.map asciiDigit) → DayText D (D.map asciiDigit)
  | cardinal {D d : List Char} : (D, d) ∈ persianNumbers → DayText D d
  | ordinal {D d : List Char} : (D, d) ∈ persianOrdinals → DayText D d

/-- What may follow the month: nothing, or a space and anything in this alphabet. -/
structure RestText (t : List Char) : Prop where
  letters : PersianText t
  space : t = [] ∨ ∃ r, t = ' ' :: r

/-- "and", "minutes" and "seconds", in Persian. -/
def persianAnd : List Char := "و".toList
def persianMinutes : List Char := "دقیقه".toList
def persianSeconds : List Char := "ثانیه".toList

/-- A time of day after a Jalali date: hours, minutes and perhaps seconds with colons, perhaps after the word for "hour", or in words,
as in "hour 8 and 46 minutes and 55 seconds". -/
inductive TimeText (h m : List Char) : Option (List Char) → List Char → Prop
  | clock {s : Option (List Char)} : TimeText h m s (clockText h m s)
  | hour {s : Option (List Char)} : TimeText h m s (persianHour ++ ' ' :: clockText h m s)
  | minutes : TimeText h m none (persianHour ++ ' ' :: (h ++ ' ' :: (persianAnd ++ ' ' :: (m ++ ' ' :: persianMinutes))))
  | seconds {s : List Char} : TimeText h m (some s)
      (persianHour ++ ' ' :: (h ++ ' ' :: (persianAnd ++ ' ' :: (m ++ ' ' :: (persianMinutes ++ ' ' :: (persianAnd ++ ' ' :: (s ++ ' ' :: persianSeconds)))))))

end Verif.Spec
