import Verif.Lemmas.Everywhere
import Verif.Lemmas.EnNumeric
/-! Helper lemmas: what the data of the supported locales say about numeric dates. -/
set_option autoImplicit false
set_option maxRecDepth 100000
namespace Verif.Lemmas
open Verif.Go Verif.Model Verif.Data Verif.Spec

/-- Digits, space, "-", ".", "/", ":", and the characters of the separator "|#=#=#|" of `Split`. -/
def dateAlphabet : Alphabet := [(32, 32), (45, 58), (35, 35), (61, 61), (124, 124)]

def numericData (n : Name) (spaced words : Bool) (rx : Option Nat) : LangData where
  name := n
  noWordSpacing := !spaced
  translations := [([' '], [[' ']]), (['-'], [['-']]), (['.'], [['.']]), (['/'], [['/']]), ([':'], [[':']]), (['|'], [[]])]
  rxCombined := rx.map fun k => (failPat, k)
  rxExact := rx.map fun _ => failPat
  knownWords := if words then [[' '], ['-'], ['.'], ['/'], [':'], ['|']] else []

def numericClasses : List LangData :=
  [numericData [] true true (some 3), numericData [] true false (some 3), numericData [] true true none, numericData [] true false none,
    numericData [] false true (some 1), numericData [] false false (some 1)]

def numericFinnish : LangData := numericData ['f', 'i'] true true (some 3)

theorem numeric_reduces : reducesTo dateAlphabet numericClasses numericFinnish = true := by decide +kernel
theorem numeric_closed : (numericFinnish :: numericClasses).all (closed dateAlphabet) = true := by decide +kernel
theorem numeric_uniform : (numericFinnish :: numericClasses).all LangData.uniform = true := by decide +kernel
theorem numeric_ascii : (numericFinnish :: numericClasses).all LangData.ascii = true := by decide +kernel
theorem numeric_sep : over dateAlphabet (splitSeparator ++ "0123456789".toList) = true := by decide +kernel
theorem numeric_slash : (numericFinnish :: numericClasses).all (fun d => [0, 1, 2].all fun p => shapesPassIn d p '/') = true := by decide +kernel
theorem numeric_dot : (numericFinnish :: numericClasses).all (fun d => [0, 1, 2].all fun p => shapesPassIn d p '.') = true := by decide +kernel
theorem numeric_dash : (numericFinnish :: numericClasses).all (fun d => shapesPassIn d 0 '-') = true := by decide +kernel

end Verif.Lemmas
