import Verif.Lemmas.NumericClasses
import Verif.Lemmas.Tags2
/-! Helper lemmas: what the data of the supported locales say about numeric dates with a time of day. -/
set_option autoImplicit false
set_option maxRecDepth 100000
namespace Verif.Lemmas
open Verif.Go Verif.Model Verif.Data Verif.Spec

/-- No letters. -/
def noLetters (s : List Char) : Bool := s.all fun c => !c.isAlpha

theorem zones_alpha : (namedZones.all fun z => (z.1.map foldC).head?.any Char.isAlpha) = true := by decide +kernel

theorem nameAt_noLetters {s : List Char} (h : noLetters s = true) : nameAt s = false := by
  unfold nameAt
  rw [List.any_eq_false]
  intro z hz
  have h1 := List.all_eq_true.mp zones_alpha z hz
  cases e : z.1.map foldC with
  | nil => rw [e] at h1; cases h1
  | cons x r =>
    rw [e] at h1
    have h1 : x.isAlpha = true := h1
    cases s with
    | nil => simp
    | cons c s =>
      simp only [noLetters, List.all_cons, Bool.and_eq_true, Bool.not_eq_true'] at h
      have : (x == c) = false := by
        cases e2 : x == c with
        | false => rfl
        | true =>
          have : x = c := by simpa using e2
          rw [this] at h1; rw [h1] at h; simp at h
      simp [List.isPrefixOf, this]

theorem nameIn_noLetters : ∀ {s : List Char}, noLetters s = true → nameIn s = false
  | [], _ => rfl
  | c :: s, h => by
    have h' : noLetters s = true := by
      simp only [noLetters, List.all_cons, Bool.and_eq_true] at h
      exact h.2
    simp [nameIn, nameAt_noLetters h', nameIn_noLetters h']

/-- Times of day of the four shapes. -/
def clockShape : Bool → Bool → List Char
  | false, false => "1:23".toList
  | true, false => "12:34".toList
  | false, true => "1:23:45".toList
  | true, true => "12:34:56".toList

/-- The text that gives the digits of the date. -/
def dateTmpl (x : Nat × Nat × Nat) (sep : Char) (clk : List Char) : List Char := tmpl3 x.1 x.2.1 x.2.2 sep ++ (' ' :: zeros clk)
/-- The text that gives the digits of the time. -/
def timeTmpl (x : Nat × Nat × Nat) (sep : Char) (clk : List Char) : List Char := zeros (tmpl3 x.1 x.2.1 x.2.2 sep) ++ (' ' :: clk)

def plainText (a : List Char) : Bool :=
  isAscii a && (a.all fun c => foldC c == c) && noLetters a && !containsStr "utc".toList a && !containsStr "gmt".toList a && !offsetEnd a && noAmount a

def numericTimesPass (place : Nat) (sep : Char) (two sec : Bool) : Bool :=
  (shapes place).all fun x => plainText (dateTmpl x sep (clockShape two sec)) && noZero (tmpl3 x.1 x.2.1 x.2.2 sep) &&
    (numericFinnish :: numericClasses).all (fun d => reachesWith [] d [['t']] (dateTmpl x sep (clockShape two sec)) (dateTmpl x sep (clockShape two sec))) &&
    (numericFinnish :: numericClasses).all (fun d => reachesWith [] d [['t']] (timeTmpl x sep (clockShape two sec)) (timeTmpl x sep (clockShape two sec)))

end Verif.Lemmas
