import Verif.Lemmas.Tags2
import Verif.Lemmas.IsoText
/-! Helper lemmas: what the data of the supported locales say about ISO dates and times. -/
set_option autoImplicit false
set_option maxRecDepth 100000
namespace Verif.Lemmas
open Verif.Go Verif.Model Verif.Data Verif.Spec

/-- Digits, space, "+", "-", ".", "/", ":", "t", "z" and the characters of the separator "|#=#=#|" of `Split`. -/
def isoAlphabet : Alphabet := [(32, 32), (43, 43), (45, 58), (35, 35), (61, 61), (124, 124), (116, 116), (122, 122)]

/-- `t`: the translations of "t", if it is a word. -/
def isoData (n : Name) (spaced words : Bool) (rx : Option Nat) (t : List (List Char)) : LangData where
  name := n
  noWordSpacing := !spaced
  translations := [([' '], [[' ']]), (['+'], [['+']]), (['-'], [['-']]), (['.'], [['.']]), (['/'], [['/']]), ([':'], [[':']])] ++
    (if t.isEmpty then [] else [(['t'], t)]) ++ [(['z'], [['z']]), (['|'], [[]])]
  rxCombined := rx.map fun k => (failPat, k)
  rxExact := rx.map fun _ => failPat
  knownWords := if words then [[' '], ['+'], ['-'], ['.'], ['/'], [':']] ++ (if t.isEmpty then [] else [['t']]) ++ [['z'], ['|']] else []

/-- "t" is the abbreviation of the hour in Swedish, Danish, Norwegian, Faroese, Finnish and Estonian, in the latter also that of Tuesday. -/
def isoClasses : List LangData :=
  [isoData [] true true (some 3) [], isoData [] true false (some 3) [], isoData [] true true none [], isoData [] true false none [],
    isoData [] true true (some 3) ["hour".toList], isoData [] true false (some 3) ["hour".toList],
    isoData [] true true (some 3) ["hour".toList, "tuesday".toList], isoData [] false true (some 1) [], isoData [] false false (some 1) []]

def isoFinnish : LangData := isoData ['f', 'i'] true true (some 3) ["hour".toList]

theorem iso_reduces : reducesTo isoAlphabet isoClasses isoFinnish = true := by decide +kernel
theorem iso_closed : (isoFinnish :: isoClasses).all (closed isoAlphabet) = true := by decide +kernel
theorem iso_uniform : (isoFinnish :: isoClasses).all LangData.uniform = true := by decide +kernel
theorem iso_ascii : (isoFinnish :: isoClasses).all LangData.ascii = true := by decide +kernel
theorem iso_sep : over isoAlphabet (splitSeparator ++ "0123456789".toList) = true := by decide +kernel

/-- The same as for English, in every class. -/
def isoPassIn (q : String × String × String × String) : Bool :=
  ['t', ' '].all fun c =>
    isAscii (isoDateA c q.1) && isoClasses.all (fun d => reachesWith [] d [['t']] (isoDateA c q.1) (isoDateA ' ' q.2.2.1)) &&
    isoClasses.all (fun d => reachesWith [] d [['t']] (isoDateB c q.2.1) (isoDateB ' ' q.2.2.2)) &&
    covers (isoDateA c q.1) (isoDateB c q.2.1) && covers (isoDateA ' ' q.2.2.1) (isoDateB ' ' q.2.2.2) && over isoAlphabet (isoDateA c q.1)

theorem iso_in_0 : isoPassIn ("00:00:00", "12:34:56", "00:00:00", "12:34:56") = true := by decide +kernel
theorem iso_in_1 : isoPassIn ("00:00:00z", "12:34:56z", "00:00:00 z", "12:34:56 z") = true := by decide +kernel
theorem iso_in_2 : isoPassIn ("00:00:00.000", "12:34:56.789", "00:00:00.000", "12:34:56.789") = true := by decide +kernel
theorem iso_in_3 : isoPassIn ("00:00:00.000z", "12:34:56.789z", "00:00:00.000 z", "12:34:56.789 z") = true := by decide +kernel
theorem iso_in_4 : isoPassIn ("00:00:00+00:09", "12:34:56+78:90", "00:00:00+00:09", "12:34:56+78:90") = true := by decide +kernel
theorem iso_in_5 : isoPassIn ("00:00:00-00:09", "12:34:56-78:90", "00:00:00-00:09", "12:34:56-78:90") = true := by decide +kernel
theorem iso_in_6 : isoPassIn ("00:00:00+0009", "12:34:56+7890", "00:00:00+0009", "12:34:56+7890") = true := by decide +kernel
theorem iso_in_7 : isoPassIn ("00:00:00-0009", "12:34:56-7890", "00:00:00-0009", "12:34:56-7890") = true := by decide +kernel

theorem iso_in {q : String × String × String × String} (h : q ∈ isoEndings) : isoPassIn q = true := by
  simp only [isoEndings, List.mem_cons, List.not_mem_nil, or_false] at h
  rcases h with rfl | rfl | rfl | rfl | rfl | rfl | rfl | rfl
  · exact iso_in_0
  · exact iso_in_1
  · exact iso_in_2
  · exact iso_in_3
  · exact iso_in_4
  · exact iso_in_5
  · exact iso_in_6
  · exact iso_in_7

theorem over_zip {K : Alphabet} (hK : over K "0123456789".toList = true) {ds es : List Char} (hds : ∀ c ∈ ds, c.isDigit = true) (hes : ∀ c ∈ es, c.isDigit = true) :
    ∀ {a b : List Char}, covers a b = true → over K a = true → over K (List.zipWith (sub2 ds es) a b) = true
  | [], [], _, _ => rfl
  | [], _ :: _, h, _ => by simp [covers] at h
  | _ :: _, [], h, _ => by simp [covers] at h
  | x :: a, y :: b, h, ho => by
    unfold covers at h
    rw [Bool.and_eq_true] at h
    have ho' : inK K x = true ∧ over K a = true := ⟨over_mem ho x (by simp), over_of fun c hc => over_mem ho c (by simp [hc])⟩
    have ih := over_zip hK hds hes h.2 ho'.2
    refine over_of fun c hc => ?_
    rw [List.zipWith_cons_cons] at hc
    rcases List.mem_cons.mp hc with rfl | hc
    · cases e : x.isDigit with
      | true =>
        have h1 := h.1
        rw [e] at h1
        simp only [if_true, Bool.and_eq_true] at h1
        refine over_mem hK _ (digit_mem ?_)
        unfold sub2
        split
        · exact sub_digit hds e
        · exact sub_digit hes h1.1
      | false =>
        have h1 := h.1
        rw [e] at h1
        have h1 : x = y := by simpa using h1
        unfold sub2
        rw [if_neg (by simp [e]), ← h1, sub_other e]
        exact ho'.1
    · exact over_mem ih c hc

end Verif.Lemmas
