import Verif.Lemmas.Everywhere
import Verif.Lemmas.EnNumeric
/-! Helper lemmas: texts with more than nine digits, in every locale. -/
set_option autoImplicit false
set_option maxRecDepth 100000
namespace Verif.Lemmas
open Verif.Go Verif.Model Verif.Data Verif.Spec

/-- The same text with 0 for every digit. -/
def zeros (a : List Char) : List Char := a.map fun c => if c.isDigit then '0' else c

/-- No digit is 0. -/
def noZero (a : List Char) : Bool := a.all fun c => c != '0'

theorem covers_left : ∀ {a : List Char}, noZero a = true → covers a (zeros a) = true
  | [], _ => rfl
  | c :: a, h => by
    simp only [noZero, List.all_cons, Bool.and_eq_true, bne_iff_ne, ne_eq] at h
    have ih := covers_left (a := a) h.2
    show covers (c :: a) ((if c.isDigit then '0' else c) :: zeros a) = true
    unfold covers
    rw [ih]
    cases e : c.isDigit with
    | true =>
      have : (c == '0') = false := by simpa using h.1
      simp [this]
    | false => simp

theorem covers_right : ∀ {a : List Char}, noZero a = true → covers (zeros a) a = true
  | [], _ => rfl
  | c :: a, h => by
    simp only [noZero, List.all_cons, Bool.and_eq_true, bne_iff_ne, ne_eq] at h
    have ih := covers_right (a := a) h.2
    show covers ((if c.isDigit then '0' else c) :: zeros a) (c :: a) = true
    unfold covers
    rw [ih]
    cases e : c.isDigit with
    | true =>
      have : (c == '0') = false := by simpa using h.1
      simp [e, this]
    | false => simp [e]

theorem covers_append : ∀ {a b c d : List Char}, covers a b = true → covers c d = true → covers (a ++ c) (b ++ d) = true
  | [], [], _, _, _, h => h
  | [], _ :: _, _, _, h, _ => by simp [covers] at h
  | _ :: _, [], _, _, h, _ => by simp [covers] at h
  | x :: a, y :: b, c, d, h, h' => by
    unfold covers at h
    rw [Bool.and_eq_true] at h
    show covers (x :: (a ++ c)) (y :: (b ++ d)) = true
    unfold covers
    rw [Bool.and_eq_true]
    exact ⟨h.1, covers_append h.2 h'⟩

theorem zip_left (ds es : List Char) : ∀ {a : List Char}, noZero a = true → List.zipWith (sub2 ds es) a (zeros a) = a.map (sub ds)
  | [], _ => rfl
  | c :: a, h => by
    simp only [noZero, List.all_cons, Bool.and_eq_true, bne_iff_ne, ne_eq] at h
    show sub2 ds es c (if c.isDigit then '0' else c) :: List.zipWith (sub2 ds es) a (zeros a) = sub ds c :: a.map (sub ds)
    rw [zip_left ds es h.2]
    congr 1
    unfold sub2
    cases e : c.isDigit with
    | true => simp [h.1]
    | false => simp [sub_other e]

theorem zip_right (ds es : List Char) : ∀ {a : List Char}, List.zipWith (sub2 ds es) (zeros a) a = a.map (sub es)
  | [] => rfl
  | c :: a => by
    show sub2 ds es (if c.isDigit then '0' else c) c :: List.zipWith (sub2 ds es) (zeros a) a = sub es c :: a.map (sub es)
    rw [zip_right ds es]
    congr 1
    unfold sub2
    cases e : c.isDigit with
    | true => simp
    | false => simp [e]

/-- What two texts, together giving all digits, do in every class of locales, those with other digits do in every locale. -/
theorem everywhere_date2 {E : Env} (hE : Surroundings E) (hD : HasLocaleData E) {K : Alphabet} {classes : List LangData} {finnish : LangData}
    (hr : reducesTo K classes finnish = true) (hK : over K (splitSeparator ++ "0123456789".toList) = true) (hcl : (finnish :: classes).all (closed K) = true)
    (hu : (finnish :: classes).all LangData.uniform = true) (hda : (finnish :: classes).all LangData.ascii = true)
    {n : Name} {l : LocaleInfo} (hl : getLocaleData n = some l) {ds es : List Char} (hds : ∀ c ∈ ds, c.isDigit = true) (hes : ∀ c ∈ es, c.isDigit = true)
    {a b a' b' : List Char} (ha : isAscii a = true) (hp : (finnish :: classes).all (fun d => reachesWith [] d [['t']] a a') = true)
    (hq : (finnish :: classes).all (fun d => reachesWith [] d [['t']] b b') = true) (hc : covers a b = true) (hc' : covers a' b' = true)
    (hf : (a'.all fun c => foldC c == c) = true) (hz : mayHaveZone a' = false) (hn : noAmount a' = true)
    {s : List Char} (hs : ∀ c ∈ s, c.toNat < 128) (h : toLower s = List.zipWith (sub2 ds es) a b)
    (ho : over K (toLower s) = true) :
    Passed E.uni E.table (E.lang l.name) [['t']] s (List.zipWith (sub2 ds es) a' b') ∧ noAmount (List.zipWith (sub2 ds es) a' b') = true := by
  rw [over_append] at hK
  have hrel := tag_sub2 hds hes ha hc
  rw [← h] at hrel
  have hone : ∀ d ∈ finnish :: classes, Reached E.uni (d.lang E.uni) [['t']] s (List.zipWith (sub2 ds es) a' b') ∧
      Rel2 (TagRel (wild ds)) a' (List.zipWith (sub2 ds es) a' b') := by
    intro d hd
    obtain ⟨t, ht, hpass⟩ := reachesWith_all hE.uni (List.all_eq_true.mp hu d hd) (List.all_eq_true.mp hda d hd) (by decide +kernel) (fun c hc => by cases hc)
      (List.all_eq_true.mp hp d hd) hs hrel.1
    obtain ⟨u, hu', hpass'⟩ := reachesWith_all hE.uni (List.all_eq_true.mp hu d hd) (List.all_eq_true.mp hda d hd) (by decide +kernel) (fun c hc => by cases hc)
      (List.all_eq_true.mp hq d hd) hs hrel.2
    have : t = u := by
      have h1 := hpass.translate
      rw [hpass'.translate] at h1
      simp only [Option.some.injEq, List.cons.injEq, and_true] at h1
      exact h1.symm
    subst this
    rw [← of_tag_sub2 hc' ht hu']
    exact ⟨hpass, ht⟩
  have hfin := (hone finnish (by simp)).2.mono (fun _ _ hxy => hxy.case)
  have htidy : tidy (toLower s) = true := by
    rw [← tidy_rel (hrel.1.mono fun _ _ hxy => hxy.case)]
    have := List.all_eq_true.mp hp finnish (by simp)
    simp only [reachesWith, cleanDate, Bool.and_eq_true] at this
    exact this.1.1.1.1.1.1.1.1.1.1
  have hreach := everywhere_reached hE.uni hD hr hK.1 hcl hl hs htidy ho fun d hd => (hone d hd).1
  refine ⟨⟨hreach, ?_⟩, ?_⟩
  · exact pop_none_rel (TagRel.digits _) hE.table (hone finnish (by simp)).2 hf hz
  · rw [← noAmount_rel hfin]; exact hn

end Verif.Lemmas
