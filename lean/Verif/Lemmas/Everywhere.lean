import Verif.Lemmas.Reduce
import Verif.Lemmas.OrderOnly
import Verif.Lemmas.LocaleLoad
import Verif.Lemmas.Tags
import Verif.Lemmas.Names
/-!
Helper lemmas: what the data of all supported locales have in common, for texts over an alphabet.
-/
set_option autoImplicit false
set_option maxRecDepth 100000
namespace Verif.Lemmas
open Verif.Go Verif.Model Verif.Data Verif.Spec

/-! ## Locales by their data -/

/-- Each of the locales, restricted to the alphabet, is one of these but for its name; except for Finnish. -/
def reducesTo (K : Alphabet) (classes : List LangData) (finnish : LangData) : Bool :=
  allLangs.all fun x => if x.1.name = ['f', 'i'] then decide (reducedC K x = finnish) else classes.contains { reducedC K x with name := [] }

theorem AgreeOn.passed {U : Uni} {tb : List TzEntry} {L L' : Lang} {skip : List (List Char)} {s t : List Char}
    (h1 : AgreeOn U L L' skip s) (h2 : AgreeOn U L L' skip (U.normalizeString s)) (h : Passed U tb L skip s t) : Passed U tb L' skip s t :=
  ⟨⟨h.sanitize, h.stamp, h.negStamp, by rw [← h2.applicable]; exact h.applicable, by rw [← h1.translate]; exact h.translate, h.braces⟩, h.zone⟩

theorem AgreeOn.reached {U : Uni} {L L' : Lang} {skip : List (List Char)} {s t : List Char}
    (h1 : AgreeOn U L L' skip s) (h2 : AgreeOn U L L' skip (U.normalizeString s)) (h : Reached U L skip s t) : Reached U L' skip s t :=
  ⟨h.sanitize, h.stamp, h.negStamp, by rw [← h2.applicable]; exact h.applicable, by rw [← h1.translate]; exact h.translate, h.braces⟩

theorem merge_name (p : Option LangData) (d : LangData) : (mergeLang p d).name = d.name := by
  cases p <;> rfl

/-- A class of locales the data of which agree on a text. -/
theorem class_agrees {E : Env} (hD : HasLocaleData E) {K : Alphabet} {classes : List LangData} {finnish : LangData} (hr : reducesTo K classes finnish = true)
    (hK : over K splitSeparator = true) (hcl : (finnish :: classes).all (closed K) = true) {n : Name} {l : LocaleInfo} (hl : getLocaleData n = some l)
    (skip : List (List Char)) : ∃ d ∈ finnish :: classes, ∀ s, over K (normalizeToken E.uni s) = true → AgreeOn E.uni (d.lang E.uni) (E.lang l.name) skip s := by
  obtain ⟨x, hx, e⟩ := locale_lang hl
  have hone := List.all_eq_true.mp hr x hx
  rw [← e, hD x hx]
  rw [reducedC_eq] at hone
  have hname : (reduce K (mergeLang x.2 x.1)).name = x.1.name := merge_name x.2 x.1
  by_cases hf : x.1.name = ['f', 'i']
  · rw [if_pos hf] at hone
    have hone : reduce K (mergeLang x.2 x.1) = finnish := by simpa using hone
    refine ⟨finnish, by simp, fun s hs => ?_⟩
    rw [← hone]
    exact reduce_agree _ hK (by rw [hone]; exact List.all_eq_true.mp hcl _ (by simp)) skip hs
  · rw [if_neg hf] at hone
    have hone : { reduce K (mergeLang x.2 x.1) with name := [] } ∈ classes := by simpa using hone
    refine ⟨_, List.mem_cons_of_mem _ hone, fun s hs => ?_⟩
    have hc : closed K (reduce K (mergeLang x.2 x.1)) = true := by
      have := List.all_eq_true.mp hcl _ (List.mem_cons_of_mem _ hone)
      exact this
    have h1 := agree_rename (U := E.uni) (d := reduce K (mergeLang x.2 x.1)) (n := []) (m := x.1.name) (by decide) hf skip s
    have h2 := reduce_agree (U := E.uni) (mergeLang x.2 x.1) hK hc skip hs
    have e2 : { reduce K (mergeLang x.2 x.1) with name := x.1.name } = reduce K (mergeLang x.2 x.1) := by rw [← hname]
    rw [e2] at h1
    exact ⟨h1.applicable.trans h2.applicable, fun keep => (h1.translate keep).trans (h2.translate keep)⟩

/-- The same for all locales but Finnish. -/
theorem class_agrees_other {E : Env} (hD : HasLocaleData E) {K : Alphabet} {classes : List LangData} {finnish : LangData} (hr : reducesTo K classes finnish = true)
    (hK : over K splitSeparator = true) (hcl : classes.all (closed K) = true) {n : Name} {l : LocaleInfo} (hl : getLocaleData n = some l) (hfi : l.name ≠ ['f', 'i'])
    (skip : List (List Char)) : ∃ d ∈ classes, ∀ s, over K (normalizeToken E.uni s) = true → AgreeOn E.uni (d.lang E.uni) (E.lang l.name) skip s := by
  obtain ⟨x, hx, e⟩ := locale_lang hl
  have hone := List.all_eq_true.mp hr x hx
  rw [← e, hD x hx]
  rw [← e] at hfi
  rw [reducedC_eq, if_neg hfi] at hone
  have hname : (reduce K (mergeLang x.2 x.1)).name = x.1.name := merge_name x.2 x.1
  have hone : { reduce K (mergeLang x.2 x.1) with name := [] } ∈ classes := by simpa using hone
  refine ⟨_, hone, fun s hs => ?_⟩
  have hc : closed K (reduce K (mergeLang x.2 x.1)) = true := by
    have := List.all_eq_true.mp hcl _ hone
    exact this
  have h1 := agree_rename (U := E.uni) (d := reduce K (mergeLang x.2 x.1)) (n := []) (m := x.1.name) (by decide) hfi skip s
  have h2 := reduce_agree (U := E.uni) (mergeLang x.2 x.1) hK hc skip hs
  have e2 : { reduce K (mergeLang x.2 x.1) with name := x.1.name } = reduce K (mergeLang x.2 x.1) := by rw [← hname]
  rw [e2] at h1
  exact ⟨h1.applicable.trans h2.applicable, fun keep => (h1.translate keep).trans (h2.translate keep)⟩

theorem everywhere_other {E : Env} (hU : AsciiUni E.uni) (hD : HasLocaleData E) {K : Alphabet} {classes : List LangData} {finnish : LangData}
    (hr : reducesTo K classes finnish = true) (hK : over K splitSeparator = true) (hcl : classes.all (closed K) = true)
    {n : Name} {l : LocaleInfo} (hl : getLocaleData n = some l) (hfi : l.name ≠ ['f', 'i']) {skip : List (List Char)} {s t : List Char} (hs : ∀ c ∈ s, c.toNat < 128)
    (ht : tidy (toLower s) = true) (ho : over K (toLower s) = true)
    (h : ∀ d ∈ classes, Reached E.uni (d.lang E.uni) skip s t) : Reached E.uni (E.lang l.name) skip s t := by
  obtain ⟨d, hd, ha⟩ := class_agrees_other hD hr hK hcl hl hfi skip
  have e1 := normalizeToken_ascii hU hs ht
  have hl2 : toLower (toLower s) = toLower s := by
    unfold toLower
    rw [List.map_map]
    exact List.map_congr_left fun c _ => toLowerC_idem c
  have e2 : normalizeToken E.uni (E.uni.normalizeString s) = toLower s := by
    rw [normalizeString_ascii hU hs ht, normalizeToken_ascii hU (lower_ascii hs) (by rw [hl2]; exact ht), hl2]
  exact (ha s (by rw [e1]; exact ho)).reached (ha _ (by rw [e2]; exact ho)) (h d hd)

/-- What passes in every class of locales passes in every locale. -/
theorem everywhere_reached {E : Env} (hU : AsciiUni E.uni) (hD : HasLocaleData E) {K : Alphabet} {classes : List LangData} {finnish : LangData}
    (hr : reducesTo K classes finnish = true) (hK : over K splitSeparator = true) (hcl : (finnish :: classes).all (closed K) = true)
    {n : Name} {l : LocaleInfo} (hl : getLocaleData n = some l) {skip : List (List Char)} {s t : List Char} (hs : ∀ c ∈ s, c.toNat < 128)
    (ht : tidy (toLower s) = true) (ho : over K (toLower s) = true)
    (h : ∀ d ∈ finnish :: classes, Reached E.uni (d.lang E.uni) skip s t) : Reached E.uni (E.lang l.name) skip s t := by
  obtain ⟨d, hd, ha⟩ := class_agrees hD hr hK hcl hl skip
  have e1 := normalizeToken_ascii hU hs ht
  have hl2 : toLower (toLower s) = toLower s := by
    unfold toLower
    rw [List.map_map]
    exact List.map_congr_left fun c _ => toLowerC_idem c
  have e2 : normalizeToken E.uni (E.uni.normalizeString s) = toLower s := by
    rw [normalizeString_ascii hU hs ht, normalizeToken_ascii hU (lower_ascii hs) (by rw [hl2]; exact ht), hl2]
  exact (ha s (by rw [e1]; exact ho)).reached (ha _ (by rw [e2]; exact ho)) (h d hd)

theorem everywhere {E : Env} (hU : AsciiUni E.uni) (hD : HasLocaleData E) {K : Alphabet} {classes : List LangData} {finnish : LangData}
    (hr : reducesTo K classes finnish = true) (hK : over K splitSeparator = true) (hcl : (finnish :: classes).all (closed K) = true)
    {n : Name} {l : LocaleInfo} (hl : getLocaleData n = some l) {skip : List (List Char)} {s t : List Char} (hs : ∀ c ∈ s, c.toNat < 128)
    (ht : tidy (toLower s) = true) (ho : over K (toLower s) = true)
    (h : ∀ d ∈ finnish :: classes, Passed E.uni E.table (d.lang E.uni) skip s t) : Passed E.uni E.table (E.lang l.name) skip s t :=
  ⟨everywhere_reached hU hD hr hK hcl hl hs ht ho fun d hd => (h d hd).toReached, (h finnish (by simp)).zone⟩

/-! ## Texts with any digits -/

theorem digit_mem {c : Char} (h : c.isDigit = true) : c ∈ "0123456789".toList := by
  have hr := digit_range h
  have hk : ∀ k, 48 ≤ k → k ≤ 57 → Char.ofNat k ∈ "0123456789".toList := by
    intro k h1 h2
    have : ∀ k < 58, 48 ≤ k → Char.ofNat k ∈ "0123456789".toList := by decide +kernel
    exact this k (by omega) h1
  have := hk c.toNat hr.1 hr.2
  rwa [Char.ofNat_toNat] at this

theorem sub_over {K : Alphabet} (hK : over K "0123456789".toList = true) {ds : List Char} (hds : ∀ c ∈ ds, c.isDigit = true) {a : List Char} (ha : over K a = true) :
    over K (a.map (sub ds)) = true := by
  refine over_of fun c hc => ?_
  obtain ⟨b, hb, rfl⟩ := List.mem_map.mp hc
  cases e : b.isDigit with
  | false => rw [sub_other e]; exact over_mem ha b hb
  | true => exact over_mem hK _ (digit_mem (sub_digit hds e))

theorem passes_tidy {d : LangData} {skip : List (List Char)} {a a' : List Char} (h : passes d skip a a' = true) : tidy a = true := by
  simp only [passes, passesWith, reachesWith, cleanDate, Bool.and_eq_true] at h
  exact h.1.1.1.1.1.1.1.1.1.1.1.1

/-- What the texts with these digits do in every class of locales, those with other digits do in every locale. -/
theorem everywhere_date {E : Env} (hE : Surroundings E) (hD : HasLocaleData E) {K : Alphabet} {classes : List LangData} {finnish : LangData}
    (hr : reducesTo K classes finnish = true) (hK : over K (splitSeparator ++ "0123456789".toList) = true) (hcl : (finnish :: classes).all (closed K) = true)
    (hu : (finnish :: classes).all LangData.uniform = true) (hda : (finnish :: classes).all LangData.ascii = true)
    {n : Name} {l : LocaleInfo} (hl : getLocaleData n = some l) {ds : List Char} (hds : ∀ c ∈ ds, c.isDigit = true) {a a' : List Char}
    (hp : (finnish :: classes).all (fun d => passesDateIn d a a') = true) (ha : over K a = true)
    {s : List Char} (hs : ∀ c ∈ s, c.toNat < 128) (h : toLower s = a.map (sub ds)) :
    Passed E.uni E.table (E.lang l.name) [['t']] s (a'.map (sub ds)) ∧ noAmount (a'.map (sub ds)) = true := by
  rw [over_append] at hK
  have hone := fun d hd => date_sub_in hE (List.all_eq_true.mp hu d hd) (List.all_eq_true.mp hda d hd) hds (List.all_eq_true.mp hp d hd) hs h
  have hf := List.all_eq_true.mp hp finnish (by simp)
  simp only [passesDateIn, Bool.and_eq_true] at hf
  refine ⟨everywhere hE.uni hD hr hK.1 hcl hl hs ?_ ?_ fun d hd => (hone d hd).1, (hone finnish (by simp)).2⟩
  · rw [h, ← tidy_rel ((tag_sub hds hf.1.1).mono fun _ _ hxy => hxy.case)]
    exact passes_tidy hf.1.2
  · rw [h]; exact sub_over hK.2 hds ha

end Verif.Lemmas
