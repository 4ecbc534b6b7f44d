import Verif.Lemmas.Refuse
import Verif.Spec.Regional
import Verif.Props.English
/-! # C43: regional locales -/
set_option autoImplicit false
namespace Verif.Props
open Verif.Go Verif.Model Verif.Data Verif.Lemmas Verif.Spec

/-! ## What is left of English -/

/-- English without its known words. -/
def wordless (n : Name) : LangData := { enData with name := n, knownWords := [] }

theorem merge_alone {l : List (List Char)} (h : l.Pairwise (fun a b => strLe a b = true)) (hc : compact l = l) : mergeWords [] l = l := by
  unfold mergeWords
  rw [List.nil_append, List.mergeSort_of_pairwise h, hc]

theorem en_sorted : (enData.translations.all fun x => decide (x.2.Pairwise (fun a b => strLe a b = true)) && decide (compact x.2 = x.2)) = true := by
  decide +kernel

theorem regional_eq (n : Name) : regionalEnglish n = wordless n := by
  unfold regionalEnglish mergeLang wordless
  simp only [List.nil_append, List.lookup_nil, Option.getD_none, List.filter_nil, List.append_nil, Option.isNone_none, if_true]
  have : enData.translations.map (fun x => (x.1, mergeWords [] x.2)) = enData.translations := by
    conv => rhs; rw [← List.map_id enData.translations]
    refine List.map_congr_left fun x hx => ?_
    have := List.all_eq_true.mp en_sorted x hx
    simp only [Bool.and_eq_true, decide_eq_true_eq] at this
    rw [merge_alone this.1 this.2]
    rfl
  rw [this]
  rfl

theorem wordless_uniform : LangData.uniform (wordless []) = true := by decide +kernel
theorem wordless_ascii : LangData.ascii (wordless []) = true := by decide +kernel

/-! ## Dates with month names -/

def monthsRefused (f : MonthForm) (d : List Char) : Bool :=
  monthNames.all fun x => refuses (wordless []) [['t']] (f.write d x.1 "3456".toList)

theorem refused_dayFirst_1 : monthsRefused .dayFirst "1".toList = true := by decide +kernel
theorem refused_dayFirst_2 : monthsRefused .dayFirst "12".toList = true := by decide +kernel
theorem refused_comma_1 : monthsRefused .comma "1".toList = true := by decide +kernel
theorem refused_comma_2 : monthsRefused .comma "12".toList = true := by decide +kernel
theorem refused_plain_1 : monthsRefused .plain "1".toList = true := by decide +kernel
theorem refused_plain_2 : monthsRefused .plain "12".toList = true := by decide +kernel

theorem months_refused (f : MonthForm) {a : List Char} (h : a = "1".toList ∨ a = "12".toList) : monthsRefused f a = true := by
  rcases h with rfl | rfl <;> cases f
  · exact refused_dayFirst_1
  · exact refused_comma_1
  · exact refused_plain_1
  · exact refused_dayFirst_2
  · exact refused_comma_2
  · exact refused_plain_2

theorem write_ascii (f : MonthForm) {d mon y : List Char} {n : Int} (hd : Short d) (hmon : IsMonthName mon n) (hy : Four y) :
    ∀ x ∈ f.write d mon y, x.toNat < 128 := by
  have hasc := List.all_eq_true.mp month_ascii _ hmon
  apply lower_inv
  rw [lower_write]
  intro x hx
  have h1 : ∀ x ∈ toLower d, x.toNat < 128 := by rw [lower_numeral hd.1]; exact numeral_ascii hd.1
  have h2 : ∀ x ∈ toLower y, x.toNat < 128 := by rw [lower_numeral hy.1]; exact numeral_ascii hy.1
  have h3 : ∀ x ∈ toLower mon, x.toNat < 128 := isAscii_mem hasc
  cases f <;> simp only [MonthForm.write, List.mem_append, List.mem_cons] at hx
  · rcases hx with hx | rfl | hx | rfl | hx
    · exact h1 x hx
    · decide
    · exact h3 x hx
    · decide
    · exact h2 x hx
  · rcases hx with hx | rfl | hx | rfl | rfl | hx
    · exact h3 x hx
    · decide
    · exact h1 x hx
    · decide
    · decide
    · exact h2 x hx
  · rcases hx with hx | rfl | hx | rfl | hx
    · exact h3 x hx
    · decide
    · exact h1 x hx
    · decide
    · exact h2 x hx

/-- Dates with month names are refused by a regional locale without own known words. -/
theorem month_refused {E : Env} (hE : Surroundings E) {n : Name} (hn : n ≠ ['f', 'i']) (f : MonthForm)
    (d mon y : List Char) (k : Int) (hd : Short d) (hmon : IsMonthName mon k) (hy : Four y) :
    Refused E.uni E.table ((regionalEnglish n).lang E.uni) [['t']] (f.write d mon y) := by
  obtain ⟨a, ds, ha, hds, hda, hya⟩ := month_sub hd hy
  have hone := List.all_eq_true.mp (months_refused f ha) _ hmon
  have hplain := List.all_eq_true.mp month_names_plain _ hmon
  have hsub : sub ds ' ' = ' ' ∧ sub ds ',' = ',' := ⟨sub_other (by decide), sub_other (by decide)⟩
  have hlow : toLower (f.write d mon y) = (f.write a (toLower mon) "3456".toList).map (sub ds) := by
    rw [lower_write, write_map f _ hsub, hda, hya, map_sub_word hplain, lower_numeral hd.1, lower_numeral hy.1]
  have ha' : isAscii (f.write a (toLower mon) "3456".toList) = true := by
    have := hone
    simp only [refuses, Bool.and_eq_true] at this
    exact this.1.1.1.1
  have := refuses_all hE.uni hE.table wordless_uniform wordless_ascii (by decide +kernel) hone (write_ascii f hd hmon hy)
    (by rw [hlow]; exact tag_sub hds ha')
  refine ⟨this.sanitize, this.zone, ?_⟩
  rw [regional_eq]
  have e := applicable_name E.uni { enData with knownWords := [] } n [] hn (by decide) [['t']] (E.uni.normalizeString (f.write d mon y))
  have h := this.applicable
  unfold wordless at h ⊢
  rw [← e] at h
  exact h

/-! ## The whole call -/

theorem regions_load : (englishRegions.all fun n => loadsLocale n.toList && (match getLocaleData n.toList with | some l => l.name == n.toList | none => false) && n.toList != ['f', 'i']) = true := by
  decide +kernel

/-- **C43 (finding).** With a regional locale of English that has no data of its own – en-GB, en-AU, en-IN and 98 others – `Parse` refuses
every date with a month name, although English reads all of them (`C44_month_name`): the known words of the language are not inherited, so the
text is cut at digits only and " march " is no word of the dictionary. -/
theorem C43_regional_english_fails {E : Env} (hE : Surroundings E) {n : String} (hn : n ∈ englishRegions)
    (hdata : E.lang n.toList = (regionalEnglish n.toList).lang E.uni) {s : ParserSt} {c : PCfg} (hc : Only n.toList s c) (hl : c.locales = [n.toList])
    (hdef : c.defaultLanguages = []) (f : MonthForm) (d mon y : List Char) (k : Int) (hd : Short d) (hmon : IsMonthName mon k) (hy : Four y) :
    (E.parse s (some c) (f.write d mon y) []).2 = .error .unknownFormat := by
  have h := List.all_eq_true.mp regions_load n hn
  simp only [Bool.and_eq_true, bne_iff_ne] at h
  obtain ⟨⟨h1, h2⟩, h3⟩ := h
  split at h2
  case h_2 => cases h2
  rename_i l hl'
  have hname : l.name = n.toList := by simpa using h2
  rw [← hname] at h1 h3 hl' hc hdata hl
  have hp : Picks E s c l := hc.picks hl' (Or.inl ⟨h1, hl⟩)
  refine locale_refused hp hdef ?_ (by rw [hdata]; exact month_refused hE h3 f d mon y k hd hmon hy)
  intro x
  have hlangs : c.languages = [] := by
    rcases hc.chosen with ⟨_, h⟩ | ⟨h, _⟩
    · exact h
    · rw [h] at hl; cases hl
  have hlf : languagesFor E.parts s (c.initiate E.now) x = [] := by
    unfold languagesFor
    cases s.detect with
    | none => exact hlangs
    | some f =>
      simp only
      rw [if_neg]
      · exact hlangs
      · show ¬ ((c.locales.isEmpty && c.languages.isEmpty) = true)
        rw [hl]; simp
  rw [hlf, hl, hc.region]
  exact of_decide_eq_true (List.all_eq_true.mp h1 c.useGivenOrder (by cases c.useGivenOrder <;> simp))


/-! ## Numeric dates -/

def regionalPass : Bool :=
  (List.range 3).all fun i => shapesPassIn (wordless []) i '/' && shapesPassIn (wordless []) i '.' && (i != 0 || shapesPassIn (wordless []) i '-')

theorem regional_pass : regionalPass = true := by decide +kernel

/-- **C43** What regional locales of English do read: complete numeric dates, in the locale's own date order or the one configured. -/
theorem C43_regional_numeric_partial {E : Env} (hE : Surroundings E) {n : String} (hn : n ∈ englishRegions)
    (hdata : E.lang n.toList = (regionalEnglish n.toList).lang E.uni) {s : ParserSt} {c : PCfg} (hc : Only n.toList s c) (hl : c.locales = [n.toList])
    {l : LocaleInfo} (hinfo : getLocaleData n.toList = some l) (o w : Order) (ho : toLower (orderIn n.toList l.dateOrder c) = o.letters) (hw : o.Agrees w)
    (d m y : List Char) (hd : Short d) (hm : Short m) (hy : Four y) (sep : Char) (hsep : NumericSep w sep)
    (hdate : IsDate (number y) (number m) (number d)) (hy2 : 2 ≤ number y)
    (hz : ZonesOk c E.now (wallOf (number y) (number m) (number d) 0 0 0 0)) :
    ∃ r, YieldsIn n.toList E s c (w.write d m y [sep] [sep]) .day (number y) (number m) (number d) 0 0 0 0 r := by
  have h := List.all_eq_true.mp regions_load n hn
  simp only [Bool.and_eq_true, bne_iff_ne] at h
  obtain ⟨⟨h1, h2⟩, h3⟩ := h
  rw [hinfo] at h2
  have hname : l.name = n.toList := by simpa using h2
  rw [← hname] at h1 h3 hinfo hc hdata hl ho ⊢
  have hp : Picks E s c l := hc.picks hinfo (Or.inl ⟨h1, hl⟩)
  have hpass : shapesPassIn (wordless []) w.yearPlace sep = true := by
    have hall : ∀ i < 3, shapesPassIn (wordless []) i '/' = true ∧ shapesPassIn (wordless []) i '.' = true ∧ (i = 0 → shapesPassIn (wordless []) i '-' = true) := by
      intro i hi
      have := List.all_eq_true.mp regional_pass i (List.mem_range.mpr hi)
      simp only [Bool.and_eq_true, Bool.or_eq_true, bne_iff_ne] at this
      exact ⟨this.1.1, this.1.2, fun e => this.2.resolve_left (by simp [e])⟩
    have hi : w.yearPlace < 3 := by rcases year_place w with h | h | h <;> rw [h] <;> decide
    rcases hsep with rfl | rfl | ⟨rfl, h0⟩
    · exact (hall _ hi).1
    · exact (hall _ hi).2.1
    · exact (hall _ hi).2.2 h0
  refine numeric_date_in hE (l := l) (d' := wordless []) ?_ wordless_uniform wordless_ascii hp o w ho hw d m y hd hm hy sep hsep hpass hdate hy2 hz
  intro x t hx
  rw [hdata, regional_eq]
  exact Passed.rename (d := { enData with knownWords := [] }) l.name (by decide) h3 hx

/-! ## Examples -/

/-- British English. -/
def britain : Env := { demoEnv with lang := fun n => (regionalEnglish n).lang asciiUni }

theorem britain_ok : Surroundings britain := ⟨demo_sound.uni, demo_sound.table, demo_sound.clock⟩

def british : PCfg := { locales := ["en-GB".toList] }

theorem british_only : Only "en-GB".toList {} british := ⟨by decide +kernel, Or.inl ⟨rfl, rfl⟩, rfl, rfl, rfl, Or.inl rfl⟩

example : (britain.parse {} (some british) "5 March 2015".toList []).2 = .error .unknownFormat :=
  C43_regional_english_fails britain_ok (n := "en-GB") (by decide) rfl british_only rfl rfl .dayFirst "5".toList "March".toList "2015".toList 3
    ⟨by unfold IsNumeral; decide, by decide⟩ (by unfold IsMonthName; decide) ⟨by unfold IsNumeral; decide, by decide⟩

example : ∃ r, YieldsIn "en-GB".toList britain {} british "05/03/2015".toList .day 2015 3 5 0 0 0 0 r :=
  C43_regional_numeric_partial britain_ok (n := "en-GB") (by decide) rfl british_only rfl
    (l := { name := "en-GB".toList, dateOrder := "DMY".toList, noWordSpacing := false, splitterGroup := 1 }) (by decide +kernel)
    .dmy .dmy (by decide) (Order.agrees_self _) "05".toList "03".toList "2015".toList
    ⟨by unfold IsNumeral; decide, by decide⟩ ⟨by unfold IsNumeral; decide, by decide⟩ ⟨by unfold IsNumeral; decide, by decide⟩
    '/' (Or.inl rfl) (by decide) (by decide) ⟨rfl, fun t => by show (-86400 : Int) ≤ 0 ∧ (0 : Int) ≤ 86400; decide, fun l h => by cases h⟩

end Verif.Props
