import Verif.Props.Words
/-! # C53: month names that are misread -/
set_option autoImplicit false
namespace Verif.Props
open Verif.Go Verif.Model Verif.Data Verif.Lemmas Verif.Spec

/-- French locales with the date order DMY and their own words. -/
def frenchLocales : List (LangData × Option LangData) := [(frLang, none), (fr_CMLang, some frLang), (fr_HTLang, some frLang), (fr_MALang, some frLang)]

def septRead (d : LangData) : Bool :=
  LangData.uniform d && LangData.ascii d && passesWith ['7'] d [['t']] "1 sept 3456".toList "1 7 3456".toList && passesWith ['7'] d [['t']] "12 sept 3456".toList "12 7 3456".toList

theorem sept_read : frenchLocales.all (fun x => septRead (mergeLangC x.2 x.1)) = true := by decide +kernel

theorem sept_noAmount : noAmount "1 7 3456".toList = true ∧ noAmount "12 7 3456".toList = true := by decide +kernel

theorem french_names : frenchLocales.map (·.1.name) = ["fr".toList, "fr-CM".toList, "fr-HT".toList, "fr-MA".toList] := by decide +kernel

theorem french_mem : ∀ x ∈ frenchLocales, x ∈ allLangs := by
  intro x hx
  simp only [frenchLocales, List.mem_cons, List.not_mem_nil, or_false] at hx
  rcases hx with rfl | rfl | rfl | rfl
  · exact List.mem_of_getElem? (i := 231) rfl
  · exact List.mem_of_getElem? (i := 243) rfl
  · exact List.mem_of_getElem? (i := 251) rfl
  · exact List.mem_of_getElem? (i := 254) rfl

theorem french_sept : frenchLocales.all (fun x => decide (translationsOf (mergeLangC x.2 x.1) "sept".toList = [englishMonth 9])) = true := by decide +kernel

/-- The digits of the day and year, and a fixed 7. -/
theorem sept_sub {d y : List Char} (hd : Short d) (hy : Four y) : ∃ (a ds : List Char), (a = "1".toList ∨ a = "12".toList) ∧
    (∀ c ∈ ds, c.isDigit = true) ∧ a.map (sub ds) = d ∧ "3456".toList.map (sub ds) = y ∧ sub ds '7' = '7' := by
  obtain ⟨y1, y2, y3, y4, rfl⟩ := len4 hy.2
  have hyd := hy.1.2
  rcases short_len hd with h | h
  · obtain ⟨d1, rfl⟩ := len1 h
    have hdd := hd.1.2
    refine ⟨"1".toList, ['0', d1, '0', y1, y2, y3, y4, '7'], Or.inl rfl, ?_, rfl, rfl, rfl⟩
    intro c hc
    simp only [List.mem_cons, List.not_mem_nil, or_false] at hc hyd hdd
    rcases hc with rfl | rfl | rfl | rfl | rfl | rfl | rfl | rfl
    · decide
    · exact hdd _ rfl
    · decide
    · exact hyd _ (Or.inl rfl)
    · exact hyd _ (Or.inr (Or.inl rfl))
    · exact hyd _ (Or.inr (Or.inr (Or.inl rfl)))
    · exact hyd _ (Or.inr (Or.inr (Or.inr rfl)))
    · decide
  · obtain ⟨d1, d2, rfl⟩ := len2 h
    have hdd := hd.1.2
    refine ⟨"12".toList, ['0', d1, d2, y1, y2, y3, y4, '7'], Or.inr rfl, ?_, rfl, rfl, rfl⟩
    intro c hc
    simp only [List.mem_cons, List.not_mem_nil, or_false] at hc hyd hdd
    rcases hc with rfl | rfl | rfl | rfl | rfl | rfl | rfl | rfl
    · decide
    · exact hdd _ (Or.inl rfl)
    · exact hdd _ (Or.inr rfl)
    · exact hyd _ (Or.inl rfl)
    · exact hyd _ (Or.inr (Or.inl rfl))
    · exact hyd _ (Or.inr (Or.inr (Or.inl rfl)))
    · exact hyd _ (Or.inr (Or.inr (Or.inr rfl)))
    · decide

/-- **C53 (finding).** In French the abbreviation "sept" is September according to the dictionary of the locale, but is read as the number 7:
"5 sept 2015" gives 5 July 2015. -/
theorem C53_sept {E : Env} (hE : Surroundings E) (hD : HasLocaleData E) {l : LocaleInfo} {s : ParserSt} {c : PCfg} (hc : AsksOnly l s c)
    (hl : l.name ∈ ["fr".toList, "fr-CM".toList, "fr-HT".toList, "fr-MA".toList]) (ho : orderLetters (orderIn l.name l.dateOrder c) = Order.dmy.letters)
    (d y : List Char) (hd : Short d) (hy : Four y) (hdate : IsDate (number y) 7 (number d)) (hy2 : 2 ≤ number y) (hz : ZonesOk c E.now (wallOf (number y) 7 (number d) 0 0 0 0)) :
    MonthWord l.name "sept".toList 9 ∧
    ∃ r, YieldsIn l.name E s c (WordForm.dayFirst.write d "sept".toList y) .day (number y) 7 (number d) 0 0 0 0 r := by
  rw [← french_names] at hl
  obtain ⟨x, hx, e⟩ := List.mem_map.mp hl
  have hxa := french_mem x hx
  refine ⟨⟨by decide, by decide, x, hxa, e, ?_⟩, ?_⟩
  · have := List.all_eq_true.mp french_sept x hx
    rw [mergeLangC_eq] at this
    simpa using this
  have hr := List.all_eq_true.mp sept_read x hx
  rw [mergeLangC_eq] at hr
  simp only [septRead, Bool.and_eq_true] at hr
  obtain ⟨a, ds, ha, hds, hda, hya, h7⟩ := sept_sub hd hy
  have hsp : sub ds ' ' = ' ' := sub_other (by decide)
  have hwr : ∀ b, WordForm.dayFirst.write d b y = d ++ [' '] ++ b ++ [' '] ++ y := by intro b; simp [WordForm.write]
  have hmap : ∀ b, (b.map (sub ds) = b) → (a ++ [' '] ++ b ++ [' '] ++ "3456".toList).map (sub ds) = d ++ [' '] ++ b ++ [' '] ++ y := by
    intro b hb
    simp only [List.map_append, List.map_cons, List.map_nil, hsp, hda, hb]
    rw [hya]
  have hpass : passesWith ['7'] (mergeLang x.2 x.1) [['t']] (a ++ [' '] ++ "sept".toList ++ [' '] ++ "3456".toList) (a ++ [' '] ++ "7".toList ++ [' '] ++ "3456".toList) = true := by
    rcases ha with rfl | rfl
    · exact hr.1.2
    · exact hr.2
  have hno : noAmount (a ++ [' '] ++ "7".toList ++ [' '] ++ "3456".toList) = true := by
    rcases ha with rfl | rfl
    · exact sept_noAmount.1
    · exact sept_noAmount.2
  have hsept : "sept".toList.map (sub ds) = "sept".toList := map_sub_word (by decide)
  have h7' : "7".toList.map (sub ds) = "7".toList := by show [sub ds '7'] = ['7']; rw [h7]
  have hasc : ∀ x ∈ d ++ [' '] ++ "sept".toList ++ [' '] ++ y, x.toNat < 128 := by
    intro x hx
    simp only [List.mem_append] at hx
    rcases hx with (((hx | hx) | hx) | hx) | hx
    · exact numeral_ascii hd.1 x hx
    · rw [List.mem_singleton.mp hx]; decide
    · exact (by decide : ∀ x ∈ "sept".toList, x.toNat < 128) x hx
    · rw [List.mem_singleton.mp hx]; decide
    · exact numeral_ascii hy.1 x hx
  have hlow : toLower (d ++ [' '] ++ "sept".toList ++ [' '] ++ y) = (a ++ [' '] ++ "sept".toList ++ [' '] ++ "3456".toList).map (sub ds) := by
    rw [hmap _ hsept]
    have e1 := lower_numeral hd.1
    have e2 := lower_numeral hy.1
    unfold toLower at e1 e2 ⊢
    simp only [List.map_append, e1, e2]
    rfl
  have haa : isAscii (a ++ [' '] ++ "sept".toList ++ [' '] ++ "3456".toList) = true := by rcases ha with rfl | rfl <;> decide
  obtain ⟨t, ht, hp⟩ := passesWith_all hE.uni hE.table hr.1.1.1 hr.1.1.2 (by decide +kernel) (g := fun x y => y = sub ds x) (fixed := ['7'])
    (fun c hc => by rw [List.mem_singleton.mp hc]; exact h7.symm) hpass hasc (by rw [hlow]; exact tag_sub hds haa)
  have et := of_tag_sub ht
  have hn := noAmount_rel (ht.mono fun _ _ hxy => hxy.case)
  rw [hno] at hn
  rw [hmap _ h7'] at et
  subst et
  rw [← hD x hxa, e] at hp
  rw [hwr]
  have hm : Short "7".toList := ⟨by unfold IsNumeral; decide, by decide⟩
  have e7 : number "7".toList = 7 := by decide
  have habs := C03_numeric_date_order { cfgIn l c E.now with dateOrder := Order.dmy.letters } E.now E.monthFirst none .dmy .dmy (letters_lower .dmy) (Order.agrees_self _)
    d "7".toList y [' '] [' '] hd hm hy (by unfold SepPair IsSeparator; decide) (by rw [e7]; exact hdate) hy2
  rw [absolute_letters _ .dmy (by rw [cfgIn_order]; exact ho)] at habs
  rw [show ({ cfgIn l c E.now with dateOrder := Order.dmy.letters } : Cfg).currentTime = (cfgIn l c E.now).currentTime from rfl, callBase_in hE, e7] at habs
  exact locale_yields hE hc.picks hp hn.symm (by simp) (by decide) hdate clock0 hy2 habs hz

/-- "5 sept 2015" in French. -/
example : ∃ r, YieldsIn "fr".toList (fullEnv demoEnv) {} (asked "fr") "5 sept 2015".toList .day 2015 7 5 0 0 0 0 r := by
  have h : getLocaleData "fr".toList = some ⟨"fr".toList, "DMY".toList, false, 1⟩ := by decide +kernel
  exact (C53_sept full_ok (full_hasData _) (asked_only h (by decide +kernel)) (by decide) (by decide) "5".toList "2015".toList
    ⟨by unfold IsNumeral; decide, by decide⟩ ⟨by unfold IsNumeral; decide, by decide⟩ (by decide) (by decide) (demo_zones _ _)).2

end Verif.Props
