import Verif.Props.SearchEnglish
import Verif.Props.Search
import Verif.Spec.Demo
/-! # C49: hypotheses met, and what goes wrong -/
set_option autoImplicit false
namespace Verif.Props
open Verif.Go Verif.Model Verif.Data Verif.Lemmas Verif.Spec

/-! ## A text -/

/-- The sentence "we met on March 5, 2015 then". -/
def demoSentence : List Spec.Piece :=
  [.filler "we".toList, .filler "met".toList, .link "on".toList, .date (.named .comma "5".toList "March".toList "2015".toList 3), .filler "then".toList]
/-- The sentence "nobody (really) came at 6/7/2016". -/
def demoLast : List Spec.Piece :=
  [.filler "nobody".toList, .filler "(really)".toList, .filler "came".toList, .link "at".toList, .date (.numeric .mdy '/' "7".toList "6".toList "2016".toList)]

theorem demo_filler (w pre core post : List Char) (h : w = pre ++ core ++ post) (hp : ∀ c ∈ pre ++ post, c ∈ wordPunctuation) (hne : core ≠ [])
    (ha : ∀ c ∈ core, c.isAlpha = true) (hv : toLower core ∉ englishVocabulary) : (Spec.Piece.filler w).Ok := ⟨pre, core, post, h, hp, hne, ha, hv⟩

theorem demo_zones_word (w : List Char) (hw : (w.all fun c => c.isLower || wordPunctuation.contains c) = true) (hz : w.length < 3 ∨ 'z' ∉ w) :
    wordIsTz demoEnv.table w = false := by
  refine C49_lower_case_words demo_sound.table w (fun c hc => ?_) fun a b e => ?_
  · have := List.all_eq_true.mp hw c hc
    simpa [Bool.or_eq_true] using this
  · rcases hz with h | h
    · rw [e] at h; simp at h; omega
    · exact h (by rw [e]; simp)

theorem demo_sentence_ok : PlainSentence demoEnv.table demoSentence := by
  refine ⟨?_, ?_, ?_⟩
  · intro p hp
    simp only [demoSentence, List.mem_cons, List.not_mem_nil, or_false] at hp
    rcases hp with rfl | rfl | rfl | rfl | rfl
    · exact demo_filler _ [] "we".toList [] (by decide) (by decide) (by decide) (by decide) (by decide +kernel)
    · exact demo_filler _ [] "met".toList [] (by decide) (by decide) (by decide) (by decide) (by decide +kernel)
    · show toLower "on".toList ∈ linkWords; decide
    · exact ⟨⟨⟨by unfold IsNumeral; decide, by decide⟩, by unfold IsMonthName; decide, by unfold IsNumeral; decide, by decide⟩, by decide, by decide⟩
    · exact demo_filler _ [] "then".toList [] (by decide) (by decide) (by decide) (by decide) (by decide +kernel)
  · decide
  · intro a p w b h hp
    have hw : Spec.Piece.filler w ∈ demoSentence := by rw [h]; simp
    simp [demoSentence] at hw
    rcases hw with rfl | rfl | rfl <;> exact demo_zones_word _ (by decide) (by decide)

theorem demo_last_ok : PlainSentence demoEnv.table demoLast := by
  refine ⟨?_, ?_, ?_⟩
  · intro p hp
    simp only [demoLast, List.mem_cons, List.not_mem_nil, or_false] at hp
    rcases hp with rfl | rfl | rfl | rfl | rfl
    · exact demo_filler _ [] "nobody".toList [] (by decide) (by decide) (by decide) (by decide) (by decide +kernel)
    · exact demo_filler _ ['('] "really".toList [')'] (by decide) (by decide) (by decide) (by decide) (by decide +kernel)
    · exact demo_filler _ [] "came".toList [] (by decide) (by decide) (by decide) (by decide) (by decide +kernel)
    · show toLower "at".toList ∈ linkWords; decide
    · exact ⟨⟨by unfold Order.Agrees; decide, Or.inl rfl, ⟨by unfold IsNumeral; decide, by decide⟩, ⟨by unfold IsNumeral; decide, by decide⟩,
        by unfold IsNumeral; decide, by decide⟩, by decide, by decide⟩
  · decide
  · intro a p w b h hp
    have hw : Spec.Piece.filler w ∈ demoLast := by rw [h]; simp
    simp [demoLast] at hw
    rcases hw with rfl | rfl | rfl <;> exact demo_zones_word _ (by decide) (by decide)

theorem demo_text_ok : PlainText demoEnv.table [(demoSentence, '.')] demoLast ['!'] := by
  refine ⟨?_, demo_last_ok, Or.inr ⟨by simp [demoLast], '!', by decide, rfl⟩⟩
  intro s hs
  simp at hs
  subst hs
  exact ⟨demo_sentence_ok, by simp [demoSentence], by decide⟩

theorem demo_text : writeText [(demoSentence, '.')] demoLast ['!'] = "we met on March 5, 2015 then. nobody (really) came at 6/7/2016!".toList := by decide +kernel

theorem demo_dates : (datesInText [(demoSentence, '.')] demoLast).map (fun x => (x.1.year, x.1.month, x.1.day, x.2)) =
    [(2015, 3, 5, "on March 5, 2015".toList), (2016, 6, 7, "at 6/7/2016".toList)] := by decide +kernel

theorem demo_search_zones (c : PCfg) (h1 : c.currentTime = Time.zero) (h2 : c.defaultTz = none) (walls : List Int) : SearchZones c walls := by
  have hz : Time.zero.isZero = true := by decide
  refine ⟨fun h => ?_, fun h => ?_, fun l h => ?_⟩
  · rw [h1, hz] at h; simp at h
  · rw [h1, hz] at h; simp at h
  · rw [h2] at h; simp at h

/-- The hypotheses of C49 are met: a text of two sentences, one configuration. -/
example : ∃ out, (search (demoEnv.searchWorld id none) ⟨{}, []⟩ (some { languages := [['e', 'n']] })
      "we met on March 5, 2015 then. nobody (really) came at 6/7/2016!".toList).map (·.2) = some (.ok (['e', 'n'], out)) ∧
    out.length = (datesInText [(demoSentence, '.')] demoLast).length ∧ ∀ q ∈ (datesInText [(demoSentence, '.')] demoLast).zip out, FoundDate q.1.1 q.1.2 q.2 := by
  rw [← demo_text]
  exact C49_english_only demo_sound (fun _ _ => rfl) none ⟨rfl, Or.inl rfl⟩ rfl rfl ⟨Or.inl rfl, rfl⟩ _ _ _ demo_text_ok
    (demo_search_zones _ rfl rfl _) ⟨'w', by rw [demo_text]; decide, by decide⟩

/-! ## What goes wrong -/

/-- **C49, finding.** A search does not obey `DateOrder`: with any order asked for, `on 3/5/2015` is found as the 5th of March, while
`Parse` with `DateOrder` DMY reads `3/5/2015` as the 3rd of May. -/
theorem C49_order_ignored {E : Env} (hE : Sound E) (compose : List Char → List Char) (detect : Option (List Char → List Name)) (f : Name → List Char)
    (hf : f ['e', 'n'] = "DMY".toList) :
    (∃ p, searchIn (E.searchWorld compose detect) (some { dateOrder := some f }) ['e', 'n'] "on 3/5/2015".toList {} = some (.ok [p]) ∧
      ∃ d, p.1.date = some d ∧ Shows d.time 2015 3 5 0 0 0 0) ∧
    (∃ d, (E.parse {} (some { dateOrder := some f }) "3/5/2015".toList []).2 = .ok d ∧ Shows d.time 2015 5 3 0 0 0 0) := by
  constructor
  · have hps : PlainSentence E.table [.link "on".toList, .date (.numeric .mdy '/' "5".toList "3".toList "2015".toList)] := by
      refine ⟨?_, by decide, ?_⟩
      · intro p hp
        simp only [List.mem_cons, List.not_mem_nil, or_false] at hp
        rcases hp with rfl | rfl
        · show toLower "on".toList ∈ linkWords; decide
        · exact ⟨⟨by unfold Order.Agrees; decide, Or.inl rfl, ⟨by unfold IsNumeral; decide, by decide⟩, ⟨by unfold IsNumeral; decide, by decide⟩,
            by unfold IsNumeral; decide, by decide⟩, by decide, by decide⟩
      · intro a p w b h _
        have hw : Spec.Piece.filler w ∈ [Spec.Piece.link "on".toList, .date (.numeric .mdy '/' "5".toList "3".toList "2015".toList)] := by rw [h]; simp
        simp at hw
    obtain ⟨out, e, hl, hf⟩ := C49_search_with_language hE compose detect (c := { dateOrder := some f }) ⟨rfl, Or.inl rfl⟩ (s := {}) ⟨Or.inl rfl, rfl⟩
      [] _ [] ⟨by simp, hps, Or.inl rfl⟩ (demo_search_zones _ rfl rfl _)
    have hd : datesInText [] [.link "on".toList, .date (.numeric .mdy '/' "5".toList "3".toList "2015".toList)] =
        [(.numeric .mdy '/' "5".toList "3".toList "2015".toList, "on 3/5/2015".toList)] := rfl
    rw [hd] at hl hf
    match out, hl with
    | [p], _ =>
      have := hf _ (List.mem_cons_self ..)
      obtain ⟨d, h1, _, h3⟩ := this.date
      exact ⟨p, e, d, h1, h3⟩
  · have ho : englishOrder { dateOrder := some f } = "DMY".toList := by
      unfold englishOrder orderIn
      simp only [hf]
      rw [if_pos (by decide)]
      decide
    have hz : ZonesOk { dateOrder := some f } E.now (wallOf (number "2015".toList) (number "5".toList) (number "3".toList) 0 0 0 0) :=
      ⟨Loc.IsFixed.noJump (fun _ _ => rfl) _, fun _ => by show (-86400 : Int) ≤ 0 ∧ (0 : Int) ≤ 86400; decide, fun l h => by cases h⟩
    obtain ⟨r, hr⟩ := C44_numeric_date hE (s := {}) (c := { dateOrder := some f }) ⟨rfl, rfl, rfl, Or.inr ⟨rfl, rfl⟩, rfl, rfl, Or.inl rfl⟩ .dmy .dmy
      (by rw [ho]; decide) (by unfold Order.Agrees; decide) "3".toList "5".toList "2015".toList ⟨by unfold IsNumeral; decide, by decide⟩
      ⟨by unfold IsNumeral; decide, by decide⟩ ⟨by unfold IsNumeral; decide, by decide⟩ '/' (Or.inl rfl) (by decide) (by decide) hz
    exact ⟨r, hr.result, hr.shows⟩

/-- The parts of a search for English with these surroundings. -/
def demoTranslate (text : String) : Option (List (List Char) × List (List Char)) :=
  translateSearch demoEnv.uni (demoEnv.lang ['e', 'n']) (wordIsTz demoEnv.table) [['t']] text.toList

/-- **C49, finding.** A date in brackets that starts with the month does not reach the parser: the parser is asked for `marchh 5, 2015)` instead
(the punctuation after a word is taken to start as many characters into the word as the word without punctuation has). -/
theorem C49_bracketed : demoTranslate "born (March 5, 2015) there" = some (["marchh 5, 2015)".toList], ["(March 5, 2015)".toList]) := by decide +kernel

theorem dotted_chunks : demoTranslate "Meeting on 05.03.2015" = some (["05".toList, "03".toList, "2015".toList], ["on 05".toList, "03".toList, "2015".toList]) := by
  decide +kernel

/-- **C49, finding.** A date with dots is cut at its dots as if they ended sentences: whatever the parser says, no result has a dot in its text. -/
theorem C49_dotted {σ τ D : Type} (env : SearchEnv σ τ D) (st : σ × Option τ) (out : List (ParsedSearch D × List Char))
    (h : searchWithLanguage demoEnv.uni env (demoEnv.lang ['e', 'n']) (wordIsTz demoEnv.table) [['t']] ['e', 'n'] "Meeting on 05.03.2015".toList st = some out) :
    ∀ r ∈ out, '.' ∉ r.2 := by
  have h1 := dotted_chunks
  unfold demoTranslate at h1
  obtain ⟨st', res, subs, h3, h4, idx, i1, _, i2⟩ := C32_found env (!((['e', 'n'] : List Char) == ['v', 'i'] || (['e', 'n'] : List Char) == ['h', 'u']))
    ["05".toList, "03".toList, "2015".toList] ["on 05".toList, "03".toList, "2015".toList] rfl st
  unfold searchWithLanguage at h
  rw [h1] at h
  simp only [Option.bind_eq_bind, Option.bind_some, h3] at h
  rw [if_pos (by omega)] at h
  injection h with h
  subst h
  intro r hr hdot
  obtain ⟨k, hk⟩ := List.mem_iff_getElem?.mp hr
  rw [List.getElem?_zip_eq_some] at hk
  obtain ⟨hk1, hk2⟩ := hk
  have hlt : k < idx.length := by
    rw [i1]
    exact (List.getElem?_eq_some_iff.mp hk1).1
  obtain ⟨entry, o, d, _, ho, _, hf⟩ := i2 k idx[k] r.1 r.2 (List.getElem?_eq_getElem hlt) hk1 hk2
  have hod : '.' ∈ o := by
    rcases hf with ⟨_, a, b, e, _, _⟩ | ⟨e', p, ⟨sep, es, ps, j, _, _, hj, _, hp⟩, _, a, b, e, _, _⟩
    · rw [e]; simp [hdot]
    · rw [← hj]
      exact mem_joinWith (List.mem_of_getElem? hp) (by rw [e]; simp [hdot])
  have : ∀ o ∈ ["on 05".toList, "03".toList, "2015".toList], '.' ∉ o := by decide
  exact this o (List.mem_of_getElem? ho) hod

/-- **C49, finding.** With English as the only language, a date followed by an exclamation mark is an error: no language detected. -/
theorem C49_undetected (st : SearchSt ParserSt) (hst : st.unique = []) :
    (search (demoEnv.searchWorld id none) st (some { languages := [['e', 'n']] }) "3/5/2015!".toList).map (fun r => match r.2 with | .error e => some e | .ok _ => none) =
      some (some .notDetected) := by
  obtain ⟨p, u⟩ := st
  subst hst
  have h1 : initSearchConfig (demoEnv.searchWorld id none).now (some { languages := [['e', 'n']] }) = .ok (searchCfg { languages := [['e', 'n']] }) := by
    rw [initSearchConfig_eq]; rfl
  have h2 : searchLanguages (demoEnv.searchWorld id none) (searchCfg { languages := [['e', 'n']] }) "3/5/2015!".toList = .ok [['e', 'n']] := by
    rw [searchLanguages_eq]
    exact only_english false
  have h3 : detectFullTextLanguage (demoEnv.searchWorld id none).toDetectEnv [['t']] [] "3/5/2015!".toList [['e', 'n']]
      (initUniqueCharsets (demoEnv.searchWorld id none).toDetectEnv [['e', 'n']] []) = some none := by decide +kernel
  rw [search_steps _ _ _ _ _ _ h1 h2]
  rw [show (searchCfg { languages := [['e', 'n']] }).skipTokens = [['t']] from rfl, show (searchCfg { languages := [['e', 'n']] }).defaultLanguages = [] from rfl, h3]
  rfl

end Verif.Props
