import Verif.Props.Detect
/-! # C46–C48: hypotheses met, and what goes wrong -/
set_option autoImplicit false
namespace Verif.Props
open Verif.Go Verif.Model Verif.Data Verif.Spec Verif.Lemmas

/-- The characters of a language, from the generated table. -/
def charsetOf (l : Name) : List Char := (charsets.lookup l).getD []

/-- English, French and Portuguese. -/
def demoData (l : Name) : Option (Lang × List Char) :=
  if l = "en".toList then some (enData.lang asciiUni, charsetOf l)
  else if l = "fr".toList then some (frData.lang asciiUni, charsetOf l)
  else if l = "pt".toList then some (ptData.lang asciiUni, charsetOf l)
  else none

/-- A world with these languages; the parser understands nothing. -/
def demoWorld : SearchWorld Unit Unit where
  uni := asciiUni
  compose := id
  table := tableA
  data := demoData
  now := goDate 2024 3 15 12 0 0 0 Loc.utc
  isTz := fun _ => false
  parser := fun _ => ⟨fun s _ _ => (s, none), fun _ => none, Char.isDigit⟩
  detect := none

theorem demoWorld_sound : DetectSound demoWorld.toDetectEnv := ⟨asciiUni_ok, fun _ _ => rfl⟩

def cfgOf (l : List String) : Option PCfg := some { languages := l.map String.toList }

theorem en_fr : getLanguages [] ["en".toList, "fr".toList] false = .ok ["en".toList, "fr".toList] := by decide +kernel

section
variable {σ D : Type}

/-- **C47, finding.** In a search in English and French, every text with a letter, a hyphen and none of the letters k, w, x
is taken to be French, because the hyphen is listed among the characters of French (and characters common to all languages
are not left out); e.g. `born on 2015-03-05`. -/
theorem C47_hyphen (W : SearchWorld σ D) (st : SearchSt σ) (hst : SearchHistory W st.unique) (text : List Char) (e f : Lang)
    (he : W.data "en".toList = some (e, charsetOf "en".toList)) (hf : W.data "fr".toList = some (f, charsetOf "fr".toList))
    (hc : ∃ x ∈ textChars W.toDetectEnv text, x ∉ commonCharset) (hh : '-' ∈ textChars W.toDetectEnv text)
    (hk : 'k' ∉ textChars W.toDetectEnv text ∧ 'w' ∉ textChars W.toDetectEnv text ∧ 'x' ∉ textChars W.toDetectEnv text) :
    SearchTakes W st (cfgOf ["en", "fr"]) text "fr".toList := by
  refine C47_distinctive W st hst (cfgOf ["en", "fr"]) text "fr".toList ["en".toList] [] '-' rfl en_fr (by decide) hc hh ?_ ?_
  · refine ⟨⟨_, hf, (by decide +kernel : '-' ∈ charsetOf "fr".toList)⟩, ?_⟩
    intro l' hl hne d hd
    rcases List.mem_cons.mp hl with rfl | hl
    · rw [he] at hd; injection hd with hd; subst hd
      exact (by decide +kernel : '-' ∉ charsetOf "en".toList)
    · exact absurd (List.mem_singleton.mp hl) hne
  · intro l hl x hx hd
    have hl := List.mem_singleton.mp hl
    subst hl
    obtain ⟨⟨d, h1, h2⟩, h3⟩ := hd
    rw [he] at h1
    injection h1 with h1
    subst h1
    have h4 := h3 "fr".toList (by simp) (by decide) _ hf
    have : ∀ x ∈ charsetOf "en".toList, x ∉ charsetOf "fr".toList → x = 'k' ∨ x = 'w' ∨ x = 'x' := by decide +kernel
    rcases this x h2 h4 with rfl | rfl | rfl
    · exact hk.1 hx
    · exact hk.2.1 hx
    · exact hk.2.2 hx

end

/-- Such a text. -/
example : SearchTakes demoWorld ⟨(), []⟩ (cfgOf ["en", "fr"]) "Born on 2015-03-05".toList "fr".toList :=
  C47_hyphen demoWorld ⟨(), []⟩ SearchHistory.new _ _ _ rfl rfl ⟨'b', by decide +kernel⟩ (by decide +kernel)
    (by decide +kernel)

/-- A text where a letter decides: only English of the two has a `w`. -/
example : SearchTakes demoWorld ⟨(), []⟩ (cfgOf ["en", "fr"]) "we met on 5 March 2015".toList "en".toList := by
  refine C47_distinctive demoWorld ⟨(), []⟩ SearchHistory.new (cfgOf ["en", "fr"]) _ "en".toList [] ["fr".toList] 'w' rfl en_fr (by decide)
    ⟨'w', by decide +kernel⟩ (by decide +kernel) ?_ (by simp)
  refine ⟨⟨_, rfl, by decide +kernel⟩, ?_⟩
  intro l' hl hne d hd
  simp at hl
  rcases hl with rfl | rfl
  · exact absurd rfl hne
  · injection hd with hd; subst hd; decide +kernel

/-- A text of digits only. -/
example : SearchTakes demoWorld ⟨(), []⟩ (cfgOf ["en", "fr"]) "05/03/2015, 10:30".toList "en".toList :=
  C47_common demoWorld demoWorld_sound ⟨(), []⟩ _ _ _ ["fr".toList] rfl en_fr (by decide)

/-- A text where the words decide: French knows one of them. -/
example : SearchTakes demoWorld ⟨(), []⟩ (cfgOf ["en", "fr"]) "5 mars 2015".toList "fr".toList := by
  refine C47_best demoWorld ⟨(), []⟩ SearchHistory.new (cfgOf ["en", "fr"]) _ "fr".toList ["en".toList] [] (1, 2) rfl en_fr (by decide)
    ⟨'s', by decide +kernel⟩ ?_ ⟨_, rfl, 's', by decide +kernel⟩ (candidate_score (by decide +kernel)) ?_ (by simp)
  · have hx : ∀ x ∈ textChars demoWorld.toDetectEnv "5 mars 2015".toList,
        (x ∈ charsetOf "en".toList ↔ x ∈ charsetOf "fr".toList) := by decide +kernel
    intro l hl x hxt hd
    obtain ⟨⟨d, h1, h2⟩, h3⟩ := hd
    simp at hl
    rcases hl with rfl | rfl
    · injection h1 with h1; subst h1
      exact h3 "fr".toList (by simp) (by decide) _ rfl ((hx x hxt).mp h2)
    · injection h1 with h1; subst h1
      exact h3 "en".toList (by simp) (by decide) _ rfl ((hx x hxt).mpr h2)
  · intro l hl _
    simp at hl
    subst hl
    refine ⟨some (0, 2), candidate_score (by decide +kernel), ?_⟩
    intro m hm
    injection hm with hm
    subst hm
    unfold Better; decide

/-- A text in none of the languages. -/
example : (search demoWorld ⟨(), []⟩ (cfgOf ["en", "fr"]) "Ω".toList).map (·.2) = some (.error .notDetected) := by
  have h := C47_none demoWorld ⟨(), []⟩ SearchHistory.new (cfgOf ["en", "fr"]) "Ω".toList ["en".toList, "fr".toList] rfl en_fr (by decide)
    ⟨'Ω', by decide +kernel⟩ ?_
  · exact h
  · intro l hl hu
    obtain ⟨d, h1, x, h2, h3⟩ := hu
    have : x = 'Ω' := by
      have e : textChars demoWorld.toDetectEnv "Ω".toList = ['Ω'] := by decide +kernel
      rw [e] at h3; simpa using h3
    subst this
    simp at hl
    rcases hl with rfl | rfl
    · injection h1 with h1; subst h1; revert h2; decide +kernel
    · injection h1 with h1; subst h1; revert h2; decide +kernel

/-- An unknown language. -/
example : ∃ e, search demoWorld ⟨(), []⟩ (cfgOf ["en", "tlh"]) "today".toList = some ([], .error e) :=
  C46_unknown_refused demoWorld ⟨(), []⟩ _ _ rfl ⟨"tlh".toList, by decide, by unfold KnownLanguage; decide +kernel⟩

/-- The language of a search result, if there is one. -/
def languageOf (r : Option (List (Name × List Char) × Except SearchErr (Name × List (ParsedSearch Unit × List Char)))) : Option Name :=
  match r with
  | some (_, .ok x) => some x.1
  | _ => none

/-- What an earlier search leaves behind. -/
def leftBy (c : Option PCfg) (text : List Char) : List (Name × List Char) :=
  match search demoWorld ⟨(), []⟩ c text with
  | some x => x.1
  | none => []

/-- **C48, finding.** With a language given twice the result does depend on earlier searches: a new parser takes
`march 5-6` searched with the languages en, en, fr to be French (the hyphen again); a parser that has searched with en, fr,
pt before takes it to be English, because the characters computed then are kept. -/
theorem C48_repeated_language :
    languageOf (search demoWorld ⟨(), []⟩ (cfgOf ["en", "en", "fr"]) "march 5-6".toList) = some "fr".toList ∧
    languageOf (search demoWorld ⟨(), leftBy (cfgOf ["en", "fr", "pt"]) "2015".toList⟩ (cfgOf ["en", "en", "fr"]) "march 5-6".toList) =
      some "en".toList := by
  decide +kernel

/-- **C48, finding.** `Search` reads the field holding the characters after it gave up the lock (search.go:69, 73): if
another search, with the languages en, pt, comes in between, a search with en, fr takes `march 5-6` to be English, although
it is French when the searches run one after the other, in either order. -/
theorem C48_concurrent :
    detectFullTextLanguage demoWorld.toDetectEnv [['t']] [] "march 5-6".toList ["en".toList, "fr".toList]
      (initUniqueCharsets demoWorld.toDetectEnv ["en".toList, "pt".toList]
        (initUniqueCharsets demoWorld.toDetectEnv ["en".toList, "fr".toList] [])) = some (some "en".toList) ∧
    languageOf (search demoWorld ⟨(), []⟩ (cfgOf ["en", "fr"]) "march 5-6".toList) = some "fr".toList ∧
    languageOf (search demoWorld ⟨(), leftBy (cfgOf ["en", "pt"]) "2015".toList⟩ (cfgOf ["en", "fr"]) "march 5-6".toList) =
      some "fr".toList := by
  decide +kernel

/-- A history: two searches with different languages. -/
example : SearchHistory demoWorld (leftBy (cfgOf ["en", "fr", "pt"]) "2015".toList) ∧
    leftBy (cfgOf ["en", "fr", "pt"]) "2015".toList ≠ [] := by
  constructor
  · have h : ∃ r, search demoWorld ⟨(), []⟩ (cfgOf ["en", "fr", "pt"]) "2015".toList =
        some (leftBy (cfgOf ["en", "fr", "pt"]) "2015".toList, r) := by
      unfold leftBy
      cases hs : search demoWorld ⟨(), []⟩ (cfgOf ["en", "fr", "pt"]) "2015".toList with
      | none =>
        have : (search demoWorld ⟨(), []⟩ (cfgOf ["en", "fr", "pt"]) "2015".toList).isSome = true := by decide +kernel
        rw [hs] at this; simp at this
      | some x => exact ⟨x.2, rfl⟩
    obtain ⟨r, h⟩ := h
    exact SearchHistory.search [] () _ _ _ r SearchHistory.new h
  · decide +kernel

end Verif.Props
