import Verif.Spec.KnownWords
import Verif.Lemmas.KnownData
import Verif.Props.Total
import Verif.Props.OneByOne
import Verif.Props.RelativeWords
/-! # C63: a locale reads only texts made of its words -/
set_option autoImplicit false
set_option maxRecDepth 100000
namespace Verif.Props
open Verif.Go Verif.Model Verif.Lemmas Verif.Spec Verif.Data
open Verif.Lemmas.KW (wholePattern exactPattern whole_pattern exact_takes applicable_known GroupsWhole)

/-! ## The data -/

/-- What to check in the patterns of a locale. -/
def patternCheck (d : LangData) : Bool := d.rxCombined.all (fun x => wholePattern d.noWordSpacing x.1 x.2) && d.rxExact.all exactPattern

theorem all_patternCheck : allLangs.all (fun x => patternCheck (mergeLang x.2 x.1)) = true := by decide +kernel

theorem supported_patterns {x : LangData × Option LangData} (hx : x ∈ allLangs) : patternCheck (mergeLang x.2 x.1) = true :=
  List.all_eq_true.mp all_patternCheck x hx

theorem supported_whole (U : Uni) {d : LangData} (h : patternCheck d = true) : GroupsWhole U (d.lang U) := by
  intro rx k hr
  simp only [LangData.lang, Option.map_eq_some_iff] at hr
  obtain ⟨⟨p, k'⟩, hp, e⟩ := hr
  cases e
  unfold patternCheck at h
  rw [hp] at h
  simp only [Option.all_some, Bool.and_eq_true] at h
  exact whole_pattern U h.1

/-- What the check of a locale says, for a locale with its data. -/
theorem known_of_applicable {E : Env} (hE : HasLocaleData E) {l : LocaleInfo} (hl : Known l) {skip : List (List Char)} {str : List Char}
    (h : isApplicable E.uni (E.lang l.name) skip str = true) : '|' ∈ readAs E l.name str ∨ MadeOfKnown E.uni (E.lang l.name) skip (readAs E l.name str) := by
  by_cases hb : '|' ∈ readAs E l.name str
  · exact Or.inl hb
  · right
    obtain ⟨n, hn⟩ := hl
    obtain ⟨x, hx, e⟩ := info_supported hn
    have hw := (info_splits hE hn).words
    have hg : GroupsWhole E.uni (E.lang l.name) := by rw [← e, hE x hx]; exact supported_whole E.uni (supported_patterns hx)
    exact applicable_known (fun w hw' e => hw (e ▸ hw')) hg hb h

/-! ## The locale of a result -/

theorem checkPrevious_any {P : Parts} {cfg : Cfg} {strs : List (List Char)} : ∀ {ls : List LocaleInfo} {l : LocaleInfo},
    checkPrevious P cfg strs ls = some l → strs.any (P.applicable cfg l) = true := by
  intro ls
  induction ls with
  | nil => intro l h; simp [checkPrevious] at h
  | cons a ls ih =>
    intro l h
    rw [checkPrevious] at h
    split at h
    · rename_i ha; cases h; exact ha
    · exact ih h

theorem applicableLoop_any {P : Parts} (cfg : Cfg) (strs : List (List Char)) : ∀ (ls rs : List LocaleInfo) (tr : List Name),
    (∀ l ∈ rs, strs.any (P.applicable cfg l) = true) → ∀ l ∈ (applicableLoop P cfg strs ls rs tr).1, strs.any (P.applicable cfg l) = true := by
  intro ls
  induction ls with
  | nil => intro rs tr h; exact h
  | cons a ls ih =>
    intro rs tr h
    rw [applicableLoop]
    split
    · exact ih _ _ h
    · split
      · rename_i ha
        refine ih _ _ ?_
        intro x hx
        rcases List.mem_append.mp hx with hx | hx
        · exact h x hx
        · rw [List.mem_singleton.mp hx]; exact ha
      · exact ih _ _ h

theorem getApplicable_any {P : Parts} {s : ParserSt} {c : PCfg} (hd : c.defaultLanguages = []) {cfg : Cfg} {str : List Char} {ls : List LocaleInfo}
    (h : getApplicableLocales P s c cfg str = .ok ls) : ∀ l ∈ ls, (dateStrings P str).any (P.applicable cfg l) = true := by
  have hp : ∀ l ∈ previousLocale P s c cfg str, (dateStrings P str).any (P.applicable cfg l) = true := by
    intro l hl
    unfold previousLocale at hl
    split at hl
    · rw [Option.mem_toList] at hl; exact checkPrevious_any hl
    · simp at hl
  have hn : defaultLocales c = [] := by simp [defaultLocales, hd]
  unfold getApplicableLocales at h
  dsimp only at h
  rw [hn] at h
  split at h
  · cases h; simpa using hp
  · cases h
  · cases h
    simp only [List.filter_nil, List.append_nil]
    exact applicableLoop_any cfg _ _ _ _ hp

theorem skip_words (c : PCfg) (now : Time) : (c.initiate now).toInternal.skipTokens = skipWords c := by
  show (if c.skipTokens.isEmpty then [['t']] else c.skipTokens) = _
  unfold skipWords
  cases c.skipTokens <;> simp

theorem strings_checked (E : Env) (text x : List Char) (hx : x ∈ dateStrings E.parts (E.parts.sanitize text)) : x ∈ checkedTexts E text := by
  unfold dateStrings at hx
  unfold checkedTexts
  have e1 : E.parts.normalize = E.uni.normalizeString := by simp only [Env.parts]
  have e2 : E.parts.sanitize = sanitizeDate E.uni := by simp only [Env.parts]
  have e3 : E.parts.popTz = popTzOffset E.table := by simp only [Env.parts]
  rw [e1, e2, e3] at hx
  generalize E.uni.normalizeString (sanitizeDate E.uni text) = n at hx ⊢
  dsimp only at hx ⊢
  split at hx
  · exact hx
  · rw [List.mem_singleton.mp hx]; exact List.mem_cons_self

/-- A result with a locale comes from a locale that passed the check. -/
theorem result_applicable {E : Env} {s : ParserSt} (hs : KnownState s) {c : Option PCfg} (hd : (c.getD {}).defaultLanguages = []) {text : List Char}
    {formats : List (List Char)} {r : DateRes} (h : (E.parse s c text formats).2 = .ok r) (hl : r.locale ≠ []) :
    ∃ l : LocaleInfo, Known l ∧ r.locale = l.name ∧ ∃ x ∈ checkedTexts E text, isApplicable E.uni (E.lang l.name) (skipWords (c.getD {})) x = true := by
  unfold Env.parse Model.parse at h
  split at h
  · cases h
  · have hs' : KnownState (if s.types.isEmpty then { s with types := defaultTypes } else s) := by split <;> exact hs
    generalize (if s.types.isEmpty then { s with types := defaultTypes } else s) = s' at h hs'
    unfold parseWithTypes at h
    split at h
    · cases h
    · dsimp only at h
      split at h
      · cases h
        exact absurd (formatted_locale E _ _ _) hl
      · split at h
        · cases h
        · rename_i ls hg
          split at h
          · rename_i dt l hloop
            cases h
            have hloc := localeLoop_locale hloop
            refine ⟨l, getApplicable_known hs' hg l hloc.2, hloc.1, ?_⟩
            have hd' : ((c.getD {}).initiate E.now).defaultLanguages = [] := hd
            have ha := getApplicable_any hd' hg l hloc.2
            rw [List.any_eq_true] at ha
            obtain ⟨x, hx, ha⟩ := ha
            refine ⟨x, ?_, ?_⟩
            · exact strings_checked E text x hx
            · rw [← skip_words (c.getD {}) E.now]; exact ha
          · cases h

/-! ## The property -/

/-- **C63.** A date in some locale: the text, cleaned, perhaps without a time zone, and as the locale reads it, is from end to end made of numbers, words of
the locale's dictionary, its relative phrases, words to skip, and what is neither letter nor digit; and not of punctuation only; where words have spaces between them, no word is
cut in two.  For every text, configuration
without default languages (those are not checked), list of formats and history, and every locale of the library.  A text with a vertical bar is left open: the
separator the library marks relative phrases with is made of bars. -/
theorem C63_known_words (E : Env) (hE : HasLocaleData E) (s : ParserSt) (hs : KnownState s) (c : Option PCfg) (hd : (c.getD {}).defaultLanguages = [])
    (text : List Char) (formats : List (List Char)) (r : DateRes) (h : (E.parse s c text formats).2 = .ok r) (hl : r.locale ≠ []) :
    ∃ x ∈ checkedTexts E text, '|' ∈ readAs E r.locale x ∨ MadeOfKnown E.uni (E.lang r.locale) (skipWords (c.getD {})) (readAs E r.locale x) := by
  obtain ⟨l, hk, e, x, hx, ha⟩ := result_applicable hs hd h hl
  rw [e]
  exact ⟨x, hx, known_of_applicable hE hk ha⟩

theorem trim_mem {c : Char} {p : List Char} (h : c ∈ p) : c ∈ trimSpace p ∨ isSpace c = true := by
  obtain ⟨a, b, e, ha, hb⟩ := trimSpace_decomp p
  rw [e] at h
  rcases List.mem_append.mp h with h | h
  · rcases List.mem_append.mp h with h | h
    · exact Or.inr (ha c h)
    · exact Or.inl h
  · exact Or.inr (hb c h)

/-- **C63, letters.** So a locale reads no text with a letter (or ASCII digit) that is in none of its words and phrases and in no word to skip. -/
theorem C63_own_letters (E : Env) (hE : HasLocaleData E) (s : ParserSt) (hs : KnownState s) (c : Option PCfg) (hd : (c.getD {}).defaultLanguages = [])
    (text : List Char) (formats : List (List Char)) (r : DateRes) (h : (E.parse s c text formats).2 = .ok r) (hl : r.locale ≠ []) :
    ∃ x ∈ checkedTexts E text, '|' ∈ readAs E r.locale x ∨ '\n' ∈ readAs E r.locale x ∨
      ∀ ch ∈ readAs E r.locale x, (E.uni.isLetter ch = true ∨ ch.isAlphanum = true) → isSpace ch = false → E.uni.isDigit ch = false →
        CharOf (E.lang r.locale) (skipWords (c.getD {})) ch := by
  obtain ⟨l, hk, e, x, hx, ha⟩ := result_applicable hs hd h hl
  rw [e]
  refine ⟨x, hx, ?_⟩
  rcases known_of_applicable hE hk ha with hb | ⟨pieces, hfl, hp, _, _⟩
  · exact Or.inl hb
  right
  by_cases hn : '\n' ∈ readAs E l.name x
  · exact Or.inl hn
  right
  intro ch hch hlet hsp hdg
  rw [← hfl] at hch
  obtain ⟨p, hpm, hcp⟩ := List.mem_flatten.mp hch
  rcases hp p hpm with ((hnum | hdict | ⟨rx, hrx, hm⟩ | hsk | hsk) | hnr)
  · have := hnum ch hcp
    rw [hdg] at this
    cases this
  · exact Or.inl ⟨p, hdict, hcp⟩
  · right; left
    refine ⟨rx, hrx, ?_⟩
    obtain ⟨n, hn'⟩ := hk
    obtain ⟨y, hy, e'⟩ := info_supported hn'
    rw [← e', hE y hy] at hrx
    simp only [LangData.lang, Option.map_eq_some_iff] at hrx
    obtain ⟨pt, hpt, rfl⟩ := hrx
    have hc := supported_patterns hy
    unfold patternCheck at hc
    rw [hpt] at hc
    simp only [Option.all_some, Bool.and_eq_true] at hc
    exact exact_takes E.uni hc.2 hm ch hcp
  · exact Or.inr (Or.inr ⟨p, hsk.1, hcp⟩)
  · rcases trim_mem hcp with h | h
    · exact Or.inr (Or.inr ⟨_, hsk.1, h⟩)
    · rw [hsp] at h; cases h
  · rcases hnr with hnl | hno
    · exfalso; apply hn; rw [← hfl]; exact List.mem_flatten.mpr ⟨p, hpm, hnl⟩
    · have := hno ch hcp
      rw [this.1, this.2] at hlet
      simp at hlet

/-- A run of letters is inside one piece. -/
theorem within_piece {U : Uni} {w b : List Char} (hw : ∀ c ∈ w, WordLetter U c) : ∀ (pieces : List (List Char)) (a : List Char), WholeWords U pieces →
    pieces.flatten = a ++ w ++ b → w ≠ [] → ∃ p ∈ pieces, ∃ x y, p = x ++ w ++ y := by
  intro pieces
  induction pieces with
  | nil =>
    intro a _ h hne
    exfalso
    have : a ++ w ++ b = [] := h.symm
    simp at this
    exact hne this.2.1
  | cons p ps ih =>
    intro a hww h hne
    rw [List.flatten_cons] at h
    rw [List.append_assoc, List.append_eq_append_iff] at h
    rcases h with ⟨a', rfl, h⟩ | ⟨c, rfl, h⟩
    · obtain ⟨q, hq, x, y, e⟩ := ih a' (Verif.Lemmas.KW.WholeWords.tail hww) (by rw [h, List.append_assoc]) hne
      exact ⟨q, List.mem_cons_of_mem _ hq, x, y, e⟩
    · rw [List.append_eq_append_iff] at h
      rcases h with ⟨d, rfl, h⟩ | ⟨d, rfl, h⟩
      · exact ⟨_, List.mem_cons_self, a, d, by simp⟩
      · cases c with
        | nil =>
          obtain ⟨q, hq, x, y, e⟩ := ih [] (Verif.Lemmas.KW.WholeWords.tail hww) (by rw [h]; simp) hne
          exact ⟨q, List.mem_cons_of_mem _ hq, x, y, by simpa using e⟩
        | cons c0 c =>
          cases d with
          | nil => exact ⟨_, List.mem_cons_self, a, [], by simp⟩
          | cons d0 d =>
            exfalso
            have hl : ∃ z, (a ++ c0 :: c).getLast? = some z ∧ z ∈ c0 :: c := by
              have hs : ((c0 :: c).getLast?).isSome := by simp [List.getLast?_isSome]
              obtain ⟨z, hz⟩ := Option.isSome_iff_exists.mp hs
              exact ⟨z, by rw [List.getLast?_append, hz]; rfl, List.mem_of_getLast? hz⟩
            obtain ⟨z, hz, hzm⟩ := hl
            exact Verif.Lemmas.KW.WholeWords.head hww z d0 hz (by rw [h]; rfl) ⟨hw z (List.mem_append.mpr (Or.inl hzm)), hw d0 (by simp)⟩

/-- **C63, words.** So each run of letters in the text, as the locale reads it, is (in a language with spaces between words) inside a word of the locale's
dictionary, a relative phrase of it, or a word to skip. -/
theorem C63_each_word (E : Env) (hE : HasLocaleData E) (s : ParserSt) (hs : KnownState s) (c : Option PCfg) (hd : (c.getD {}).defaultLanguages = [])
    (text : List Char) (formats : List (List Char)) (r : DateRes) (h : (E.parse s c text formats).2 = .ok r) (hl : r.locale ≠ [])
    (hsp : (E.lang r.locale).noWordSpacing = false) :
    ∃ x ∈ checkedTexts E text, '|' ∈ readAs E r.locale x ∨ '\n' ∈ readAs E r.locale x ∨
      ∀ a w b, readAs E r.locale x = a ++ w ++ b → (∀ ch ∈ w, WordLetter E.uni ch) → (∃ ch ∈ w, E.uni.isLetter ch = true) →
        ∃ before after, InDictionary (E.lang r.locale) (before ++ w ++ after) ∨
          (∃ rx, (E.lang r.locale).rxExact = some rx ∧ rx.matches (before ++ w ++ after) = true) ∨
          Skips (E.lang r.locale) (skipWords (c.getD {})) (before ++ w ++ after) ∨
          Skips (E.lang r.locale) (skipWords (c.getD {})) (trimSpace (before ++ w ++ after)) := by
  obtain ⟨x, hx, hb | ⟨pieces, hfl, hp, hww, _⟩⟩ := C63_known_words E hE s hs c hd text formats r h hl
  · exact ⟨x, hx, Or.inl hb⟩
  refine ⟨x, hx, Or.inr ?_⟩
  by_cases hn : '\n' ∈ readAs E r.locale x
  · exact Or.inl hn
  right
  intro a w b e hw ⟨ch, hch, hlet⟩
  obtain ⟨p, hpm, y, z, rfl⟩ := within_piece hw pieces a (hww hsp) (by rw [hfl, e]) (by intro e'; rw [e'] at hch; cases hch)
  have hcp : ch ∈ y ++ w ++ z := by simp [hch]
  refine ⟨y, z, ?_⟩
  rcases hp _ hpm with ((hnum | hk) | hnr)
  · have := hnum ch hcp
    rw [(hw ch hch).2.2.1] at this
    cases this
  · exact hk
  · exfalso
    rcases hnr with hnl | hno
    · apply hn; rw [← hfl]; exact List.mem_flatten.mpr ⟨_, hpm, hnl⟩
    · have := (hno ch hcp).2
      rw [hlet] at this
      cases this

/-! ## English -/

/-- The pattern takes ASCII only, but for the two other characters that are "k" and "s" in another case. -/
def asciiPat : Pat → Bool
  | .lit s => s.all (·.toNat < 128)
  | .cls neg items => !neg && items.all fun i => match i with
    | .rng _ hi => hi.toNat < 128
    | .digit => true
    | .space => true
    | _ => false
  | .seq a b => asciiPat a && asciiPat b
  | .alt a b => asciiPat a && asciiPat b
  | .opt a => asciiPat a
  | .star a => asciiPat a
  | .grp _ a => asciiPat a
  | _ => true

/-- ASCII, the Kelvin sign or the long s. -/
def NearAscii (c : Char) : Prop := c.toNat < 128 ∨ c = '\u212a' ∨ c = '\u017f'

theorem lit_takes : ∀ (w : List Char) (c : Char), TakesChar (litRx w) c → ∃ d ∈ w, foldEq d c = true := by
  intro w
  induction w with
  | nil => intro c h; cases h
  | cons d w ih =>
    intro c h
    cases w with
    | nil => exact ⟨d, by simp, h⟩
    | cons d' w =>
      rcases h with h | h
      · exact ⟨d, by simp, h⟩
      · obtain ⟨e, he, hf⟩ := ih c h
        exact ⟨e, List.mem_cons_of_mem _ he, hf⟩

theorem fold_near {d c : Char} (hd : d.toNat < 128) (h : foldEq d c = true) : NearAscii c := by
  have key : ∀ n : Fin 128, (Char.ofNat n.val).toLower.toNat < 128 ∧ (Char.ofNat n.val).toUpper.toNat < 128 := by decide
  have hk := key ⟨d.toNat, hd⟩
  rw [show Char.ofNat d.toNat = d from Char.ofNat_toNat d] at hk
  simp only [foldEq, Bool.or_eq_true, Bool.and_eq_true, beq_iff_eq] at h
  rcases h with (((h | h) | h) | h) | h
  · exact Or.inl (h ▸ hd)
  · exact Or.inl (h ▸ hk.1)
  · exact Or.inl (h ▸ hk.2)
  · exact Or.inr (Or.inl h.2)
  · exact Or.inr (Or.inr h.2)

theorem asciiPat_takes (U : Uni) : ∀ (p : Pat), asciiPat p = true → ∀ c, TakesChar (p.toRx U) c → NearAscii c := by
  intro p
  induction p with
  | lit s =>
    intro h c ht
    obtain ⟨d, hd, hf⟩ := lit_takes s c ht
    exact fold_near (by simpa using List.all_eq_true.mp h d hd) hf
  | cls neg items =>
    intro h c ht
    simp only [asciiPat, Bool.and_eq_true, Bool.not_eq_true', List.all_eq_true] at h
    obtain ⟨rfl, h⟩ := h
    simp only [Pat.toRx, TakesChar, bne_iff_ne, ne_eq, Bool.not_eq_false, List.any_eq_true] at ht
    obtain ⟨i, hi, hc⟩ := ht
    have := h i hi
    left
    cases i with
    | rng lo hi' =>
      simp only [CItem.has, Bool.and_eq_true, decide_eq_true_eq] at hc this
      have : c.toNat ≤ hi'.toNat := hc.2
      omega
    | digit => exact Nat.lt_of_le_of_lt (by simp [CItem.has, Char.isDigit] at hc; exact hc.2) (by decide : '9'.toNat < 128)
    | space =>
      simp only [CItem.has, isRxSpace, Bool.or_eq_true, beq_iff_eq] at hc
      rcases hc with (((h | h) | h) | h) | h <;> rw [h] <;> decide
    | letter => cases this
    | mark => cases this
  | seq a b iha ihb =>
    intro h c ht
    simp only [asciiPat, Bool.and_eq_true] at h
    exact ht.elim (iha h.1 c) (ihb h.2 c)
  | alt a b iha ihb =>
    intro h c ht
    simp only [asciiPat, Bool.and_eq_true] at h
    exact ht.elim (iha h.1 c) (ihb h.2 c)
  | opt a iha => intro h c ht; exact iha h c ht
  | star a iha => intro h c ht; exact iha h c ht
  | grp n a iha => intro h c ht; exact iha h c ht
  | eps => intro _ c ht; cases ht
  | bos => intro _ c ht; cases ht
  | eos => intro _ c ht; cases ht

/-- The words and phrases of a locale are in ASCII. -/
def asciiData (d : LangData) : Bool :=
  d.relativeType.all (fun x => x.1.all (·.toNat < 128)) && d.translations.all (fun x => x.1.all (·.toNat < 128)) && d.rxExact.all asciiPat

theorem en_ascii : asciiData (mergeLang none enLang) = true := by decide +kernel

/-- **C63, English.** What is read in English has no letters but those of ASCII (and the Kelvin sign and the long s, which the patterns take for "k" and "s"). -/
theorem C63_english (E : Env) (hE : HasLocaleData E) (s : ParserSt) (hs : KnownState s) (c : Option PCfg) (hd : (c.getD {}).defaultLanguages = [])
    (hk : (c.getD {}).skipTokens = []) (text : List Char) (formats : List (List Char)) (r : DateRes) (h : (E.parse s c text formats).2 = .ok r)
    (hl : r.locale = "en".toList) :
    ∃ x ∈ checkedTexts E text, '|' ∈ readAs E r.locale x ∨ '\n' ∈ readAs E r.locale x ∨
      ∀ ch ∈ readAs E r.locale x, (E.uni.isLetter ch = true ∨ ch.isAlphanum = true) → isSpace ch = false → E.uni.isDigit ch = false → NearAscii ch := by
  obtain ⟨x, hx, hb⟩ := C63_own_letters E hE s hs c hd text formats r h (by rw [hl]; decide)
  refine ⟨x, hx, hb.imp id (Or.imp id ?_)⟩
  intro hall ch hch h1 h2 h3
  have he : E.lang "en".toList = (mergeLang none enLang).lang E.uni := hE (enLang, none) (List.mem_of_getElem? (i := 85) rfl)
  have ha := en_ascii
  simp only [asciiData, Bool.and_eq_true] at ha
  obtain ⟨⟨a1, a2⟩, a3⟩ := ha
  rw [List.all_eq_true] at a1 a2
  have := hall ch hch h1 h2 h3
  rw [hl, he] at this
  rcases this with ⟨w, ⟨t, ht⟩ | ⟨t, ht⟩, hw⟩ | ⟨rx, hrx, ht⟩ | ⟨w, hw, hc⟩
  · exact Or.inl (by simpa using List.all_eq_true.mp (a1 _ ht) ch hw)
  · exact Or.inl (by simpa using List.all_eq_true.mp (a2 _ ht) ch hw)
  · simp only [LangData.lang, Option.map_eq_some_iff] at hrx
    obtain ⟨p, hp, rfl⟩ := hrx
    rw [hp] at a3
    exact asciiPat_takes E.uni p (by simpa using a3) ch ht
  · unfold skipWords at hw
    rw [if_pos hk, List.mem_singleton] at hw
    subst hw
    left
    simp at hc
    rw [hc]; decide

/-! ## Cases -/

/-- The hypotheses are met: "Gestern" read in German. -/
example : ∃ r, ((fullEnv demoEnv).parse {} (some (asked "de")) "Gestern".toList []).2 = .ok r ∧ r.locale ≠ [] ∧ KnownState {} ∧ HasLocaleData (fullEnv demoEnv) ∧
    (asked "de").defaultLanguages = [] := by
  have h : getLocaleData "de".toList = some ⟨"de".toList, "DMY".toList, false, 1⟩ := by decide +kernel
  have e := C55_ascii full_ok (full_hasData _) (asked_only h (by decide +kernel)) "Gestern".toList (-1) .day
    ⟨by decide, by decide, by decide, by decide, single_iff (by decide)⟩
    ⟨(deLang, none), List.mem_of_getElem? (i := 68) rfl, by decide +kernel, "1 day ago", by decide +kernel, by decide⟩ (by decide +kernel) (fun h => by cases h) (by decide +kernel)
  exact ⟨_, e, by decide, (fun l hl => by cases hl), full_hasData _, rfl⟩

/-- German puts spaces between words. -/
example : ((fullEnv demoEnv).lang "de".toList).noWordSpacing = false := by
  rw [show (fullEnv demoEnv).lang "de".toList = (mergeLang none deLang).lang (fullEnv demoEnv).uni from
    full_hasData _ (deLang, none) (List.mem_of_getElem? (i := 68) rfl)]
  rfl

/-- "yesterday" read in English. -/
example : ∃ r, ((fullEnv demoEnv).parse {} (some (asked "en")) "yesterday".toList []).2 = .ok r ∧ r.locale = "en".toList ∧ (asked "en").skipTokens = [] := by
  have h : getLocaleData "en".toList = some ⟨"en".toList, "MDY".toList, false, 1⟩ := by decide +kernel
  have e := C55_ascii full_ok (full_hasData _) (asked_only h (by decide +kernel)) "yesterday".toList (-1) .day
    ⟨by decide, by decide, by decide, by decide, single_iff (by decide)⟩
    ⟨(enLang, none), List.mem_of_getElem? (i := 85) rfl, by decide +kernel, "1 day ago", by decide +kernel, by decide⟩ (by decide +kernel) (fun h => by cases h) (by decide +kernel)
  exact ⟨_, e, rfl, rfl⟩

end Verif.Props
