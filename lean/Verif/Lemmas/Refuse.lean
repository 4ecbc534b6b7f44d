import Verif.Lemmas.Tags
import Verif.Lemmas.EnMonth
/-! Helper lemmas: texts a locale does not apply to. -/
set_option autoImplicit false
namespace Verif.Lemmas
open Verif.Go Verif.Model Verif.Data Verif.Spec

/-- A lower case text that the locale does not apply to, whatever its digits, and that has no time zone. -/
def refuses (d : LangData) (skip : List (List Char)) (a : List Char) : Bool :=
  isAscii a && cleanDate asciiUni a &&
  (match simplified asciiUni [] d.simplifications a with
   | none => false
   | some b => !applicableTokens asciiUni (d.lang asciiUni) (mapSkippedTokens skip (d.lang asciiUni)) (tokensOf asciiUni (d.lang asciiUni) skip false b)) &&
  (a.all fun c => foldC c == c) && !mayHaveZone a

structure Refused (U : Uni) (tb : List TzEntry) (L : Lang) (skip : List (List Char)) (s : List Char) : Prop where
  sanitize : sanitizeDate U s = s
  zone : popTzOffset tb (U.normalizeString s) = (U.normalizeString s, none)
  applicable : isApplicable U L skip (U.normalizeString s) = false

theorem lower_lower {s : List Char} (hs : ∀ c ∈ s, c.toNat < 128) : toLower (toLower s) = toLower s := by
  unfold toLower
  rw [List.map_map]
  refine List.map_congr_left fun c hc => ?_
  have : ((List.range 128).all fun i => toLowerC (toLowerC (Char.ofNat i)) == toLowerC (Char.ofNat i)) = true := by decide +kernel
  simp only [List.all_eq_true, List.mem_range, beq_iff_eq] at this
  have := this c.toNat (hs c hc)
  rwa [char_of_nat] at this

theorem refuses_all {U : Uni} (hU : AsciiUni U) {tb : List TzEntry} (htb : IsTable tb) {d : LangData} (hd : LangData.uniform d = true)
    (hda : LangData.ascii d = true) {skip : List (List Char)} (hskip : skip.all digitFree = true) {g : Char → Char → Prop}
    {a s : List Char} (hp : refuses d skip a = true) (hs : ∀ c ∈ s, c.toNat < 128) (h : Rel2 (TagRel g) a (toLower s)) :
    Refused U tb (d.lang U) skip s := by
  simp only [refuses, Bool.and_eq_true, Bool.not_eq_true'] at hp
  obtain ⟨⟨⟨⟨_, p1⟩, p4⟩, p2⟩, p3⟩ := hp
  split at p4
  · cases p4
  rename_i b hb
  simp only [Bool.not_eq_true'] at p4
  have hc := tag_lower h hs
  have hR : DigitRel (TagRel g) := TagRel.digits g
  have hV : UniRel (TagRel g) asciiUni U := TagRel.uni hU
  have hclean : cleanDate U s = true := by rw [← clean_rel hU hc]; exact p1
  have htidyA : tidy a = true := by
    have p1 := p1
    simp only [cleanDate, Bool.and_eq_true] at p1
    exact p1.1.1.1.1.1.1
  have hlow : Rel2 CaseRel a (toLower s) := h.mono fun _ _ hxy => hxy.case
  have htidy : tidy (toLower s) = true := by rw [← tidy_rel hlow]; exact htidyA
  have htidyL : tidy (toLower (toLower s)) = true := by rw [lower_lower hs]; exact htidy
  have hL : LangRel (TagRel g) (d.lang asciiUni) (d.lang U) := by
    simp only [LangData.ascii, Bool.and_eq_true, List.all_eq_true] at hda
    refine langRel hR hV hd (fun w hw => tag_word (by simpa using hda.1 w hw)) ?_
    intro x hx s hs
    have := hda.2 x hx _ hs
    exact tag_word (by simpa using this)
  have hsep : Rel2 (TagRel g) splitSeparator splitSeparator := tag_word (by decide +kernel)
  have hsimp : Rel2 (TagRel g) b (simplify (d.lang U) (toLower s)) := simplified_rel hR hV (tag_fixed (fixed := []) (fun c hc => by cases hc)) h hb
  have happ := applicable_tokens hR hV hL hsep hskip hsimp
  rw [p4] at happ
  refine ⟨sanitize_clean hclean hs, ?_, ?_⟩
  · rw [normalizeString_ascii hU hs htidy]
    exact pop_none_rel hR htb h p2 p3
  · rw [normalizeString_ascii hU hs htidy]
    unfold isApplicable
    have e1 : normalizeToken U (toLower s) = toLower s := by
      rw [normalizeToken_ascii hU (lower_ascii hs) htidyL, lower_lower hs]
    simp only [e1]
    exact happ.symm

/-- No locale applies. -/
theorem locale_refused {E : Env} {s : ParserSt} {c : PCfg} {l : LocaleInfo} {str : List Char} (hc : Picks E s c l) (hdef : c.defaultLanguages = [])
    (halone : ∀ x, getLocales c.locales (languagesFor E.parts s (c.initiate E.now) x) c.region c.useGivenOrder false = .ok [l.name])
    (hp : Refused E.uni E.table (E.lang l.name) [['t']] str) : (E.parse s (some c) str []).2 = .error .unknownFormat := by
  have hs : E.parts.sanitize str = str := by rw [parts_sanitize, hp.sanitize]
  unfold Env.parse parse
  rw [hc.types]
  show (parseWithTypes E.parts { s with types := defaultTypes } (c.initiate E.now) str []).2 = _
  unfold parseWithTypes
  rw [show (c.initiate E.now).validate = .ok () from hc.valid]
  simp only [parts_formatted, show DateRes.zero.isZero = true from rfl, Bool.not_true, Bool.false_eq_true, if_false, hs]
  have hprev : previousLocale E.parts { s with types := defaultTypes } (c.initiate E.now) (c.initiate E.now).toInternal str = [] := by
    unfold previousLocale
    rcases hc.previous with h | h
    · have : (c.initiate E.now).tryPrevious = false := h
      rw [this]; rfl
    · split
      · show (checkPrevious E.parts _ _ s.used).toList = []
        rw [h]; rfl
      · rfl
  have hg : getApplicableLocales E.parts { s with types := defaultTypes } (c.initiate E.now) (c.initiate E.now).toInternal str = .ok [] := by
    unfold getApplicableLocales
    simp only [hprev]
    have : getLocales (c.initiate E.now).locales (languagesFor E.parts { s with types := defaultTypes } (c.initiate E.now) str)
        (c.initiate E.now).region (c.initiate E.now).useGivenOrder false = .ok [l.name] := halone str
    rw [this]
    simp only [List.map_nil]
    have hli : localeInfos [l.name] = [l] := by
      unfold localeInfos
      rw [List.filterMap_cons_some hc.data]; rfl
    have hds : dateStrings E.parts str = [E.uni.normalizeString str] := by
      unfold dateStrings
      have : E.parts.popTz (E.parts.normalize str) = (E.uni.normalizeString str, none) := hp.zone
      simp only [this]
      rw [parts_normalize]
      simp
    have hno : (dateStrings E.parts str).any (E.parts.applicable (c.initiate E.now).toInternal l) = false := by
      rw [hds]
      simp only [List.any_cons, List.any_nil, Bool.or_false]
      rw [parts_applicable, skip_initiate hc]
      exact hp.applicable
    have hdl : defaultLocales (c.initiate E.now) = [] := by
      unfold defaultLocales
      have : (c.initiate E.now).defaultLanguages = [] := hdef
      rw [this]; rfl
    rw [hli, hdl]
    unfold applicableLoop
    simp [hno, applicableLoop]
  rw [hg]
  simp [localeLoop]

/-! ## Names do not matter -/

theorem splitByKnown_name (U : Uni) (L : Lang) (n : Name) (keep : Bool) (k : Nat) (s : List Char) :
    splitByKnownFuel U { L with name := n } keep k s = splitByKnownFuel U L keep k s := by
  induction k generalizing s with
  | zero => rfl
  | succ k ih =>
    unfold splitByKnownFuel
    rw [show findKnown U { L with name := n } s = findKnown U L s from rfl]
    cases findKnown U L s with
    | none => rfl
    | some x => simp only [ih]

theorem splitText_name (U : Uni) (L : Lang) (n : Name) (s : List Char) (keep : Bool) (skip : List (List Char)) :
    splitText U { L with name := n } s keep skip = splitText U L s keep skip := by
  unfold splitText splitRaw splitByKnown
  simp only [splitByKnown_name]

/-- The name of a locale does not matter for the check, but for Finnish. -/
theorem applicable_name (U : Uni) (d : LangData) (n m : Name) (hn : n ≠ ['f', 'i']) (hm : m ≠ ['f', 'i']) (skip : List (List Char)) (s : List Char) :
    isApplicable U ({ d with name := n }.lang U) skip s = isApplicable U ({ d with name := m }.lang U) skip s := by
  have e : ∀ k : Name, k ≠ ['f', 'i'] → mapSkippedTokens skip ({ d with name := k }.lang U) = skip := by
    intro k hk
    unfold mapSkippedTokens
    exact if_neg hk
  have key : ∀ k : Name, k ≠ ['f', 'i'] → isApplicable U ({ d with name := k }.lang U) skip s =
      (((splitText U (d.lang U) (simplify (d.lang U) (normalizeToken U s)) false skip).filter alwaysKept).length !=
        (splitText U (d.lang U) (simplify (d.lang U) (normalizeToken U s)) false skip).length &&
      (splitText U (d.lang U) (simplify (d.lang U) (normalizeToken U s)) false skip).all fun token =>
        isNumberOnly U token || (d.lang U).inDictionary token || skip.contains token || ((d.lang U).rxExact.map (·.matches token)).getD false) := by
    intro k hk
    unfold isApplicable
    rw [e k hk]
    have : splitText U ({ d with name := k }.lang U) (simplify ({ d with name := k }.lang U) (normalizeToken U s)) false skip =
        splitText U (d.lang U) (simplify (d.lang U) (normalizeToken U s)) false skip :=
      splitText_name U (d.lang U) k _ _ _
    simp only [this]
    rfl
  rw [key n hn, key m hm]


theorem translate_name (U : Uni) (d : LangData) (n m : Name) (hn : n ≠ ['f', 'i']) (hm : m ≠ ['f', 'i']) (skip : List (List Char)) (s : List Char) (keep : Bool) :
    translate U ({ d with name := n }.lang U) skip s keep = translate U ({ d with name := m }.lang U) skip s keep := by
  have key : ∀ k : Name, k ≠ ['f', 'i'] → translate U ({ d with name := k }.lang U) skip s keep =
      (createPermutation ((splitText U (d.lang U) (simplify (d.lang U) (normalizeToken U s)) keep skip).map (translateToken (d.lang U) skip keep))).map
        (·.map (finishTokens keep)) := by
    intro k hk
    unfold translate
    have e : mapSkippedTokens skip ({ d with name := k }.lang U) = skip := by
      unfold mapSkippedTokens
      exact if_neg hk
    rw [e]
    have : splitText U ({ d with name := k }.lang U) (simplify ({ d with name := k }.lang U) (normalizeToken U s)) keep skip =
        splitText U (d.lang U) (simplify (d.lang U) (normalizeToken U s)) keep skip :=
      splitText_name U (d.lang U) k _ _ _
    simp only [this]
    rfl
  rw [key n hn, key m hm]

theorem Passed.rename {U : Uni} {tb : List TzEntry} {d : LangData} {n : Name} (m : Name) (hn : n ≠ ['f', 'i']) (hm : m ≠ ['f', 'i'])
    {skip : List (List Char)} {s t : List Char} (h : Passed U tb ({ d with name := n }.lang U) skip s t) : Passed U tb ({ d with name := m }.lang U) skip s t :=
  ⟨⟨h.sanitize, h.stamp, h.negStamp, by rw [applicable_name U d m n hm hn]; exact h.applicable,
    by rw [translate_name U d m n hm hn]; exact h.translate, h.braces⟩, h.zone⟩

end Verif.Lemmas
