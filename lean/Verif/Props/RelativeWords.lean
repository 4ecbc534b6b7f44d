import Verif.Spec.Regional
import Verif.Lemmas.PhraseTables
import Verif.Props.EnglishRelative
import Verif.Props.Words
/-! # C55: words for relative dates in the language of the locale -/
set_option autoImplicit false
namespace Verif.Props
open Verif.Go Verif.Model Verif.Data Verif.Lemmas Verif.Spec

/-- What a relative date of the locale data has to satisfy. -/
def meaningOk (x : String × Int × RelUnit) : Bool :=
  decide (x.1.toList = (RelForm.phrase (wordForm x.2.1) (wordAmount x.2.1) x.2.2).text) && plainValue x.1.toList && (x.1.toList.all fun c => foldC c == c) &&
    !mayHaveZone x.1.toList && !(wordAmount x.2.1).isEmpty && ((wordAmount x.2.1).all Char.isDigit) && decide (number (wordAmount x.2.1) = x.2.1.natAbs) && decide (x.2.1.natAbs ≤ 10)

theorem meanings_ok : relativeMeanings.all meaningOk = true := by decide +kernel

/-- The whole call on a text that a locale translates to a relative date. -/
theorem locale_phrase {E : Env} (hE : Surroundings E) {l : LocaleInfo} {s : ParserSt} {c : PCfg} (hc : Picks E s c l) {str : List Char} (f : RelForm) (n : List Char)
    (u : RelUnit) (hn : IsNumeral n) (hr : number n ≤ 2562047)
    (hp : Reached E.uni (E.lang l.name) [['t']] str (RelForm.phrase f n u).text)
    (hzone : popTzOffset E.table (RelForm.phrase f n u).text = ((RelForm.phrase f n u).text, none))
    (hclock : u.isClock = true → FirmClock (zonedBase c E.now))
    (hnz : (u.shift c.preserveEndOfMonth (f.sign * number n) (zonedBase c E.now)).isZero = false) :
    (E.parse s (some c) str []).2 = .ok {
      locale := l.name, period := u.period c.timeAsPeriod
      time := u.shift c.preserveEndOfMonth (f.sign * number n) (zonedBase c E.now) } := by
  have h0 : 0 ≤ number n := number_nonneg hn
  have hnow : nowIn (cfgIn l c E.now) E.now none = zonedBase c E.now := nowIn_base c E.now (base_notZero hE c)
  have hrel := C16_relative (popTzOffset E.table) E.big (cfgIn l c E.now) E.now none (RelForm.phrase f n u) (phrase_ok f hn u) (phrase_tail f n u)
    (phrase_whole f n u) (phrase_range f h0 hr u) hzone
  rw [hnow, phrase_period, phrase_moment f n u (cfgIn l c E.now) (zonedBase c E.now) hclock] at hrel
  refine locale_relative hE hc hp _ hrel ?_
  unfold DateRes.isZero
  simp only [Bool.or_eq_false_iff]
  refine ⟨?_, hnz⟩
  cases u <;> cases (cfgIn l c E.now).timeAsPeriod <;> rfl

/-- Such phrases pass the stages before the individual parsers. -/
theorem phrase_passed {E : Env} (hE : Surroundings E) (hD : HasLocaleData E) {x : LangData × Option LangData} (hx : x ∈ allLangs)
    {W w v : List Char} (hW : IsPhrase E.uni W) (hWr : ∀ c ∈ W, c ∉ replacedChars) (hw : IsPhrase E.uni w)
    (h1 : Normalizes E.uni W w) (h2 : Normalizes E.uni w w) (hv : (mergeLang x.2 x.1).relativeType.lookup w = some v) (hu : (x.1.name, w) ∉ rewrittenPhrases)
    (hp : plainValue v = true) : Reached E.uni (E.lang x.1.name) [['t']] W v := by
  have hr := phrases_read hx
  simp only [phrasesRead, mergeLangC_eq, List.all_eq_true] at hr
  have hr := hr _ (lookup_found hv)
  simp only [Bool.or_eq_true] at hr
  have hph : PhraseOk (mergeLang x.2 x.1) w := by
    rcases hr with (hr | hr) | hr
    · obtain ⟨c, hc, h⟩ := List.any_eq_true.mp hr
      simp only [Bool.and_eq_true, decide_eq_true_eq, Bool.not_eq_true'] at h
      rcases hw.chars c hc with rfl | rfl | rfl | hh
      · exact absurd h.2 (by decide)
      · exact absurd h.2 (by decide)
      · exact absurd h.2 (by decide)
      · rw [wordChar_ascii hE.uni hh h.1.1] at h
        exact absurd h.1.2 (by simp)
    · rw [List.contains_iff_mem] at hr
      exact absurd hr hu
    · exact phraseOk_iff hr
  rw [hD x hx]
  exact phrase_reached hE.uni hph hw hW hWr h1 h2 hv hp

/-- **C55** `Parse` asked for any supported locale, on a word or phrase that the data of the locale give for a relative date ("gestern", "вчера", "la semaine dernière"),
in any letter case or accentuation that becomes that phrase, gives the base time, in the zone that applies, moved by exactly the amount the data give. -/
theorem C55_relative_phrase {E : Env} (hE : Surroundings E) (hD : HasLocaleData E) {l : LocaleInfo} {s : ParserSt} {c : PCfg} (hc : AsksOnly l s c)
    (W w : List Char) (k : Int) (u : RelUnit) (hW : IsPhrase E.uni W) (hWr : ∀ c ∈ W, c ∉ replacedChars) (hw : IsPhrase E.uni w)
    (h1 : Normalizes E.uni W w) (h2 : Normalizes E.uni w w) (hm : RelativeWord l.name w k u) (hu : (l.name, w) ∉ rewrittenPhrases)
    (hclock : u.isClock = true → FirmClock (zonedBase c E.now))
    (hnz : (u.shift c.preserveEndOfMonth k (zonedBase c E.now)).isZero = false) :
    (E.parse s (some c) W []).2 = .ok {
      locale := l.name, period := u.period c.timeAsPeriod
      time := u.shift c.preserveEndOfMonth k (zonedBase c E.now) } := by
  obtain ⟨x, hx, hxn, v, hv, hmem⟩ := hm
  have hok := List.all_eq_true.mp meanings_ok _ hmem
  simp only [meaningOk, Bool.and_eq_true, Bool.not_eq_true', decide_eq_true_eq] at hok
  obtain ⟨⟨⟨⟨⟨⟨⟨o1, o2⟩, o3⟩, o4⟩, o5⟩, o6⟩, o7⟩, o8⟩ := hok
  have hreach := phrase_passed hE hD hx hW hWr hw h1 h2 hv (by rw [hxn]; exact hu) o2
  rw [hxn, o1] at hreach
  have hzone : popTzOffset E.table (RelForm.phrase (wordForm k) (wordAmount k) u).text = ((RelForm.phrase (wordForm k) (wordAmount k) u).text, none) := by
    rw [← o1]
    exact pop_none hE.table (fun c hc => by simpa using List.all_eq_true.mp o3 c hc) o4
  have hsign : (wordForm k).sign * number (wordAmount k) = k := by
    rw [o7]
    unfold wordForm
    split <;> simp only [RelForm.sign] <;> omega
  have := locale_phrase hE hc.picks (wordForm k) (wordAmount k) u ⟨(by intro e; rw [e] at o5; simp at o5), fun c hc => List.all_eq_true.mp o6 c hc⟩ (by omega) hreach hzone hclock
    (by rw [hsign]; exact hnz)
  rwa [hsign] at this

/-! ## All the phrases of the data -/

/-- The data of every supported locale, merged with those of its parent, give one of the listed meanings to every phrase, but for the phrases listed here. -/
theorem C55_meanings : ∀ x ∈ allLangs, ∀ w v, (mergeLang x.2 x.1).relativeType.lookup w = some v →
    (∃ k u, (String.ofList v, k, u) ∈ relativeMeanings) ∨ v = "in 2 days".toList ∨ v ∈ bareAmounts := by
  have key : (allLangs.all fun x => (x.1.relativeType ++ ((x.2.map (·.relativeType)).getD [])).all fun t =>
      (relativeMeanings.map (·.1.toList)).contains t.2 || decide (t.2 = "in 2 days".toList) || bareAmounts.contains t.2) = true := by decide +kernel
  intro x hx w v hv
  have hin : (w, v) ∈ x.1.relativeType ++ ((x.2.map (·.relativeType)).getD []) := by
    cases hp : x.2 with
    | none => rw [hp] at hv; exact List.mem_append.mpr (Or.inl (lookup_found hv))
    | some p =>
      rw [hp] at hv
      have h := (C43_merge p x.1).relative w
      rw [h] at hv
      cases e : p.relativeType.lookup w with
      | some v' =>
        rw [e] at hv
        cases hv
        exact List.mem_append.mpr (Or.inr (lookup_found e))
      | none =>
        rw [e] at hv
        exact List.mem_append.mpr (Or.inl (lookup_found hv))
  have := List.all_eq_true.mp (List.all_eq_true.mp key x hx) _ hin
  simp only [Bool.or_eq_true, List.contains_iff_mem, decide_eq_true_eq] at this
  rcases this with (h | h) | h
  · left
    obtain ⟨⟨a, k, u⟩, hy, e⟩ := List.mem_map.mp h
    refine ⟨k, u, ?_⟩
    simp only at e
    rw [← e, String.ofList_toList]; exact hy
  · exact Or.inr (Or.inl h)
  · exact Or.inr (Or.inr h)

theorem alpha_word {U : Uni} (hU : AsciiUni U) {c : Char} (h : c.isAlpha = true) : WordChar U c :=
  (ascii_word hU (W := [c]) (by simp) (by simpa using h)).chars c (by simp)

theorem lower_space {c : Char} : toLowerC c = ' ' ↔ c = ' ' := by
  unfold toLowerC
  split
  · rename_i h
    constructor
    · intro e
      have : (Char.ofNat (c.toNat + 32)).toNat = 32 := by rw [e]; rfl
      have h1 : (65 : Nat) ≤ c.toNat := h.1
      have h2 : c.toNat ≤ 90 := h.2
      have hk : ∀ n < 91, 65 ≤ n → (Char.ofNat (n + 32)).toNat ≠ 32 := by decide +kernel
      exact absurd this (hk _ (by omega) h1)
    · rintro rfl; exact absurd h.1 (by decide)
  · exact Iff.rfl

/-- Phrases of ASCII letters, apostrophes and hyphens. -/
structure AsciiPhrase (W : List Char) : Prop where
  chars : ∀ c ∈ W, c = ' ' ∨ c = '\'' ∨ c = '-' ∨ c.isAlpha = true
  letter : ∃ c ∈ W, c.isAlpha = true
  first : W.head? ≠ some ' '
  last : W.getLast? ≠ some ' '
  single : ∀ a b, W ≠ a ++ ' ' :: ' ' :: b

theorem AsciiPhrase.phrase {U : Uni} (hU : AsciiUni U) {W : List Char} (h : AsciiPhrase W) : IsPhrase U W := by
  refine ⟨fun c hc => ?_, ?_, h.first, h.last, h.single⟩
  · rcases h.chars c hc with h | h | h | h
    · exact Or.inl h
    · exact Or.inr (Or.inl h)
    · exact Or.inr (Or.inr (Or.inl h))
    · exact Or.inr (Or.inr (Or.inr (alpha_word hU h)))
  · obtain ⟨c, hc, h⟩ := h.letter
    exact ⟨c, hc, by rw [hU.isLetter c (alpha_ascii h)]; exact h⟩

theorem AsciiPhrase.ascii {W : List Char} (h : AsciiPhrase W) : ∀ c ∈ W, c.toNat < 128 := by
  intro c hc
  rcases h.chars c hc with rfl | rfl | rfl | h
  · decide
  · decide
  · decide
  · exact alpha_ascii h

theorem AsciiPhrase.kept {W : List Char} (h : AsciiPhrase W) : ∀ c ∈ W, c ∉ replacedChars := by
  intro c hc
  rcases h.chars c hc with rfl | rfl | rfl | h
  · decide +kernel
  · decide +kernel
  · decide +kernel
  · exact alpha_kept h

theorem AsciiPhrase.normalizes {U : Uni} (hU : AsciiUni U) {W : List Char} (h : AsciiPhrase W) : Normalizes U W (toLower W) := by
  unfold Normalizes
  rw [hU.nfkc _ h.ascii, hU.lower _ h.ascii]

theorem AsciiPhrase.lower {W : List Char} (h : AsciiPhrase W) : AsciiPhrase (toLower W) := by
  refine ⟨fun c hc => ?_, ?_, ?_, ?_, ?_⟩
  · obtain ⟨b, hb, rfl⟩ := List.mem_map.mp hc
    rcases h.chars b hb with rfl | rfl | rfl | h
    · exact Or.inl (by decide)
    · exact Or.inr (Or.inl (by decide))
    · exact Or.inr (Or.inr (Or.inl (by decide)))
    · exact Or.inr (Or.inr (Or.inr (alpha_lower (W := [b]) (by simpa using h) _ (by simp [toLower]))))
  · obtain ⟨c, hc, h⟩ := h.letter
    exact ⟨toLowerC c, List.mem_map_of_mem hc, alpha_lower (W := [c]) (by simpa using h) _ (by simp [toLower])⟩
  · intro e
    unfold toLower at e
    rw [List.head?_map] at e
    cases hh : W.head? with
    | none => rw [hh] at e; cases e
    | some c =>
      rw [hh] at e
      have : toLowerC c = ' ' := by simpa using e
      exact h.first (by rw [hh, lower_space.mp this])
  · intro e
    unfold toLower at e
    rw [List.getLast?_map] at e
    cases hh : W.getLast? with
    | none => rw [hh] at e; cases e
    | some c =>
      rw [hh] at e
      have : toLowerC c = ' ' := by simpa using e
      exact h.last (by rw [hh, lower_space.mp this])
  · intro a b e
    unfold toLower at e
    obtain ⟨a', r, e1, e2, e3⟩ := List.map_eq_append_iff.mp e
    obtain ⟨x, r', e4, e5, e6⟩ := List.map_eq_cons_iff.mp e3
    obtain ⟨y, b', e7, e8, e9⟩ := List.map_eq_cons_iff.mp e6
    rw [lower_space] at e5 e8
    subst e5 e8
    exact h.single a' b' (by rw [e1, e4, e7])

/-- **C55** for phrases in ASCII letters, in any letter case. -/
theorem C55_ascii {E : Env} (hE : Surroundings E) (hD : HasLocaleData E) {l : LocaleInfo} {s : ParserSt} {c : PCfg} (hc : AsksOnly l s c)
    (W : List Char) (k : Int) (u : RelUnit) (hW : AsciiPhrase W) (hm : RelativeWord l.name (toLower W) k u) (hu : (l.name, toLower W) ∉ rewrittenPhrases)
    (hclock : u.isClock = true → FirmClock (zonedBase c E.now))
    (hnz : (u.shift c.preserveEndOfMonth k (zonedBase c E.now)).isZero = false) :
    (E.parse s (some c) W []).2 = .ok {
      locale := l.name, period := u.period c.timeAsPeriod
      time := u.shift c.preserveEndOfMonth k (zonedBase c E.now) } := by
  have e : toLower (toLower W) = toLower W := by
    unfold toLower
    rw [List.map_map]
    exact List.map_congr_left fun c _ => toLowerC_idem c
  have h2 := hW.lower.normalizes hE.uni
  rw [e] at h2
  exact C55_relative_phrase hE hD hc W (toLower W) k u (hW.phrase hE.uni) hW.kept (hW.lower.phrase hE.uni) (hW.normalizes hE.uni) h2 hm hu hclock hnz

/-! ## Examples -/

/-- No two spaces in a row. -/
def singleSpaces : List Char → Bool
  | ' ' :: ' ' :: _ => false
  | _ :: r => singleSpaces r
  | [] => true

theorem single_iff {w : List Char} (h : singleSpaces w = true) : ∀ a b, w ≠ a ++ ' ' :: ' ' :: b := by
  induction w with
  | nil => intro a b e; cases a <;> simp at e
  | cons c w ih =>
    intro a b e
    cases a with
    | nil =>
      simp only [List.nil_append, List.cons.injEq] at e
      obtain ⟨rfl, rfl⟩ := e
      simp [singleSpaces] at h
    | cons x a =>
      simp only [List.cons_append, List.cons.injEq] at e
      refine ih ?_ a b e.2
      unfold singleSpaces at h
      split at h
      · cases h
      · rename_i e'; cases e'; exact h
      · rename_i e'; cases e'

example : ((fullEnv demoEnv).parse {} (some (asked "de")) "Gestern".toList []).2 =
    .ok { locale := "de".toList, period := .day, time := goDate 2024 3 14 12 0 0 0 Loc.utc } := by
  have h : getLocaleData "de".toList = some ⟨"de".toList, "DMY".toList, false, 1⟩ := by decide +kernel
  rw [C55_ascii full_ok (full_hasData _) (asked_only h (by decide +kernel)) "Gestern".toList (-1) .day
    ⟨by decide, by decide, by decide, by decide, single_iff (by decide)⟩
    ⟨(deLang, none), List.mem_of_getElem? (i := 68) rfl, by decide +kernel, "1 day ago", by decide +kernel, by decide⟩ (by decide +kernel) (fun h => by cases h) (by decide +kernel)]
  rfl

example : ((fullEnv demoEnv).parse {} (some (asked "fr")) "aujourd'hui".toList []).2 =
    .ok { locale := "fr".toList, period := .day, time := goDate 2024 3 15 12 0 0 0 Loc.utc } := by
  have h : getLocaleData "fr".toList = some ⟨"fr".toList, "DMY".toList, false, 1⟩ := by decide +kernel
  rw [C55_ascii full_ok (full_hasData _) (asked_only h (by decide +kernel)) "aujourd'hui".toList 0 .day
    ⟨by decide, by decide, by decide, by decide, single_iff (by decide)⟩
    ⟨(frLang, none), List.mem_of_getElem? (i := 231) rfl, by decide +kernel, "0 day ago", by decide +kernel, by decide⟩ (by decide +kernel) (fun h => by cases h) (by decide +kernel)]
  rfl

/-- A regional locale: the words are those of its parent. -/
example : ((fullEnv demoEnv).parse {} (some (asked "de-AT")) "letzten Monat".toList []).2 =
    .ok { locale := "de-AT".toList, period := .month, time := goDate 2024 2 15 12 0 0 0 Loc.utc } := by
  have h : getLocaleData "de-AT".toList = some ⟨"de-AT".toList, "DMY".toList, false, 1⟩ := by decide +kernel
  rw [C55_ascii full_ok (full_hasData _) (asked_only h (by decide +kernel)) "letzten Monat".toList (-1) .month
    ⟨by decide, by decide, by decide, by decide, single_iff (by decide)⟩
    ⟨_, List.mem_of_getElem? (i := 69) rfl, by decide +kernel, "1 month ago", by decide +kernel, by decide⟩ (by decide +kernel) (fun h => by cases h) (by decide +kernel)]
  rfl

example : (cyrillicEnv.parse {} (some (asked "ru")) "Вчера".toList []).2 =
    .ok { locale := "ru".toList, period := .day, time := goDate 2024 3 14 12 0 0 0 Loc.utc } := by
  have h : getLocaleData "ru".toList = some ⟨"ru".toList, "DMY".toList, false, 1⟩ := by decide +kernel
  rw [C55_relative_phrase cyrillic_ok (full_hasData _) (asked_only h (by decide +kernel)) "Вчера".toList "вчера".toList (-1) .day
    ⟨fun c hc => Or.inr (Or.inr (Or.inr (cyrillic_wordChars (by decide +kernel) c hc))), by decide +kernel, by decide, by decide, single_iff (by decide)⟩ (by decide +kernel)
    ⟨fun c hc => Or.inr (Or.inr (Or.inr (cyrillic_wordChars (by decide +kernel) c hc))), by decide +kernel, by decide, by decide, single_iff (by decide)⟩
    (by unfold Normalizes; decide +kernel) (by unfold Normalizes; decide +kernel)
    ⟨(ruLang, none), List.mem_of_getElem? (i := 413) rfl, by decide +kernel, "1 day ago", by decide +kernel, by decide⟩ (by decide +kernel) (fun h => by cases h) (by decide +kernel)]
  rfl

/-! ## Not read -/

/-- A text that no parser of the only locale reads. -/
theorem locale_unread {E : Env} {s : ParserSt} {c : PCfg} {l : LocaleInfo} {str : List Char} (hc : Picks E s c l) (hdef : c.defaultLanguages = [])
    (halone : ∀ x, getLocales c.locales (languagesFor E.parts s (c.initiate E.now) x) c.region c.useGivenOrder false = .ok [l.name])
    (hs : sanitizeDate E.uni str = str)
    (ht : typeLoop E.parts (cfgIn l c E.now) l str [] defaultTypes = none) : (E.parse s (some c) str []).2 = .error .unknownFormat := by
  have hs : E.parts.sanitize str = str := by rw [parts_sanitize, hs]
  unfold Env.parse parse
  rw [hc.types]
  show (parseWithTypes E.parts { s with types := defaultTypes } (c.initiate E.now) str []).2 = _
  unfold parseWithTypes
  rw [show (c.initiate E.now).validate = .ok () from hc.valid]
  simp only [parts_formatted, show DateRes.zero.isZero = true from rfl, Bool.not_true, Bool.false_eq_true, if_false, hs]
  have hprev : previousLocale E.parts { s with types := defaultTypes } (c.initiate E.now) (c.initiate E.now).toInternal str = [] := by
    unfold previousLocale
    rcases hc.previous with h | h
    · have : (c.initiate E.now).tryPrevious = false := h
      rw [this]; rfl
    · split
      · show (checkPrevious E.parts _ _ s.used).toList = []
        rw [h]; rfl
      · rfl
  have hg : getApplicableLocales E.parts { s with types := defaultTypes } (c.initiate E.now) (c.initiate E.now).toInternal str = .ok [] ∨
      getApplicableLocales E.parts { s with types := defaultTypes } (c.initiate E.now) (c.initiate E.now).toInternal str = .ok [l] := by
    unfold getApplicableLocales
    simp only [hprev]
    have : getLocales (c.initiate E.now).locales (languagesFor E.parts { s with types := defaultTypes } (c.initiate E.now) str)
        (c.initiate E.now).region (c.initiate E.now).useGivenOrder false = .ok [l.name] := halone str
    rw [this]
    simp only [List.map_nil]
    have hli : localeInfos [l.name] = [l] := by
      unfold localeInfos
      rw [List.filterMap_cons_some hc.data]; rfl
    have hdl : defaultLocales (c.initiate E.now) = [] := by
      unfold defaultLocales
      have : (c.initiate E.now).defaultLanguages = [] := hdef
      rw [this]; rfl
    rw [hli, hdl]
    unfold applicableLoop
    by_cases hno : (dateStrings E.parts str).any (E.parts.applicable (c.initiate E.now).toInternal l) = true
    · right; simp [hno, applicableLoop]
    · left; simp [hno, applicableLoop]
  rcases hg with hg | hg <;> rw [hg]
  · simp [localeLoop]
  · have : localeLoop E.parts (c.initiate E.now) (c.initiate E.now).toInternal defaultTypes str [] [l] = none := by
      unfold localeLoop
      rw [show typeLoop E.parts (localeCfg (c.initiate E.now) (c.initiate E.now).toInternal l) l str [] defaultTypes = none from ht]
      rfl
    simp [this]

/-- **C55, not everywhere.** The Slovak "pozajtra", the day after tomorrow, is not read: data/sk.go:134 has "in 2 days" for it, with a plural that the
parser of relative dates does not know (relative/parser.go:23). -/
theorem C55_pozajtra : ((fullEnv demoEnv).parse {} (some (asked "sk")) "pozajtra".toList []).2 = .error .unknownFormat ∧
    ((mergeLang none skLang).relativeType.lookup "pozajtra".toList = some "in 2 days".toList) := by
  refine ⟨?_, by decide +kernel⟩
  have h : getLocaleData "sk".toList = some ⟨"sk".toList, "DMY".toList, false, 1⟩ := by decide +kernel
  have hc := (asked_only h (by decide +kernel)).picks (E := fullEnv demoEnv)
  have ha : AsciiPhrase "pozajtra".toList := ⟨by decide, by decide, by decide, by decide, single_iff (by decide)⟩
  have hl : Normalizes (fullEnv demoEnv).uni "pozajtra".toList "pozajtra".toList := ha.normalizes full_ok.uni
  have hr := phrase_passed full_ok (full_hasData _) (x := (skLang, none)) (List.mem_of_getElem? (i := 434) rfl) (ha.phrase full_ok.uni) ha.kept (ha.phrase full_ok.uni) hl hl
    (show (mergeLang none skLang).relativeType.lookup "pozajtra".toList = some "in 2 days".toList by decide +kernel) (by decide +kernel) (by decide +kernel)
  have hz : popTzOffset (fullEnv demoEnv).table "in 2 days".toList = ("in 2 days".toList, none) := pop_none full_ok.table (by decide +kernel) (by decide +kernel)
  refine locale_unread hc rfl (fun _ => by show getLocales ["sk".toList] [] [] false false = .ok ["sk".toList]; decide +kernel) hr.sanitize ?_
  unfold defaultTypes
  have ht : (fullEnv demoEnv).parts.translate (cfgIn ⟨"sk".toList, "DMY".toList, false, 1⟩ (asked "sk") (fullEnv demoEnv).now) ⟨"sk".toList, "DMY".toList, false, 1⟩ "pozajtra".toList false =
      ["in 2 days".toList] := translate_parts full_ok hc hr
  have hst : stripTz (fullEnv demoEnv).parts "in 2 days".toList = ("in 2 days".toList, none) := by rw [parts_strip, hr.braces, hz]
  rw [typeLoop_skip (by rw [tryType, parts_stamp, no_stamp _ _ hr.stamp]; rfl),
    typeLoop_skip (by rw [tryType, parts_stamp, no_negStamp _ _ hr.negStamp]; rfl),
    typeLoop_skip (by
      rw [tryType, ht]
      have : (fullEnv demoEnv).parts.relative (cfgIn ⟨"sk".toList, "DMY".toList, false, 1⟩ (asked "sk") (fullEnv demoEnv).now) "in 2 days".toList = { period := .none, time := Time.zero } := by
        rw [parts_relative]
        unfold relativeParse
        rw [hr.braces, hz]
        unfold relParseAfterTz
        simp only [noAmount_none (show noAmount "in 2 days".toList = true by decide +kernel)]
      unfold tryRelative
      rw [this]
      rfl),
    typeLoop_skip (by rw [tryType]; exact custom_zero (fullEnv demoEnv).parts (fun _ _ => by rw [parts_formatted]; rfl) _ _),
    typeLoop_skip (by
      rw [tryType, ht]
      unfold tryAbsolute
      simp only [hst]
      decide +kernel),
    typeLoop_skip (by
      rw [tryType, ht]
      unfold tryNospace
      simp only [hst]
      decide +kernel)]
  rfl

/-! ## Regional locales -/

theorem parent_relative : (allLangs.all fun x => match x.2 with
    | none => true
    | some p => allLangs.all fun y => y.1.name != p.name || (y.2.isNone && decide (y.1.relativeType = p.relativeType))) = true := by decide +kernel

/-- A relative word or phrase of a language is one, with the same meaning, of each of its regional locales. -/
theorem relative_inherited {n r : Name} {w : List Char} {k : Int} {u : RelUnit} (h : RelativeWord n w k u) (hr : RegionOf r n) : RelativeWord r w k u := by
  obtain ⟨y, hy, hyn, v, hv, hm⟩ := h
  obtain ⟨x, hx, hxr, p, hp, hpn⟩ := hr
  refine ⟨x, hx, hxr, v, ?_, hm⟩
  have := List.all_eq_true.mp parent_relative x hx
  rw [hp] at this
  have := List.all_eq_true.mp this y hy
  simp only [Bool.or_eq_true, bne_iff_ne, ne_eq, Bool.and_eq_true, Option.isNone_iff_eq_none, decide_eq_true_eq] at this
  rcases this with h | ⟨h1, h2⟩
  · exact absurd (by rw [hyn, hpn]) h
  · rw [hp, (C43_merge p x.1).relative w, ← h2]
    rw [h1] at hv
    have hv : y.1.relativeType.lookup w = some v.toList := hv
    rw [hv]; rfl

/-- **C43 (part)** A relative word or phrase that is read with a language is read with each of its regional locales, as the same time. -/
theorem C43_regional_relative_partial {E : Env} (hE : Surroundings E) (hD : HasLocaleData E) {l r : LocaleInfo} {s s' : ParserSt} {c c' : PCfg} (hc : AsksOnly l s c)
    (hc' : AsksOnly r s' c') (hr : RegionOf r.name l.name) (hbase : c'.preserveEndOfMonth = c.preserveEndOfMonth ∧ c'.timeAsPeriod = c.timeAsPeriod ∧ zonedBase c' E.now = zonedBase c E.now)
    (W w : List Char) (k : Int) (u : RelUnit) (hW : IsPhrase E.uni W) (hWr : ∀ c ∈ W, c ∉ replacedChars) (hw : IsPhrase E.uni w)
    (h1 : Normalizes E.uni W w) (h2 : Normalizes E.uni w w) (hm : RelativeWord l.name w k u) (hu : (l.name, w) ∉ rewrittenPhrases) (hu' : (r.name, w) ∉ rewrittenPhrases)
    (hclock : u.isClock = true → FirmClock (zonedBase c E.now))
    (hnz : (u.shift c.preserveEndOfMonth k (zonedBase c E.now)).isZero = false) :
    ∃ d, (E.parse s (some c) W []).2 = .ok d ∧ d.locale = l.name ∧ (E.parse s' (some c') W []).2 = .ok { d with locale := r.name } := by
  have e1 := C55_relative_phrase hE hD hc W w k u hW hWr hw h1 h2 hm hu hclock hnz
  have e2 := C55_relative_phrase hE hD hc' W w k u hW hWr hw h1 h2 (relative_inherited hm hr) hu' (by rw [hbase.2.2]; exact hclock) (by rw [hbase.1, hbase.2.2]; exact hnz)
  rw [hbase.1, hbase.2.1, hbase.2.2] at e2
  exact ⟨_, e1, rfl, e2⟩

example : RegionOf "de-AT".toList "de".toList := ⟨_, List.mem_of_getElem? (i := 69) rfl, by decide +kernel, deLang, rfl, by decide +kernel⟩

end Verif.Props
