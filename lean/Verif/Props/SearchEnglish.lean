import Verif.Lemmas.SearchParse
import Verif.Lemmas.SearchZone
import Verif.Props.Detect
/-! # C49: the dates in English texts, from the call of `Search` to its result -/
set_option autoImplicit false
namespace Verif.Props
open Verif.Go Verif.Model Verif.Data Verif.Lemmas Verif.Spec
open Verif.Spec (Piece)

theorem text_dates (closed : List (List Spec.Piece × Char)) (last : List Spec.Piece) :
    (textStretches (closed.map (·.1) ++ [last])).flatMap datesOf = datesInText closed last := by
  unfold textStretches datesInText
  have h1 : ∀ S : List (List Spec.Piece), (S.filter (!·.isEmpty)).flatMap datesOf = S.flatMap datesOf := by
    intro S
    induction S with
    | nil => rfl
    | cons s S ih =>
      rw [List.filter_cons]
      cases s with
      | nil => simpa [datesOf] using ih
      | cons p s =>
        rw [if_pos (by simp), List.flatMap_cons, List.flatMap_cons, ih]
  rw [h1]
  generalize closed.map (·.1) ++ [last] = sents
  induction sents with
  | nil => rfl
  | cons ps sents ih =>
    rw [List.flatMap_cons, List.flatMap_append, ih, List.flatMap_cons]
    rfl

/-- **C49.** `SearchWithLanguage` for English on any text made of sentences of other words, link words and dates finds exactly
the dates: one result for each, in order, with the text of the date and of the link words beside it, that day at midnight. -/
theorem C49_search_with_language {E : Env} (hE : Sound E) (compose : List Char → List Char) (detect : Option (List Char → List Name))
    {c : PCfg} (hc : SearchCfg c) {s : ParserSt} (hs : FreshTypes s) (closed : List (List Spec.Piece × Char)) (last : List Spec.Piece) (stop : List Char)
    (h : PlainText E.table closed last stop) (hz : SearchZones c ((datesInText closed last).map (·.1.midnight))) :
    ∃ out, searchIn (E.searchWorld compose detect) (some c) ['e', 'n'] (writeText closed last stop) s = some (.ok out) ∧
      out.length = (datesInText closed last).length ∧ ∀ q ∈ (datesInText closed last).zip out, FoundDate q.1.1 q.1.2 q.2 := by
  have hinit : initSearchConfig E.now (some c) = .ok (searchCfg c) := by rw [initSearchConfig_eq]; simp [hc.valid]
  have hc' : SearchCfg (searchCfg c) := by
    refine ⟨hc.valid, Or.inr ?_⟩
    unfold searchCfg
    rcases hc.skip with h | h <;> simp [h]
  have hdata : (E.searchWorld compose detect).data ['e', 'n'] = some (enData.lang E.uni, (charsets.lookup ['e', 'n']).getD []) := by
    unfold Env.searchWorld
    simp only [en_found, Option.map_some, hE.english]
  have hbase : FineBase ((datesInText closed last).map (·.1.midnight))
      (if (searchCfg c).currentTime.isZero then none else some (searchCfg c).currentTime) := by
    intro u hu
    split at hu
    · simp at hu
    · rename_i hnz
      injection hu with hu
      have e : (searchCfg c).currentTime = c.currentTime ∧ c.currentTime.isZero = false := by
        unfold searchCfg at hnz ⊢
        cases hq : c.currentTime.isZero with
        | false => simp
        | true => rw [hq] at hnz; exact absurd (by decide : Time.zero.isZero = true) hnz
      rw [← hu, e.1]
      exact ⟨e.2, hz.noJump e.2, hz.base e.2⟩
  have hall : ∀ ps ∈ closed.map (·.1) ++ [last], PlainSentence E.table ps := by
    intro ps hps
    rcases List.mem_append.mp hps with hps | hps
    · obtain ⟨x, hx, rfl⟩ := List.mem_map.mp hps
      exact (h.sentences x hx).1
    · simp at hps; subst hps; exact h.final
  have hok : ∀ x ∈ textStretches (closed.map (·.1) ++ [last]), StretchOk x ∧ x ≠ [] := by
    intro x hx
    obtain ⟨hx, hne⟩ := List.mem_filter.mp hx
    obtain ⟨ps, hps, hx⟩ := List.mem_flatMap.mp hx
    exact ⟨stretch_ok (hall ps hps) x hx, by simpa using hne⟩
  have hw : ∀ x ∈ textStretches (closed.map (·.1) ++ [last]), ∀ q ∈ datesOf x, q.1.midnight ∈ (datesInText closed last).map (·.1.midnight) := by
    intro x hx q hq
    refine List.mem_map.mpr ⟨q, ?_, rfl⟩
    rw [← text_dates]
    exact List.mem_flatMap.mpr ⟨x, hx, hq⟩
  obtain ⟨st', rs, e, hl, hf⟩ := found_dates hE hc' (walls := (datesInText closed last).map (·.1.midnight)) hz.dflt
    (if (searchCfg c).currentTime.isZero then (none : Option Time) else some (searchCfg c).currentTime).isNone
    (textStretches (closed.map (·.1) ++ [last])) [] (s, if (searchCfg c).currentTime.isZero then none else some (searchCfg c).currentTime) [] []
    hok hw hs hbase (by simp)
  rw [text_dates] at hl hf
  simp only [List.nil_append, List.length_nil] at e
  refine ⟨rs, ?_, hl, hf⟩
  unfold searchIn
  rw [show (E.searchWorld compose detect).now = E.now from rfl, hinit]
  dsimp only
  rw [hdata]
  dsimp only
  unfold searchWithLanguage
  rw [show (E.searchWorld compose detect).uni = E.uni from rfl, show (E.searchWorld compose detect).isTz = wordIsTz E.table from rfl,
    show (E.searchWorld compose detect).parser = E.searchParser from rfl, text_chunks hE.uni h]
  simp only [Option.bind_eq_bind, Option.bind_some]
  unfold parseFoundObjects
  have hT : (!((['e', 'n'] : List Char) == ['v', 'i'] || (['e', 'n'] : List Char) == ['h', 'u'])) = true := by decide
  rw [hT, if_pos rfl, e]
  simp [List.zip_map', List.map_map, Function.comp_def]

/-- **C49.** The same for `Search` whenever it takes the text for English. -/
theorem C49_search {E : Env} (hE : Sound E) (compose : List Char → List Char) (detect : Option (List Char → List Name))
    {c : PCfg} (hc : SearchCfg c) {st : SearchSt ParserSt} (hs : FreshTypes st.parser) (closed : List (List Spec.Piece × Char)) (last : List Spec.Piece)
    (stop : List Char) (h : PlainText E.table closed last stop) (hz : SearchZones c ((datesInText closed last).map (·.1.midnight)))
    (ht : SearchTakes (E.searchWorld compose detect) st (some c) (writeText closed last stop) ['e', 'n']) :
    ∃ out, (search (E.searchWorld compose detect) st (some c) (writeText closed last stop)).map (·.2) = some (.ok (['e', 'n'], out)) ∧
      out.length = (datesInText closed last).length ∧ ∀ q ∈ (datesInText closed last).zip out, FoundDate q.1.1 q.1.2 q.2 := by
  obtain ⟨out, e, hl, hf⟩ := C49_search_with_language hE compose detect hc hs closed last stop h hz
  unfold SearchTakes at ht
  rw [e] at ht
  exact ⟨out, ht, hl, hf⟩

/-! ## Only English asked for -/

theorem fieldsAux_mem {c : Char} (hc : isSpace c = false) : ∀ (s cur : List Char), c ∈ cur ∨ c ∈ s → ∃ w ∈ fieldsAux s cur, c ∈ w := by
  intro s
  induction s with
  | nil =>
    intro cur h
    unfold fieldsAux
    rcases h with h | h
    · rw [if_neg (by cases cur <;> simp at h ⊢)]
      exact ⟨cur.reverse, by simp, by simpa using h⟩
    · simp at h
  | cons a s ih =>
    intro cur h
    unfold fieldsAux
    have hcase : c ∈ cur ∨ c = a ∨ c ∈ s := by simpa using h
    cases ha : isSpace a with
    | true =>
      simp only [if_true]
      have hca : c ≠ a := by rintro rfl; rw [ha] at hc; simp at hc
      have hcase : c ∈ cur ∨ c ∈ s := by rcases hcase with h | h | h
                                         · exact Or.inl h
                                         · exact absurd h hca
                                         · exact Or.inr h
      cases he : cur.isEmpty with
      | true =>
        simp only [if_true]
        refine ih [] (Or.inr ?_)
        rcases hcase with h | h
        · cases cur <;> simp at he h
        · exact h
      | false =>
        simp only [Bool.false_eq_true, if_false]
        rcases hcase with h | h
        · exact ⟨cur.reverse, by simp, by simpa using h⟩
        · obtain ⟨w, hw, hcw⟩ := ih [] (Or.inr h)
          exact ⟨w, by simp [hw], hcw⟩
    | false =>
      simp only [Bool.false_eq_true, if_false]
      refine ih (a :: cur) ?_
      rcases hcase with h | h | h
      · exact Or.inl (by simp [h])
      · exact Or.inl (by simp [h])
      · exact Or.inr h

theorem mem_joinWith {c : Char} {sep : List Char} : ∀ {l : List (List Char)} {w : List Char}, w ∈ l → c ∈ w → c ∈ joinWith sep l
  | [x], w, hw, hc => by simp at hw; subst hw; exact hc
  | x :: y :: r, w, hw, hc => by
    simp only [joinWith, List.append_assoc, List.mem_append]
    rcases List.mem_cons.mp hw with rfl | hw
    · exact Or.inl hc
    · exact Or.inr (Or.inr (mem_joinWith hw hc))

theorem splitGo_keeps {c d : Char} (h : c ≠ d) : ∀ (s acc : List Char), c ∈ acc ∨ c ∈ s → c ∈ (splitGo [d] 0 acc s).flatten := by
  intro s
  induction s with
  | nil => intro acc hc; simpa [splitGo] using hc
  | cons a s ih =>
    intro acc hc
    have hcase : c ∈ acc ∨ c = a ∨ c ∈ s := by simpa using hc
    unfold splitGo
    split
    · rename_i hp
      have : a = d := by simpa [List.isPrefixOf] using (eq_comm.mp (by simpa [List.isPrefixOf] using hp : d = a))
      subst this
      simp only [List.flatten_cons, List.mem_append, List.length_cons, List.length_nil]
      rcases hcase with h1 | h1 | h1
      · exact Or.inl (by simpa using h1)
      · exact absurd h1 h
      · exact Or.inr (ih [] (Or.inr h1))
    · refine ih (a :: acc) ?_
      rcases hcase with h1 | h1 | h1
      · exact Or.inl (by simp [h1])
      · exact Or.inl (by simp [h1])
      · exact Or.inr h1

theorem normalized_mem {E : DetectEnv} (hE : DetectSound E) {text : List Char} (ha : ∀ c ∈ text, c.toNat < 128) {c : Char} (hc : c ∈ text)
    (hp : c ≠ '.') (hs : isSpace (toLowerC c) = false) (hn : toLowerC c ≠ '\u00a0') : toLowerC c ∈ normalizeCharset E text := by
  unfold normalizeCharset
  rw [hE.compose text ha, normalizeApostrophe_ascii ha, hE.uni.lower _ (fun c hc => ha c (mem_deleteStr hc))]
  have h1 : c ∈ deleteStr ['.'] text := by
    unfold deleteStr splitStr
    exact splitGo_keeps hp text [] (Or.inr hc)
  have h2 : toLowerC c ∈ toLower (deleteStr ['.'] text) := List.mem_map.mpr ⟨c, h1, rfl⟩
  unfold sanitizeSpaces fields
  have h3 : toLowerC c ∈ (toLower (deleteStr ['.'] text)).filter (fun c => c != '\u00a0') := List.mem_filter.mpr ⟨h2, by simpa using hn⟩
  obtain ⟨w, hw, hcw⟩ := fieldsAux_mem hs _ [] (Or.inr h3)
  exact mem_joinWith hw hcw

/-- The letters listed as characters of English. -/
def englishLetters : List Char := "bcdefghijklnorstuvwxyz".toList

theorem english_charset : (charsets.lookup ['e', 'n']).getD [] = englishLetters := by decide +kernel

theorem only_english (b : Bool) : getLanguages [] [['e', 'n']] b = .ok [['e', 'n']] := by cases b <;> decide +kernel

/-- `Search` with `Languages` = ["en"] takes any ASCII text with a letter other than a, m, p, q for English. -/
theorem takes_english {E : Env} (hE : Sound E) {compose : List Char → List Char} (hcomp : ∀ s, (∀ c ∈ s, c.toNat < 128) → compose s = s)
    (detect : Option (List Char → List Name)) {c : PCfg} (hv : c.validate = .ok ()) (hl : c.locales = []) (hlang : c.languages = [['e', 'n']])
    (st : SearchSt ParserSt) {text : List Char} (ha : ∀ c ∈ text, c.toNat < 128) {ch : Char} (hch : ch ∈ text) (hen : toLowerC ch ∈ englishLetters) :
    SearchTakes (E.searchWorld compose detect) st (some c) text ['e', 'n'] := by
  have hsound : DetectSound (E.searchWorld compose detect).toDetectEnv := ⟨hE.uni, hcomp⟩
  have hfacts : ∀ x ∈ englishLetters, isSpace x = false ∧ x ≠ '.' ∧ x ≠ '\u00a0' := by decide
  have hne : ch ≠ '.' := by
    rintro rfl
    exact (hfacts _ hen).2.1 (by decide)
  have hmem := normalized_mem hsound ha hch hne (hfacts _ hen).1 (hfacts _ hen).2.2
  have hdata : (E.searchWorld compose detect).data ['e', 'n'] = some (enData.lang E.uni, englishLetters) := by
    unfold Env.searchWorld
    simp only [en_found, Option.map_some, hE.english, english_charset]
  refine takes_of_detect (L := [['e', 'n']]) hv ?_ ?_
  · unfold SearchList givenLanguages
    simp only [Option.getD_some, hl, hlang]
    exact only_english _
  · have hcand : getLanguageCandidates (E.searchWorld compose detect).toDetectEnv text [['e', 'n']]
        (initUniqueCharsets (E.searchWorld compose detect).toDetectEnv [['e', 'n']] st.unique) = some [['e', 'n']] := by
      unfold getLanguageCandidates
      dsimp only
      split
      · rfl
      · split
        · rename_i l hfind
          have := List.mem_of_find?_eq_some hfind
          simp at this
          rw [this]
        · have : (englishLetters.any (normalizeCharset (E.searchWorld compose detect).toDetectEnv text).contains) = true := by
            rw [List.any_eq_true]
            exact ⟨_, hen, by simpa using hmem⟩
          rw [List.filter_cons, hdata]
          simp only [this, if_true, List.filter_nil]
    unfold detectFullTextLanguage
    rw [hcand]
    rfl

theorem text_ascii (U : Uni) {table : List TzEntry} {closed : List (List Spec.Piece × Char)} {last : List Spec.Piece} {stop : List Char}
    (h : PlainText table closed last stop) : ∀ c ∈ writeText closed last stop, c.toNat < 128 := by
  have hends : ∀ c ∈ sentenceEnds, c.toNat < 128 := by decide
  have hsent : ∀ ps, PlainSentence table ps → ∀ c ∈ writePieces ps, c.toNat < 128 := by
    intro ps hps c hc
    rw [← pieces_write] at hc
    rcases mem_join _ hc with rfl | ⟨w, hw, hcw⟩
    · decide
    · obtain ⟨a, ha, rfl⟩ := List.mem_map.mp hw
      obtain ⟨p, hp, ha⟩ := List.mem_flatMap.mp ha
      exact (piece_good (U := U) (hps.pieces p hp) a ha).ascii c hcw
  intro c hc
  unfold writeText at hc
  rcases List.mem_append.mp hc with hc | hc
  · obtain ⟨x, hx, hc⟩ := List.mem_flatMap.mp hc
    rcases List.mem_append.mp hc with hc | hc
    · exact hsent _ (h.sentences x hx).1 c hc
    · simp only [List.mem_cons, List.not_mem_nil, or_false] at hc
      rcases hc with rfl | rfl
      · exact hends _ (h.sentences x hx).2.2
      · decide
  · rcases List.mem_append.mp hc with hc | hc
    · exact hsent _ h.final c hc
    · rcases h.ending with e | ⟨_, x, hx, e⟩
      · rw [e] at hc; simp at hc
      · rw [e] at hc; simp at hc; subst hc; exact hends _ hx

/-- **C49.** `Search` with `Languages` = ["en"], on such a text with some letter other than a, m, p, q, in any letter case. -/
theorem C49_english_only {E : Env} (hE : Sound E) {compose : List Char → List Char} (hcomp : ∀ s, (∀ c ∈ s, c.toNat < 128) → compose s = s)
    (detect : Option (List Char → List Name)) {c : PCfg} (hc : SearchCfg c) (hl : c.locales = []) (hlang : c.languages = [['e', 'n']])
    {st : SearchSt ParserSt} (hs : FreshTypes st.parser) (closed : List (List Spec.Piece × Char)) (last : List Spec.Piece)
    (stop : List Char) (h : PlainText E.table closed last stop) (hz : SearchZones c ((datesInText closed last).map (·.1.midnight)))
    (hch : ∃ ch ∈ writeText closed last stop, toLowerC ch ∈ englishLetters) :
    ∃ out, (search (E.searchWorld compose detect) st (some c) (writeText closed last stop)).map (·.2) = some (.ok (['e', 'n'], out)) ∧
      out.length = (datesInText closed last).length ∧ ∀ q ∈ (datesInText closed last).zip out, FoundDate q.1.1 q.1.2 q.2 := by
  obtain ⟨ch, h1, h2⟩ := hch
  exact C49_search hE compose detect hc hs closed last stop h hz (takes_english hE hcomp detect hc.valid hl hlang st (text_ascii E.uni h) h1 h2)

/-- **C49.** The condition on time zones in such a text is met by every word of lower-case letters without `zzz` in it. -/
theorem C49_lower_case_words {t : List TzEntry} (ht : IsTable t) (w : List Char) (hw : ∀ c ∈ w, c.isLower = true ∨ c ∈ wordPunctuation)
    (hz : ∀ a b, w ≠ a ++ "zzz".toList ++ b) : wordIsTz t w = false := by
  refine no_zone ht (fun c hc => ?_) fun a b e => hz a b (by rw [e]; simp)
  rcases hw c hc with h | h
  · have h1 : (97 : UInt32) ≤ c.val ∧ c.val ≤ 122 := by simpa [Char.isLower] using h
    have hlo : (97 : Nat) ≤ c.toNat := h1.1
    have hhi : c.toNat ≤ 122 := h1.2
    unfold zoneStart
    have hup : c.isUpper = false := by
      cases hq : c.isUpper with
      | false => rfl
      | true =>
        have : (65 : UInt32) ≤ c.val ∧ c.val ≤ 90 := by simpa [Char.isUpper] using hq
        have : c.toNat ≤ 90 := this.2
        omega
    rw [hup]
    simp only [Bool.false_or, Bool.or_eq_false_iff, beq_eq_false_iff_ne]
    refine ⟨⟨?_, ?_⟩, ?_⟩ <;> (rintro rfl; revert hlo hhi; decide)
  · have : ∀ x ∈ wordPunctuation, zoneStart x = false := by decide
    exact this c h

end Verif.Props
