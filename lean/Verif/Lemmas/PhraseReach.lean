import Verif.Spec.RelativeWords
import Verif.Lemmas.PhraseRx
import Verif.Lemmas.WordReach
import Verif.Lemmas.WordTables
/-!
Helper lemmas: a text that is as a whole a phrase of the language, up to the individual parsers.
-/
set_option autoImplicit false
namespace Verif.Lemmas
open Verif.Go Verif.Model Verif.Data Verif.Spec Verif.Props

/-- Characters that the cleaning of texts looks for. -/
def cleanedChars : List Char := ['\t', '\n', '\r', '.', ',', ':'] ++ replacedChars

theorem sanitize_plain {U : Uni} {T : List Char} (hT : ∀ c ∈ cleanedChars, c ∉ T) (htidy : tidy T = true) : sanitizeDate U T = T := by
  have no : ∀ {c : Char}, c ∈ T → c ∈ cleanedChars → False := fun h h' => hT _ h' h
  have h1 : rxSanitizeSkip.matches T = false := by
    refine no_match fun s hs t ht => ?_
    rcases alt_run ht with ht | ht
    · obtain ⟨c, hc, hp⟩ := wordChr_run ht
      have hm : c ∈ T := hs.mem (by rw [hc]; simp)
      have hp : c = '\t' ∨ c = '\n' ∨ c = '\r' ∨ c = '\u00bb' := by simpa using hp
      rcases hp with rfl | rfl | rfl | rfl <;> exact no hm (by decide)
    · rcases alt_run ht with ht | ht
      · obtain ⟨u1, k1, _⟩ := seq_run ht
        obtain ⟨c1, e1, p1⟩ := wordChr_run k1
        have p1 : c1 = ',' := by simpa using p1
        subst p1
        exact no (hs.mem (c := ',') (by rw [e1]; simp)) (by decide)
      · obtain ⟨c, hc, hp⟩ := wordChr_run ht
        have hm : c ∈ T := hs.mem (by rw [hc]; simp)
        have hp : c = '\u200e' ∨ c = '\u00b7' ∨ c = '\u200f' ∨ c = '\u064e' ∨ c = '\u064f' := by simpa using hp
        rcases hp with rfl | rfl | rfl | rfl | rfl <;> exact no hm (by decide)
  have h2 : (rxSanitizeRussian U).matches T = false := by
    refine no_match fun s hs t ht => ?_
    obtain ⟨u1, k1, ht⟩ := seq_run ht
    obtain ⟨u2, k2, ht⟩ := seq_run ht
    obtain ⟨u3, k3, ht⟩ := seq_run ht
    obtain ⟨c3, e3, p3⟩ := wordChr_run k3
    have p3 : c3 = '.' := by simpa using p3
    subst p3
    exact no (((hs.run k1).run k2).mem (c := '.') (by rw [e3]; simp)) (by decide)
  have h3 : (rxSanitizeCroatian U).matches T = false := by
    refine no_match fun s hs t ht => ?_
    obtain ⟨u1, k1, ht⟩ := seq_run ht
    obtain ⟨u2, k2, ht⟩ := seq_run ht
    obtain ⟨c2, e2, p2⟩ := wordChr_run k2
    have p2 : c2 = '.' := by simpa using p2
    subst p2
    exact no ((hs.run k1).mem (c := '.') (by rw [e2]; simp)) (by decide)
  have h4 : (rxSanitizePeriod U).matches T = false := by
    refine no_match fun s hs t ht => ?_
    obtain ⟨u1, k1, ht⟩ := seq_run ht
    obtain ⟨c2, e2, p2⟩ := wordChr_run ht
    have p2 : c2 = '.' := by simpa using p2
    subst p2
    exact no ((hs.run k1).mem (c := '.') (by rw [e2]; simp)) (by decide)
  have h5 : rxOn.matches T = false := by
    refine no_match fun s hs t ht => ?_
    obtain ⟨u1, k1, ht⟩ := seq_run ht
    obtain ⟨u2, k2, ht⟩ := seq_run ht
    obtain ⟨u3, k3, ht⟩ := seq_run ht
    obtain ⟨c3, e3, p3⟩ := wordChr_run k3
    have p3 : c3 = ':' := by simpa using p3
    subst p3
    exact no (((hs.run k1).run k2).mem (c := ':') (by rw [e3]; simp)) (by decide)
  unfold sanitizeDate
  simp only [replaceAll_none h1, replaceAll_none h2, replaceAll_none h3, tidy_spaces htidy, replaceAll_none h4]
  have e1 : cutOn T = T := by
    unfold cutOn
    have : rxOn.findFirst T = none := by
      unfold Rx.matches at h5; unfold Rx.findFirst; simpa using h5
    rw [this]
  have e2 : trimColon T = T := by
    unfold trimColon
    rw [if_neg]
    intro hh
    exact no (List.mem_of_getLast? hh) (by decide)
  have e3 : normalizeApostrophe T = T := by
    unfold normalizeApostrophe
    have : ∀ c ∈ T, (if ['\u2019', '\u02bc', '\u02bb', '\u055a', '\ua78c', '\u2032', '\u2035', '\u02b9', '\uff07'].contains c then '\'' else c) = c := by
      intro c hc
      rw [if_neg]
      intro hm
      rw [List.contains_iff_mem] at hm
      refine no hc ?_
      simp only [List.mem_cons, List.not_mem_nil, or_false] at hm
      rcases hm with rfl | rfl | rfl | rfl | rfl | rfl | rfl | rfl | rfl <;> decide
    rw [List.map_congr_left this, List.map_id']
  rw [e1, e2, e3, tidy_trim htidy]

/-! ## Tidy texts -/

theorem phrase_tidyFrom : ∀ (w : List Char), (∀ c ∈ w, c = ' ' ∨ isSpace c = false) → w.getLast? ≠ some ' ' → (∀ a b, w ≠ a ++ ' ' :: ' ' :: b) →
    (w ≠ [] ∨ True) → ∀ sp, (sp = true → w.head? ≠ some ' ' ∧ w ≠ []) → tidyFrom sp w = true := by
  intro w
  induction w with
  | nil =>
    intro _ _ _ _ sp h
    cases sp with
    | false => rfl
    | true => exact absurd rfl (h rfl).2
  | cons c w ih =>
    intro hc hl hd _ sp h
    unfold tidyFrom
    have hc' : ∀ x ∈ w, x = ' ' ∨ isSpace x = false := fun x hx => hc x (by simp [hx])
    have hl' : w.getLast? ≠ some ' ' := by
      cases w with
      | nil => simp
      | cons d w => rwa [List.getLast?_cons_cons] at hl
    have hd' : ∀ a b, w ≠ a ++ ' ' :: ' ' :: b := fun a b e => hd (c :: a) b (by rw [e]; rfl)
    rcases hc c (by simp) with rfl | hs
    · have hsp : sp = false := by
        cases sp with
        | false => rfl
        | true => exact absurd rfl (h rfl).1
      subst hsp
      rw [if_pos (by decide)]
      simp only [beq_self_eq_true, Bool.not_false, Bool.true_and]
      refine ih hc' hl' hd' (Or.inr trivial) true fun _ => ⟨fun hh => ?_, fun hh => ?_⟩
      · cases w with
        | nil => cases hh
        | cons d w =>
          have : d = ' ' := by simpa using hh
          subst this
          exact hd [] w rfl
      · subst hh
        exact hl rfl
    · rw [if_neg (by simp [hs])]
      have hnb : (c != '\u00a0') = true := by
        rw [bne_iff_ne]
        rintro rfl
        revert hs; decide
      rw [hnb, Bool.true_and]
      exact ih hc' hl' hd' (Or.inr trivial) false fun h => by cases h

theorem _root_.Verif.Spec.IsPhrase.nonempty {U : Uni} {w : List Char} (h : IsPhrase U w) : w ≠ [] := by
  obtain ⟨c, hc, _⟩ := h.letter
  rintro rfl
  cases hc

theorem _root_.Verif.Spec.IsPhrase.tidy {U : Uni} {w : List Char} (h : IsPhrase U w) : tidy w = true := by
  unfold Verif.Lemmas.tidy
  rw [Bool.or_eq_true]
  right
  refine phrase_tidyFrom w (fun c hc => ?_) h.last h.single (Or.inr trivial) true fun _ => ⟨h.first, h.nonempty⟩
  rcases h.chars c hc with h | rfl | rfl | h
  · exact Or.inl h
  · exact Or.inr (by decide)
  · exact Or.inr (by decide)
  · exact Or.inr h.space

/-! ## What is checked -/

/-- No pattern of the language matches in the phrase, and it is cut off as a whole. -/
def phraseOk (d : LangData) (w : List Char) : Bool :=
  w.all (fun c => lett c || joint c) && w != ['t'] && !alwaysKept w &&
  (d.knownWords.isEmpty || ((d.knownWords.takeWhile (· != w)).all (fun k => !isPre k w) && d.knownWords.contains w)) &&
  d.simplifications.all (fun x => misses w x.1) && d.relativeRegexes.all (fun x => misses w x.1) && (d.rxCombined.all fun x => misses w x.1) && (d.rxExact.all fun x => misses w x)

structure PhraseOk (d : LangData) (w : List Char) : Prop where
  letters : ∀ c ∈ w, lett c = true ∨ joint c = true
  notT : w ≠ ['t']
  kept : alwaysKept w = false
  known : d.knownWords = [] ∨ ((∀ k ∈ d.knownWords.takeWhile (· != w), isPre k w = false) ∧ w ∈ d.knownWords)
  simplifications : ∀ x ∈ d.simplifications, misses w x.1 = true
  regexes : ∀ x ∈ d.relativeRegexes, misses w x.1 = true
  combined : ∀ x, d.rxCombined = some x → misses w x.1 = true
  exactly : ∀ x, d.rxExact = some x → misses w x = true

theorem phraseOk_iff {d : LangData} {w : List Char} (h : phraseOk d w = true) : PhraseOk d w := by
  simp only [phraseOk, Bool.and_eq_true, Bool.or_eq_true, Bool.not_eq_true', List.all_eq_true, List.contains_iff_mem, bne_iff_ne, List.isEmpty_iff] at h
  obtain ⟨⟨⟨⟨⟨⟨⟨h1, h2⟩, h3⟩, h4⟩, h5⟩, h6⟩, h7⟩, h8⟩ := h
  refine ⟨h1, h2, h3, h4, h5, h6, fun x hx => ?_, fun x hx => ?_⟩
  · rw [hx] at h7; exact h7
  · rw [hx] at h8; exact h8

theorem PhraseOk.wordy {U : Uni} {d : LangData} {w : List Char} (hw : PhraseOk d w) (hu : IsPhrase U w) : Wordy U w := by
  intro c hc
  rcases hu.chars c hc with rfl | rfl | rfl | h
  · exact Or.inl (by decide)
  · exact Or.inl (by decide)
  · exact Or.inl (by decide)
  · rcases hw.letters c hc with hl | hj
    · exact Or.inr ⟨hl, h.letter⟩
    · exact Or.inl hj

/-! ## Cut -/

theorem index_pre {k T : List Char} (h : indexStr k T = some 0) : isPre k T = true := by
  have key : ∀ (k T : List Char), k.isPrefixOf T = true → isPre k T = true := by
    intro k
    induction k with
    | nil => intro T _; cases T <;> rfl
    | cons c k ih =>
      intro T h
      cases T with
      | nil => simp at h
      | cons d T =>
        simp only [List.isPrefixOf_cons₂, Bool.and_eq_true, beq_iff_eq] at h
        simp [isPre, h.1, ih T h.2]
  cases T with
  | nil =>
    unfold indexStr at h
    split at h
    · rename_i he
      cases k with
      | nil => rfl
      | cons => simp at he
    · cases h
  | cons c T =>
    unfold indexStr at h
    split at h
    · rename_i he; exact key _ _ he
    · cases hi : indexStr k T with
      | none => rw [hi] at h; cases h
      | some n => rw [hi] at h; simp at h

theorem index_self {w : List Char} (h : w ≠ []) : indexStr w w = some 0 := by
  cases w with
  | nil => exact absurd rfl h
  | cons c w =>
    unfold indexStr
    rw [if_pos]
    simp

/-- The loop over the known words stops at the whole text. -/
theorem known_whole {U : Uni} {b : Bool} {w : List Char} (hne : w ≠ []) : ∀ (ks : List (List Char)) (cand : Option (Nat × List Char)),
    (∀ k ∈ ks.takeWhile (· != w), isPre k w = false) → w ∈ ks → (∀ q, cand = some q → 0 < q.1) → knownLoop U b w ks cand = some (0, w) := by
  intro ks
  induction ks with
  | nil => intro _ _ h; cases h
  | cons k ks ih =>
    intro cand hpre hm hcand
    unfold knownLoop
    by_cases hk : k = w
    · subst hk
      rw [index_self hne]
      have hok : (b || neighborOk U (k.take 0).getLast? && neighborOk U (k.drop (0 + k.length)).head?) = true := by
        rw [Nat.zero_add, List.drop_length]
        cases b <;> rfl
      simp only [hok, if_true]
      cases cand with
      | none => rfl
      | some q =>
        have := hcand q rfl
        obtain ⟨p, v⟩ := q
        simp only at this ⊢
        rw [if_pos this]
    · have htw : (k :: ks).takeWhile (· != w) = k :: ks.takeWhile (· != w) := by
        rw [List.takeWhile_cons, if_pos (by simpa using hk)]
      rw [htw] at hpre
      have hpre' : ∀ x ∈ ks.takeWhile (· != w), isPre x w = false := fun x hx => hpre x (by simp [hx])
      have hm' : w ∈ ks := by
        rcases List.mem_cons.mp hm with h | h
        · exact absurd h.symm hk
        · exact h
      cases hi : indexStr k w with
      | none => exact ih cand hpre' hm' hcand
      | some pos =>
        have hpos : 0 < pos := by
          rcases Nat.eq_zero_or_pos pos with h | h
          · subst h
            have := hpre k (by simp)
            rw [index_pre hi] at this; cases this
          · exact h
        simp only
        split
        · rw [if_neg (by omega)]
          refine ih _ hpre' hm' fun q hq => ?_
          cases cand with
          | none => simp at hq; rw [← hq]; exact hpos
          | some p =>
            obtain ⟨p, v⟩ := p
            simp only at hq
            split at hq
            · simp at hq; rw [← hq]; exact hpos
            · simp at hq; rw [← hq]; exact hcand (p, v) rfl
        · exact ih cand hpre' hm' hcand

theorem phrase_capture {U : Uni} {w : List Char} (hu : IsPhrase U w) : shouldCapture U w false = true := by
  unfold shouldCapture
  have h1 : w.contains '\n' = false := by
    rw [Bool.eq_false_iff]
    intro hc
    rw [List.contains_iff_mem] at hc
    rcases hu.chars _ hc with h | h | h | h
    · cases h
    · cases h
    · cases h
    · have := h.space
      revert this; decide
  have h2 : (w.any fun c => c.isAlphanum || U.isLetter c) = true := by
    rw [List.any_eq_true]
    obtain ⟨c, hc, hl⟩ := hu.letter
    exact ⟨c, hc, by simp [hl]⟩
  rw [h1, h2]; simp

theorem numeralLoop_none {U : Uni} : ∀ (s g : List Char), (∀ c ∈ s, U.isDigit c = false) → numeralLoop U false g s = [g.reverse ++ s] := by
  intro s
  induction s with
  | nil => intro g _; simp [numeralLoop]
  | cons c s ih =>
    intro g h
    unfold numeralLoop
    rw [h c (by simp), if_neg (by simp), ih _ fun x hx => h x (by simp [hx])]
    simp

theorem phrase_noDigit {U : Uni} (hU : AsciiUni U) {w : List Char} (hu : IsPhrase U w) : ∀ c ∈ w, U.isDigit c = false := by
  intro c hc
  rcases hu.chars c hc with rfl | rfl | rfl | h
  · rw [hU.isDigit _ (by decide)]; decide
  · rw [hU.isDigit _ (by decide)]; decide
  · rw [hU.isDigit _ (by decide)]; decide
  · exact h.digit

theorem phrase_numerals {U : Uni} (hU : AsciiUni U) {w : List Char} (hu : IsPhrase U w) : splitByNumerals U w false = [w] := by
  have hcap := phrase_capture hu
  have hd := phrase_noDigit hU hu
  have hne := hu.nonempty
  clear hu
  unfold splitByNumerals
  cases w with
  | nil => exact absurd rfl hne
  | cons c w =>
    simp only
    rw [hd c (by simp), numeralLoop_none w [c] fun x hx => hd x (by simp [hx])]
    simp [hcap]

theorem phrase_tokens {U : Uni} (hU : AsciiUni U) {d : LangData} {w : List Char} (hw : PhraseOk d w) (hu : IsPhrase U w) : splitByKnown U (d.lang U) false w = [w] := by
  unfold splitByKnown
  rw [splitByKnownFuel]
  have hsp : (trimSpace w).isEmpty = false := by
    rw [tidy_trim hu.tidy]
    cases hh : w with
    | nil => exact absurd hh hu.nonempty
    | cons => rfl
  have hf : findKnown U (d.lang U) w = none ∨ findKnown U (d.lang U) w = some (0, w) := by
    unfold findKnown
    rw [hsp, if_neg (by simp)]
    show knownLoop U d.noWordSpacing w d.knownWords none = none ∨ knownLoop U d.noWordSpacing w d.knownWords none = some (0, w)
    rcases hw.known with h | ⟨h1, h2⟩
    · left; rw [h]; rfl
    · right; exact known_whole hu.nonempty _ none h1 h2 fun q hq => by cases hq
  rcases hf with hf | hf
  · rw [hf]
    simp only [phrase_capture hu, if_true]
    exact phrase_numerals hU hu
  · rw [hf]
    simp [phrase_capture hu]

theorem phrase_simplify {U : Uni} (hU : AsciiUni U) {d : LangData} {w : List Char} (hw : PhraseOk d w) (hu : IsPhrase U w) : simplify (d.lang U) w = w := by
  unfold simplify
  show List.foldl _ w (d.simplifications.map fun x => (x.1.toRx U, x.2)) = w
  have : ∀ l : List (Pat × List Tmpl), (∀ x ∈ l, misses w x.1 = true) →
      (l.map fun x => (x.1.toRx U, x.2)).foldl (fun s d => if d.1.matches s then replaceAllTmpl d.1 d.2 s else s) w = w := by
    intro l
    induction l with
    | nil => intro _; rfl
    | cons x l ih =>
      intro h
      rw [List.map_cons, List.foldl_cons]
      simp only
      rw [misses_matches hU (hw.wordy hu) (h x (by simp)), if_neg (by simp)]
      exact ih fun y hy => h y (by simp [hy])
  exact this _ hw.simplifications

theorem phrase_exact {U : Uni} (hU : AsciiUni U) {d : LangData} {w : List Char} (hw : PhraseOk d w) (hu : IsPhrase U w) :
    ((d.lang U).rxExact.map (·.matches w)).getD false = false := by
  show ((d.rxExact.map (·.toRx U)).map (·.matches w)).getD false = false
  cases hr : d.rxExact with
  | none => rfl
  | some x =>
    simp only [Option.map_some, Option.getD_some]
    exact misses_matches hU (hw.wordy hu) (hw.exactly x hr)

theorem phrase_whole_raw {U : Uni} (hU : AsciiUni U) {d : LangData} {w : List Char} (hw : PhraseOk d w) (hu : IsPhrase U w) : splitRaw U (d.lang U) w false = [w] := by
  unfold splitRaw
  have e1 : (match (d.lang U).rxCombined with
    | some (rx, k) => splitWithRegex rx k w
    | none => w) = w := by
    show (match d.rxCombined.map fun x => (x.1.toRx U, x.2) with
      | some (rx, k) => splitWithRegex rx k w
      | none => w) = w
    cases hr : d.rxCombined with
    | none => rfl
    | some x =>
      simp only [Option.map_some]
      unfold splitWithRegex
      rw [splitWithRegexFuel]
      have : (x.1.toRx U).findFirst w = none := misses_find hU (hw.wordy hu) (hw.combined x hr)
      rw [this]
  have hbar : '|' ∉ w := by
    intro h
    rcases hw.letters _ h with h | h <;> exact absurd h (by decide)
  have e2 : splitStr splitSeparator w = [w] := splitGo_absent (acc := []) (containsStr_mem hbar)
  have e3 := phrase_exact hU hw hu
  have key : ∀ str, str = w → ((splitStr splitSeparator str).flatMap fun token =>
      if ((d.lang U).rxExact.map (·.matches token)).getD false then [token] else splitByKnown U (d.lang U) false token) = [w] := by
    rintro str rfl
    rw [e2]; simp [e3, phrase_tokens hU hw hu]
  exact key _ e1

theorem phrase_split {U : Uni} (hU : AsciiUni U) {d : LangData} {w : List Char} (hw : PhraseOk d w) (hu : IsPhrase U w) :
    splitText U (d.lang U) (simplify (d.lang U) w) false (mapSkippedTokens [['t']] (d.lang U)) = [w] := by
  rw [phrase_simplify hU hw hu]
  unfold splitText
  rw [phrase_whole_raw hU hw hu]
  have e1 : w.isEmpty = false := by cases hh : w with
    | nil => exact absurd hh hu.nonempty
    | cons => rfl
  have e2 : (mapSkippedTokens [['t']] (d.lang U)).contains (trimSpace w) = false := by
    rw [tidy_trim hu.tidy]
    cases hh : (mapSkippedTokens [['t']] (d.lang U)).contains w with
    | false => rfl
    | true => rw [List.contains_iff_mem] at hh; exact absurd (skip_t hh) hw.notT
  have e3 : trimSpace w ∉ mapSkippedTokens [['t']] (d.lang U) := by
    intro h
    rw [List.contains_iff_mem.mpr h] at e2; exact absurd e2 (by simp)
  simpa using ⟨hu.nonempty, e3⟩

/-! ## Up to the individual parsers -/

/-- A translated text that stays as it is when joined, without braces. -/
def plainValue (v : List Char) : Bool := decide (finishTokens false [v] = v) && noBraces v

theorem phrase_normal {U : Uni} {W w : List Char} (hu : IsPhrase U w) (h : Normalizes U W w) : U.normalizeString W = w := by
  unfold Uni.normalizeString
  rw [h]
  exact tidy_spaces hu.tidy

theorem phrase_token {U : Uni} (hU : AsciiUni U) {W w : List Char} (hu : IsPhrase U w) (h : Normalizes U W w) : normalizeToken U W = w := by
  unfold normalizeToken
  rw [phrase_normal hu h]
  exact digits_word hU fun c hc => Or.inr (phrase_noDigit hU hu c hc)

theorem phrase_reached {U : Uni} (hU : AsciiUni U) {d : LangData} {W w v : List Char} (hw : PhraseOk d w) (hu : IsPhrase U w) (hW : IsPhrase U W)
    (hr : ∀ c ∈ W, c ∉ replacedChars) (h1 : Normalizes U W w) (h2 : Normalizes U w w) (hv : d.relativeType.lookup w = some v) (hp : plainValue v = true) :
    Reached U (d.lang U) [['t']] W v := by
  simp only [plainValue, Bool.and_eq_true, decide_eq_true_eq] at hp
  have hnd : ∀ c ∈ W, c.isDigit = false := by
    intro c hc
    cases hd : c.isDigit with
    | false => rfl
    | true =>
      have hr := digit_range hd
      have := phrase_noDigit hU hW c hc
      rw [hU.isDigit c (by omega), hd] at this; cases this
  have hsplit := phrase_split hU hw hu
  have htw : (d.lang U).translateWord w = some [v] := by
    unfold Lang.translateWord
    have : (d.lang U).relativeType.lookup w = some v := hv
    rw [this]
  have hclean : ∀ c ∈ cleanedChars, c ∉ W := by
    intro c hc hm
    unfold cleanedChars at hc
    rcases List.mem_append.mp hc with hc | hc
    · rcases hW.chars c hm with rfl | rfl | rfl | h
      · exact absurd hc (by decide)
      · exact absurd hc (by decide)
      · exact absurd hc (by decide)
      · have : ∀ c ∈ (['\t', '\n', '\r', '.', ',', ':'] : List Char), c.toNat < 128 ∧ c.isAlpha = false := by decide
        have := this c hc
        rw [wordChar_ascii hU h this.1] at this
        exact absurd this.2 (by simp)
    · exact hr c hm hc
  refine ⟨sanitize_plain hclean hW.tidy, ?_, ?_, ?_, ?_, strip_noBraces hp.2⟩
  · have hne := hW.nonempty
    cases hh : W with
    | nil => exact absurd hh hne
    | cons c r =>
      rw [← hh]
      exact word_stamp (i := 0) (by decide) (by rw [hh]; rfl) (hnd c (by rw [hh]; simp))
  · refine no_match fun s hs t ht => ?_
    obtain ⟨u1, k1, ht⟩ := seq_run ht
    obtain ⟨u2, k2, ht⟩ := seq_run ht
    obtain ⟨v', g, _⟩ := grp_run k2
    obtain ⟨u3, k3, g⟩ := seq_run g
    obtain ⟨x, hx1, hx2⟩ := rep_digits 10 g 0 (by decide)
    have hm : x ∈ W := ((hs.run k1).run k3).mem (List.mem_of_getElem? hx1)
    rw [hnd x hm] at hx2; cases hx2
  · unfold isApplicable
    rw [phrase_normal hu h1, phrase_token hU hu h2]
    simp only [hsplit]
    have hk := hw.kept
    have hin : (d.lang U).inDictionary w = true := by
      unfold Lang.inDictionary
      rw [htw]; rfl
    simp [hk, hin]
  · unfold translate
    simp only
    rw [phrase_token hU hu h1, hsplit]
    have e : translateToken (d.lang U) (mapSkippedTokens [['t']] (d.lang U)) false w = [v] := by
      unfold translateToken
      rw [if_neg (by
        rw [List.contains_iff_mem]
        intro hs
        exact hw.notT (skip_t hs))]
      have e1 : (d.lang U).relativeRegexes.find? (·.1.matches w) = none := by
        rw [List.find?_eq_none]
        intro x hx
        have hx : x ∈ d.relativeRegexes.map fun x => (x.1.toRx U, x.2) := hx
        obtain ⟨y, hy, rfl⟩ := List.mem_map.mp hx
        simp only
        rw [misses_matches hU (hw.wordy hu) (hw.regexes y hy)]
        simp
      rw [e1, htw]
      simp
    have e' : [w].map (translateToken (d.lang U) (mapSkippedTokens [['t']] (d.lang U)) false) = [v].map fun x => [x] := by
      rw [List.map_cons, e]; rfl
    rw [e', C31_all_combinations _ (by
      intro x hx
      obtain ⟨y, _, rfl⟩ := List.mem_map.mp hx
      simp), combinations_single]
    simp [hp.1]

/-! ## What is checked of a locale -/

/-- The phrases of a locale are read as such. -/
def phrasesRead (x : LangData × Option LangData) : Bool :=
  let d := mergeLangC x.2 x.1
  d.relativeType.all fun t => (t.1.any fun c => decide (c.toNat < 128) && !c.isAlpha && !joint c) || rewrittenPhrases.contains (x.1.name, t.1) || phraseOk d t.1

end Verif.Lemmas
