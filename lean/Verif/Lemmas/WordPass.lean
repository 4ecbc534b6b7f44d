import Verif.Lemmas.WordClean
import Verif.Lemmas.CalText
import Verif.Props.Permutation
/-!
Helper lemmas: dates with a month name in a language whose patterns do not see the word.
-/
set_option autoImplicit false
namespace Verif.Lemmas
open Verif.Go Verif.Model Verif.Data Verif.Spec

/-- No pattern of the language can match in a text with the word, and the word is not one for a relative date. -/
def wordOk (d : LangData) (w : List Char) : Bool :=
  !w.isEmpty && w.all (fun c => lett c && !isSpace c) && w != ['t'] && d.knownWords.contains w && d.relativeType.all (fun x => x.1 != w) &&
  d.simplifications.all (fun x => cannot w x.1) && d.relativeRegexes.all (fun x => cannot w x.1) && (d.rxCombined.all fun x => cannot w x.1) && (d.rxExact.all fun x => cannot w x)
/-- A language in which words are separated by spaces, with the usual tokens and no other that could be seen in a date. -/
def langOk (d : LangData) : Bool :=
  !d.noWordSpacing && d.knownWords.all knownOk && d.knownWords.contains [' '] && d.knownWords.contains [','] && d.knownWords.contains ['.'] && d.knownWords.contains [':'] &&
  (d.translations.all fun x => !(x.1.all Char.isDigit)) && (d.relativeType.all fun x => !(x.1.all Char.isDigit) && x.1 != [' '] && x.1 != ['.'] && x.1 != [':']) &&
  decide (d.translations.lookup [' '] = some [[' ']]) && decide (d.translations.lookup ['.'] = some [['.']]) && decide (d.translations.lookup [':'] = some [[':']])

structure LangOk (d : LangData) : Prop where
  spacing : d.noWordSpacing = false
  known : ∀ k ∈ d.knownWords, knownOk k = true
  spaceKnown : [' '] ∈ d.knownWords
  commaKnown : [','] ∈ d.knownWords
  dotKnown : ['.'] ∈ d.knownWords
  colonKnown : [':'] ∈ d.knownWords
  digits : ∀ x ∈ d.translations, x.1.all Char.isDigit = false
  relDigits : ∀ x ∈ d.relativeType, x.1.all Char.isDigit = false ∧ x.1 ≠ [' '] ∧ x.1 ≠ ['.'] ∧ x.1 ≠ [':']
  space : d.translations.lookup [' '] = some [[' ']]
  dot : d.translations.lookup ['.'] = some [['.']]
  colon : d.translations.lookup [':'] = some [[':']]

structure WordOk (d : LangData) (w : List Char) : Prop where
  nonempty : w ≠ []
  letters : ∀ c ∈ w, lett c = true
  noSpace : ∀ c ∈ w, isSpace c = false
  notT : w ≠ ['t']
  known : w ∈ d.knownWords
  relative : ∀ x ∈ d.relativeType, x.1 ≠ w
  simplifications : ∀ x ∈ d.simplifications, cannot w x.1 = true
  regexes : ∀ x ∈ d.relativeRegexes, cannot w x.1 = true
  combined : ∀ x, d.rxCombined = some x → cannot w x.1 = true
  exactly : ∀ x, d.rxExact = some x → cannot w x = true

theorem langOk_iff {d : LangData} (h : langOk d = true) : LangOk d := by
  simp only [langOk, Bool.and_eq_true, Bool.not_eq_true', List.all_eq_true, List.contains_iff_mem, decide_eq_true_eq, bne_iff_ne] at h
  obtain ⟨⟨⟨⟨⟨⟨⟨⟨⟨⟨h1, h2⟩, h3⟩, h4⟩, h5⟩, h5'⟩, h6⟩, h7⟩, h8⟩, h9⟩, h10⟩ := h
  exact ⟨h1, h2, h3, h4, h5, h5', h6, fun x hx => ⟨(h7 x hx).1.1.1, (h7 x hx).1.1.2, (h7 x hx).1.2, (h7 x hx).2⟩, h8, h9, h10⟩

theorem wordOk_iff {d : LangData} {w : List Char} (h : wordOk d w = true) : WordOk d w := by
  simp only [wordOk, Bool.and_eq_true, Bool.not_eq_true', List.all_eq_true, List.contains_iff_mem, bne_iff_ne, List.isEmpty_eq_false_iff] at h
  obtain ⟨⟨⟨⟨⟨⟨⟨⟨h1, h2⟩, h3⟩, h4⟩, h5⟩, h6⟩, h7⟩, h8⟩, h9⟩ := h
  refine ⟨h1, fun c hc => (h2 c hc).1, fun c hc => (h2 c hc).2, h3, h4, h5, h6, h7, fun x hx => ?_, fun x hx => ?_⟩
  · rw [hx] at h8; exact h8
  · rw [hx] at h9; exact h9

theorem LangOk.cuts {U : Uni} (hU : AsciiUni U) {d : LangData} {w : List Char} (h : LangOk d) (hw : WordOk d w) (hu : IsWord U w) : CutsWord U (d.lang U) w :=
  ⟨hU, h.spacing, h.known, h.spaceKnown, h.commaKnown, h.dotKnown, h.colonKnown, hw.known, hw.nonempty, hw.letters, fun c hc => ⟨(hu.chars c hc).letter, (hu.chars c hc).number, (hu.chars c hc).digit⟩, hw.noSpace⟩

/-! ## The texts -/

theorem numeral_noSpace {D : List Char} (h : IsNumeral D) : ∀ c ∈ D, isSpace c = false := by
  intro c hc
  have hr := digit_range (h.2 c hc)
  cases hs : isSpace c with
  | false => rfl
  | true =>
    exfalso
    have key : ∀ n < 58, 48 ≤ n → isSpace (Char.ofNat n) = false := by decide +kernel
    have := key c.toNat (by omega) hr.1
    rw [Char.ofNat_toNat, hs] at this
    cases this

theorem tidy_piece : ∀ {w : List Char} (sp : Bool) (r : List Char), w ≠ [] → (∀ c ∈ w, isSpace c = false) → tidyFrom sp (w ++ r) = tidyFrom false r := by
  intro w
  induction w with
  | nil => intro sp r h; exact absurd rfl h
  | cons c w ih =>
    intro sp r _ hs
    have hc := hs c (by simp)
    have hnb : (c != '\u00a0') = true := by
      rw [bne_iff_ne]
      rintro rfl
      revert hc; decide
    simp only [List.cons_append]
    rw [tidyFrom, hc, hnb]
    simp only [Bool.false_eq_true, if_false, Bool.true_and]
    cases w with
    | nil => rfl
    | cons e w => exact ih false r (by simp) fun x hx => hs x (by simp [hx])

theorem tidy_sp (r : List Char) : tidyFrom false (' ' :: r) = tidyFrom true r := by
  rw [tidyFrom, if_pos (by decide)]; simp
theorem tidy_punct {p : Char} (hp : p = ',' ∨ p = '.' ∨ p = ':') (sp : Bool) (r : List Char) : tidyFrom sp (p :: r) = tidyFrom false r := by
  rw [tidyFrom]
  rcases hp with rfl | rfl | rfl <;> (rw [if_neg (by decide)]; simp)
theorem tidy_end {w : List Char} (sp : Bool) (h : w ≠ []) (hs : ∀ c ∈ w, isSpace c = false) : tidyFrom sp w = true := by
  have := tidy_piece sp [] h hs
  rw [List.append_nil] at this
  rw [this]; rfl

/-- Before a time of day: a space, or a comma and a space. -/
def lead : Bool → List Char
  | true => [',', ' ']
  | false => [' ']

/-- What follows the date: nothing or a time of day; the text, the text as translated, the tokens. -/
inductive IsTail : List Char → List Char → List (List Char) → Prop
  | nil : IsTail [] [] []
  | hm (c : Bool) (h m : List Char) (hh : IsNumeral h) (hm : IsNumeral m) : IsTail (lead c ++ (h ++ ':' :: m)) (' ' :: (h ++ ':' :: m)) [[' '], h, [':'], m]
  | hms (c : Bool) (h m s : List Char) (hh : IsNumeral h) (hm : IsNumeral m) (hs : IsNumeral s) :
      IsTail (lead c ++ (h ++ ':' :: (m ++ ':' :: s))) (' ' :: (h ++ ':' :: (m ++ ':' :: s))) [[' '], h, [':'], m, [':'], s]

theorem lead_tidy (c : Bool) (r : List Char) : tidyFrom false (lead c ++ r) = tidyFrom true r := by
  cases c
  · exact tidy_sp r
  · show tidyFrom false (',' :: ' ' :: r) = _
    rw [tidy_punct (Or.inl rfl), tidy_sp]

theorem IsTail.tidy {Z Zo : List Char} {ts : List (List Char)} (h : IsTail Z Zo ts) : tidyFrom false Z = true := by
  cases h with
  | nil => rfl
  | hm c h m hh hm => rw [lead_tidy, tidy_piece _ _ hh.1 (numeral_noSpace hh), tidy_punct (by simp), tidy_end _ hm.1 (numeral_noSpace hm)]
  | hms c h m s hh hm hs =>
    rw [lead_tidy, tidy_piece _ _ hh.1 (numeral_noSpace hh), tidy_punct (by simp), tidy_piece _ _ hm.1 (numeral_noSpace hm), tidy_punct (by simp), tidy_end _ hs.1 (numeral_noSpace hs)]

/-- As translated, it is such a text as well. -/
theorem IsTail.out {Z Zo : List Char} {ts : List (List Char)} (h : IsTail Z Zo ts) : IsTail Zo Zo ts := by
  cases h with
  | nil => exact .nil
  | hm c h m hh hm => exact .hm false h m hh hm
  | hms c h m s hh hm hs => exact .hms false h m s hh hm hs

theorem form_tidy (f : WordForm) {D w Y Z Zo : List Char} {ts : List (List Char)} (hD : IsNumeral D) (hY : IsNumeral Y) (hw : w ≠ []) (hs : ∀ c ∈ w, isSpace c = false) (hZ : IsTail Z Zo ts) :
    tidy (f.write D w Y ++ Z) = true := by
  unfold Verif.Lemmas.tidy
  rw [Bool.or_eq_true]
  right
  have hDs := numeral_noSpace hD
  have hYs := numeral_noSpace hY
  cases f <;> unfold WordForm.write <;> simp only [List.append_assoc, List.cons_append]
  · rw [tidy_piece _ _ hD.1 hDs, tidy_sp, tidy_piece _ _ hw hs, tidy_sp, tidy_piece _ _ hY.1 hYs, hZ.tidy]
  · rw [tidy_piece _ _ hD.1 hDs, tidy_punct (by simp), tidy_sp, tidy_piece _ _ hw hs, tidy_sp, tidy_piece _ _ hY.1 hYs, hZ.tidy]
  · rw [tidy_piece _ _ hw hs, tidy_sp, tidy_piece _ _ hD.1 hDs, tidy_punct (by simp), tidy_sp, tidy_piece _ _ hY.1 hYs, hZ.tidy]
  · rw [tidy_piece _ _ hw hs, tidy_sp, tidy_piece _ _ hD.1 hDs, tidy_sp, tidy_piece _ _ hY.1 hYs, hZ.tidy]
  · rw [tidy_piece _ _ hY.1 hYs, tidy_sp, tidy_piece _ _ hw hs, tidy_sp, tidy_piece _ _ hD.1 hDs, hZ.tidy]

/-- Before the word. -/
def _root_.Verif.Spec.WordForm.before (f : WordForm) (D Y : List Char) : List Char :=
  match f with
  | .dayFirst => D ++ [' ']
  | .dotted => D ++ ['.', ' ']
  | .comma => []
  | .plain => []
  | .yearFirst => Y ++ [' ']
/-- After the word. -/
def _root_.Verif.Spec.WordForm.after (f : WordForm) (D Y : List Char) : List Char :=
  match f with
  | .dayFirst => ' ' :: Y
  | .dotted => ' ' :: Y
  | .comma => ' ' :: (D ++ ',' :: ' ' :: Y)
  | .plain => ' ' :: (D ++ ' ' :: Y)
  | .yearFirst => ' ' :: D
theorem form_eq (f : WordForm) (D w Y : List Char) : f.write D w Y = f.before D Y ++ w ++ f.after D Y := by
  cases f <;> simp [WordForm.write, WordForm.before, WordForm.after]

theorem numeral_date {D : List Char} (h : IsNumeral D) : ∀ c ∈ D, dateChar c = true := fun c hc => digit_date (h.2 c hc)

theorem form_before (f : WordForm) {D Y : List Char} (hD : IsNumeral D) (hY : IsNumeral Y) : (∀ c ∈ f.before D Y, dateChar c = true) ∧ (∀ c, (f.before D Y).getLast? = some c → c = ' ') := by
  have key : ∀ N p : List Char, IsNumeral N → (∀ c ∈ p, dateChar c = true) → ∀ c ∈ N ++ p, dateChar c = true := by
    intro N p hN hp c hc
    rcases List.mem_append.mp hc with hc | hc
    · exact numeral_date hN c hc
    · exact hp c hc
  cases f <;> unfold WordForm.before
  · exact ⟨key D _ hD (by decide), fun c hc => by simpa using hc.symm⟩
  · refine ⟨key D _ hD (by decide), fun c hc => ?_⟩
    rw [List.getLast?_append] at hc
    simpa using hc.symm
  · exact ⟨by simp, by simp⟩
  · exact ⟨by simp, by simp⟩
  · exact ⟨key Y _ hY (by decide), fun c hc => by simpa using hc.symm⟩

theorem form_after (f : WordForm) {D Y : List Char} (hD : IsNumeral D) (hY : IsNumeral Y) : (∀ c ∈ f.after D Y, dateChar c = true) ∧ (∀ c, (f.after D Y).head? = some c → c = ' ') := by
  have h1 := numeral_date hD
  have h2 := numeral_date hY
  refine ⟨fun c hc => ?_, fun c hc => ?_⟩
  · cases f <;> simp only [WordForm.after, List.mem_cons, List.mem_append] at hc
    · rcases hc with rfl | hc
      · decide
      · exact h2 c hc
    · rcases hc with rfl | hc
      · decide
      · exact h2 c hc
    · rcases hc with rfl | hc | rfl | rfl | hc
      · decide
      · exact h1 c hc
      · decide
      · decide
      · exact h2 c hc
    · rcases hc with rfl | hc | rfl | hc
      · decide
      · exact h1 c hc
      · decide
      · exact h2 c hc
    · rcases hc with rfl | hc
      · decide
      · exact h1 c hc
  · cases f <;> simpa [WordForm.after] using hc.symm

/-- The tokens. -/
def _root_.Verif.Spec.WordForm.tokens (f : WordForm) (D w Y : List Char) : List (List Char) :=
  match f with
  | .dayFirst => [D, [' '], w, [' '], Y]
  | .dotted => [D, ['.'], [' '], w, [' '], Y]
  | .comma => [w, [' '], D, [' '], Y]
  | .plain => [w, [' '], D, [' '], Y]
  | .yearFirst => [Y, [' '], w, [' '], D]

/-- As translated. -/
def _root_.Verif.Spec.WordForm.writeOut (f : WordForm) (D w Y : List Char) : List Char :=
  match f with
  | .comma => w ++ ' ' :: (D ++ ' ' :: Y)
  | f => f.write D w Y

theorem numeral_ne_empty {D : List Char} (h : IsNumeral D) : D.isEmpty = false := by
  cases D with
  | nil => exact absurd rfl h.1
  | cons c D => rfl

/-- Numbers and separators; the tokens; how many there are at least. -/
inductive DayChain : List Char → List (List Char) → Nat → Prop
  | num {D : List Char} (hD : IsNumeral D) : DayChain D [D] 1
  | sep {D R : List Char} {ts : List (List Char)} {n : Nat} (p : Char) (hD : D = [] ∨ IsNumeral D) (hp : p = ' ' ∨ p = ',' ∨ p = '.' ∨ p = ':') (h : DayChain R ts n) :
      DayChain (D ++ p :: R) ((if D.isEmpty then [] else [D]) ++ sepToken p ++ ts) (n + 1)

theorem DayChain.chars {T : List Char} {ts : List (List Char)} {n : Nat} (h : DayChain T ts n) : ∀ c ∈ T, dateChar c = true := by
  induction h with
  | num hD => exact numeral_date hD
  | sep p hD hp _ ih =>
    intro c hc
    simp only [List.mem_append, List.mem_cons] at hc
    rcases hc with hc | rfl | hc
    · rcases hD with rfl | hD
      · cases hc
      · exact numeral_date hD c hc
    · rcases hp with rfl | rfl | rfl | rfl <;> decide
    · exact ih c hc

theorem DayChain.some {T : List Char} {ts : List (List Char)} {n : Nat} (h : DayChain T ts n) : ∃ x ∈ T, isSpace x = false := by
  induction h with
  | num hD =>
    obtain ⟨x, hx⟩ := List.exists_mem_of_ne_nil _ hD.1
    exact ⟨x, hx, numeral_noSpace hD x hx⟩
  | sep p _ _ _ ih =>
    obtain ⟨x, hx, h⟩ := ih
    exact ⟨x, by simp [hx], h⟩

theorem DayChain.len {T : List Char} {ts : List (List Char)} {n : Nat} (h : DayChain T ts n) : n ≤ T.length := by
  induction h with
  | num hD => exact List.length_pos_iff.mpr hD.1
  | sep p _ _ _ ih => simp only [List.length_append, List.length_cons]; omega

theorem DayChain.split {U : Uni} {L : Lang} {w : List Char} (h : CutsWord U L w) {T : List Char} {ts : List (List Char)} {n : Nat} (hT : DayChain T ts n) :
    ∀ k, n ≤ k → splitByKnownFuel U L false k T = ts := by
  induction hT with
  | num hD =>
    intro k hk
    obtain ⟨k, rfl⟩ : ∃ j, k = j + 1 := ⟨k - 1, by omega⟩
    exact split_digits h hD k
  | sep p hD hp hR ih =>
    intro k hk
    obtain ⟨k, rfl⟩ : ∃ j, k = j + 1 := ⟨k - 1, by omega⟩
    obtain ⟨x, hx, hxs⟩ := hR.some
    have hdc := (DayChain.sep p hD hp hR).chars
    rw [split_sep h hD hp (framed_plain hdc) (one_plain hdc) (fun c hc => hR.chars c (List.mem_of_head? hc)) hx hxs k, ih k (by omega)]

theorem DayChain.of_eq {T T' : List Char} {ts ts' : List (List Char)} {n : Nat} (h : DayChain T ts n) (e : T' = T) (e' : ts' = ts) : DayChain T' ts' n := by
  rw [e, e']; exact h

/-- A number and what follows it. -/
theorem tail_chain {Z Zo : List Char} {ts : List (List Char)} (h : IsTail Z Zo ts) {N : List Char} (hN : IsNumeral N) : ∃ n, DayChain (N ++ Z) (N :: ts) n := by
  have bN := numeral_ne_empty hN
  have led : ∀ (c : Bool) {R : List Char} {rs : List (List Char)} {n : Nat}, DayChain R rs n → ∃ n, DayChain (N ++ (lead c ++ R)) (N :: [' '] :: rs) n := by
    intro c R rs n hR
    cases c
    · exact ⟨_, (DayChain.sep ' ' (Or.inr hN) (by simp) hR).of_eq rfl (by simp [bN, sepToken])⟩
    · exact ⟨_, (DayChain.sep ',' (Or.inr hN) (by simp) (DayChain.sep (D := []) ' ' (Or.inl rfl) (by simp) hR)).of_eq rfl (by simp [bN, sepToken])⟩
  cases h with
  | nil => exact ⟨1, by simpa using DayChain.num hN⟩
  | hm c h m hh hm =>
    obtain ⟨n, hc⟩ := led c (DayChain.sep ':' (Or.inr hh) (by simp) (DayChain.num hm))
    exact ⟨n, hc.of_eq rfl (by simp [numeral_ne_empty hh, sepToken])⟩
  | hms c h m s hh hm hs =>
    obtain ⟨n, hc⟩ := led c (DayChain.sep ':' (Or.inr hh) (by simp) (DayChain.sep ':' (Or.inr hm) (by simp) (DayChain.num hs)))
    exact ⟨n, hc.of_eq rfl (by simp [numeral_ne_empty hh, numeral_ne_empty hm, sepToken])⟩

/-- The tokens after the word. -/
def _root_.Verif.Spec.WordForm.later (f : WordForm) (D Y : List Char) : List (List Char) :=
  match f with
  | .dayFirst => [[' '], Y]
  | .dotted => [[' '], Y]
  | .comma => [[' '], D, [' '], Y]
  | .plain => [[' '], D, [' '], Y]
  | .yearFirst => [[' '], D]

theorem after_chain (f : WordForm) {D Y Z Zo : List Char} {ts : List (List Char)} (hD : IsNumeral D) (hY : IsNumeral Y) (hZ : IsTail Z Zo ts) :
    ∃ n, DayChain (f.after D Y ++ Z) (f.later D Y ++ ts) n := by
  have sp : ∀ {R : List Char} {rs : List (List Char)} {n : Nat}, DayChain R rs n → ∃ n, DayChain (' ' :: R) ([' '] :: rs) n := fun hR =>
    ⟨_, (DayChain.sep (D := []) ' ' (Or.inl rfl) (by simp) hR).of_eq rfl rfl⟩
  have bD := numeral_ne_empty hD
  obtain ⟨ny, cy⟩ := tail_chain hZ hY
  obtain ⟨nd, cd⟩ := tail_chain hZ hD
  cases f
  · obtain ⟨n, h⟩ := sp cy; exact ⟨n, h⟩
  · obtain ⟨n, h⟩ := sp cy; exact ⟨n, h⟩
  · obtain ⟨n1, h1⟩ := sp cy
    obtain ⟨n, h⟩ := sp (DayChain.sep (D := D) ',' (Or.inr hD) (by simp) h1)
    exact ⟨n, h.of_eq (by simp [WordForm.after]) (by simp [WordForm.later, bD, sepToken])⟩
  · obtain ⟨n, h⟩ := sp (DayChain.sep (D := D) ' ' (Or.inr hD) (by simp) cy)
    exact ⟨n, h.of_eq (by simp [WordForm.after]) (by simp [WordForm.later, bD, sepToken])⟩
  · obtain ⟨n, h⟩ := sp cd; exact ⟨n, h⟩

theorem IsTail.chars {Z Zo : List Char} {ts : List (List Char)} (h : IsTail Z Zo ts) : ∀ c ∈ Z, dateChar c = true := by
  intro c hc
  obtain ⟨n, h⟩ := tail_chain h (N := ['1']) (by unfold IsNumeral; decide)
  exact h.chars c (by simp [hc])

theorem after_chars (f : WordForm) {D Y Z Zo : List Char} {ts : List (List Char)} (hD : IsNumeral D) (hY : IsNumeral Y) (hZ : IsTail Z Zo ts) :
    (∀ c ∈ f.after D Y ++ Z, dateChar c = true) ∧ (∀ c, (f.after D Y ++ Z).head? = some c → c = ' ') := by
  refine ⟨fun c hc => ?_, fun c hc => ?_⟩
  · rcases List.mem_append.mp hc with hc | hc
    · exact (form_after f hD hY).1 c hc
    · exact hZ.chars c hc
  · cases f <;> simpa [WordForm.after] using hc.symm

theorem form_eq_tail (f : WordForm) (D w Y Z : List Char) : f.write D w Y ++ Z = f.before D Y ++ w ++ (f.after D Y ++ Z) := by
  rw [form_eq]; simp

theorem form_tokens {U : Uni} {L : Lang} {w : List Char} (h : CutsWord U L w) (hn : ∃ c ∈ w, U.isLetter c = true) (f : WordForm) {D Y Z Zo : List Char} {ts : List (List Char)}
    (hD : IsNumeral D) (hY : IsNumeral Y) (hZ : IsTail Z Zo ts) : splitByKnown U L false (f.write D w Y ++ Z) = f.tokens D w Y ++ ts := by
  obtain ⟨b1, b2⟩ := form_before f hD hY
  obtain ⟨a1, a2⟩ := after_chars f hD hY hZ
  obtain ⟨n, hch⟩ := after_chain f hD hY hZ
  have hnl := hch.len
  have hlen : ∃ k, (f.write D w Y ++ Z).length + 1 = k + 2 ∧ n ≤ k := by
    have l1 := List.length_pos_iff.mpr h.nonempty
    refine ⟨(f.write D w Y ++ Z).length + 1 - 2, ?_⟩
    rw [form_eq_tail]
    simp only [List.length_append] at hnl ⊢
    omega
  obtain ⟨k, hk, hkn⟩ := hlen
  have hae : (f.after D Y ++ Z).isEmpty = false := by cases f <;> rfl
  unfold splitByKnown
  rw [hk, form_eq_tail]
  cases f
  · have e := split_word h hn (D := D) (A := WordForm.dayFirst.before D Y) (Or.inr hD) (Or.inr rfl) a1 a2 (k + 1)
    rw [e, hae, hch.split h _ (by omega), numeral_ne_empty hD]
    cases D <;> rfl
  · have hF := framed_word h.letters b1 a1
    have hO := one_word h.letters b1 a1 b2 a2
    have e : WordForm.dotted.before D Y ++ w ++ (WordForm.dotted.after D Y ++ Z) = D ++ '.' :: ([' '] ++ w ++ (WordForm.dotted.after D Y ++ Z)) := by
      simp [WordForm.before]
    rw [e] at hF hO ⊢
    obtain ⟨x, hx, hxs⟩ := hch.some
    rw [split_sep h (Or.inr hD) (by simp) hF hO (fun c hc => by
      have : c = ' ' := by simpa using hc.symm
      subst this; decide) (x := x) (List.mem_append_right _ hx) hxs]
    have e := split_word h hn (D := []) (A := [' ']) (Or.inl rfl) (Or.inr rfl) a1 a2 k
    rw [e, hae, hch.split h _ (by omega), numeral_ne_empty hD]
    rfl
  · have e := split_word h hn (D := []) (A := WordForm.comma.before D Y) (Or.inl rfl) (Or.inl ⟨rfl, rfl⟩) a1 a2 (k + 1)
    rw [e, hae, hch.split h _ (by omega)]
    rfl
  · have e := split_word h hn (D := []) (A := WordForm.plain.before D Y) (Or.inl rfl) (Or.inl ⟨rfl, rfl⟩) a1 a2 (k + 1)
    rw [e, hae, hch.split h _ (by omega)]
    rfl
  · have e := split_word h hn (D := Y) (A := WordForm.yearFirst.before D Y) (Or.inr hY) (Or.inr rfl) a1 a2 (k + 1)
    rw [e, hae, hch.split h _ (by omega), numeral_ne_empty hY]
    cases Y <;> rfl

end Verif.Lemmas
