import Verif.Lemmas.SearchChunks
import Verif.Spec.SearchEnglish
import Verif.Lemmas.EnMonth
/-! # The words of an English text with dates in it -/
set_option autoImplicit false
namespace Verif.Lemmas
open Verif.Go Verif.Model Verif.Spec Verif.Data

/-! ## The English dictionary -/

/-- The words that are rewritten beforehand. -/
def rewriteWords : List (List Char) :=
  ["a", "an", "noon", "midnight", "later", "ago", "now", "one", "two", "three", "four", "five", "six", "seven", "eight", "nine", "ten", "eleven",
    "twelve"].map String.toList

theorem vocabulary_split : englishVocabulary = englishEntries.flatMap fields ++ rewriteWords := rfl

theorem rewrites_need : (enData.simplifications.all fun x => x.1.needs rewriteWords false) = true := by decide +kernel

theorem entries_nodigit : (englishEntries.all fun e => e.all fun c => !c.isDigit) = true := by decide +kernel

theorem entries_fields_nodigit : (englishEntries.all fun e => (fields e).all fun w => w.all fun c => !c.isDigit) = true := by decide +kernel

theorem vocabulary_pure : (englishVocabulary.all fun w => w.all Char.isAlpha || w.all fun c => !c.isAlpha) = true := by decide +kernel

theorem entries_single : (englishEntries.all fun e => (fields e).length != 1 || e == (fields e).headD []) = true := by decide +kernel

/-- The words that begin an entry of several words. -/
def leading : List (List Char) := (englishEntries.filter fun e => (fields e).length == 2).map fun e => (fields e).headD []

theorem months_not_leading : (monthNames.all fun x => !leading.contains x.1) = true := by decide +kernel
theorem links_not_leading : (linkWords.all fun x => !leading.contains x) = true := by decide +kernel
theorem links_known : (linkWords.all fun x => (enData.relativeType.lookup x).isNone && decide (enData.translations.lookup x = some [[]])) = true := by decide +kernel
theorem links_plain : (linkWords.all fun x => !x.isEmpty && x.all Char.isLower && !rewriteWords.contains x) = true := by decide +kernel
theorem months_known : (monthNames.all fun x => (enData.relativeType.lookup x.1).isNone && decide (enData.translations.lookup x.1 = some [fullName x.2])) = true := by
  decide +kernel
theorem months_plain : (monthNames.all fun x => !x.1.isEmpty && x.1.all Char.isLower && !rewriteWords.contains x.1) = true := by decide +kernel
theorem rewrites_lower : (rewriteWords.all fun x => !x.isEmpty && x.all Char.isLower) = true := by decide +kernel

variable {U : Uni}

/-- What is in the dictionary is one of its entries. -/
theorem dict_entry {w : List Char} (h : (enData.lang U).inDictionary w = true) : w ∈ englishEntries := by
  unfold Lang.inDictionary Lang.translateWord at h
  unfold englishEntries
  rw [List.mem_append]
  split at h
  · rename_i t ht
    exact Or.inr (List.mem_map.mpr ⟨_, Props.lookup_mem _ _ _ ht, rfl⟩)
  · obtain ⟨t, ht⟩ := Option.isSome_iff_exists.mp h
    exact Or.inl (List.mem_map.mpr ⟨_, Props.lookup_mem _ _ _ ht, rfl⟩)

theorem fields_word {w : List Char} (h : Word w) : fields w = [w] := by
  have := fields_join [w] (by simpa using h)
  simpa [joinWith] using this

theorem dict_vocabulary {w : List Char} (hw : Word w) (h : (enData.lang U).inDictionary w = true) : w ∈ englishVocabulary := by
  rw [vocabulary_split]
  refine List.mem_append_left _ (List.mem_flatMap.mpr ⟨w, dict_entry h, ?_⟩)
  rw [fields_word hw]; simp

theorem leading_vocabulary {w : List Char} (h : w ∈ leading) : w ∈ englishVocabulary := by
  unfold leading at h
  obtain ⟨e, he, rfl⟩ := List.mem_map.mp h
  obtain ⟨he, hl⟩ := List.mem_filter.mp he
  rw [vocabulary_split]
  refine List.mem_append_left _ (List.mem_flatMap.mpr ⟨e, he, ?_⟩)
  cases hf : fields e with
  | nil => rw [hf] at hl; simp at hl
  | cons a r => simp

theorem join_two {w next : List Char} : joinChunk (enData.lang U) [w, next] = collapseSpaces (w ++ ' ' :: next) := by
  unfold joinChunk
  rw [if_neg (by show ¬ (false = true); simp)]
  simp [joinWith]

/-- A word that begins no entry is not joined with the next. -/
theorem alone_of {w next : List Char} (hw : Word w) (hn : next = [] ∨ Word next) (hl : w ∉ leading) : Alone (enData.lang U) w next := by
  refine ⟨hw.1, ?_, ?_⟩
  · rintro rfl
    have := hw.2 ' ' (by simp)
    exact absurd this (by decide)
  · cases hc : (enData.lang U).inDictionary (joinChunk (enData.lang U) [w, next]) with
    | false => rfl
    | true =>
      rcases hn with rfl | hn
      · rw [join_two, collapse_word hw] at hc
        have := (Props.english_spaced U).trimmed w hw.1 hw.2
        unfold Lang.inDictionary at hc
        rw [this] at hc
        simp at hc
      · have he := dict_entry hc
        have hf : fields (joinChunk (enData.lang U) [w, next]) = [w, next] := by
          rw [fields_joinChunk rfl]
          simp [fields_word hw, fields_word hn]
        refine absurd ?_ hl
        unfold leading
        refine List.mem_map.mpr ⟨_, List.mem_filter.mpr ⟨he, by rw [hf]; rfl⟩, by rw [hf]; rfl⟩

/-! ## Kinds of words -/

/-- A word of digits and separators. -/
structure NumWord (w : List Char) : Prop where
  chars : ∀ c ∈ w, c.isDigit = true ∨ c = '/' ∨ c = '-' ∨ c = ','
  digit : ∃ c ∈ w, c.isDigit = true

theorem NumWord.char {w : List Char} (h : NumWord w) {c : Char} (hc : c ∈ w) : c.toNat < 128 ∧ isSpace c = false ∧ c.isAlpha = false ∧ toLowerC c = c ∧ c ∉ terminators 1 := by
  rcases h.chars c hc with h | rfl | rfl | rfl
  · have key : ∀ i : Fin 128, (Char.ofNat i).isDigit = true → isSpace (Char.ofNat i) = false ∧ (Char.ofNat i).isAlpha = false ∧ toLowerC (Char.ofNat i) = Char.ofNat i ∧
        Char.ofNat i ∉ terminators 1 := by decide +kernel
    have h128 : c.toNat < 128 := by
      simp only [Char.isDigit, Bool.and_eq_true, decide_eq_true_eq] at h
      have : c.val.toNat ≤ 57 := h.2
      show c.val.toNat < 128
      omega
    have := key ⟨c.toNat, h128⟩
    simp only [char_of_nat] at this
    exact ⟨h128, this h⟩
  · decide
  · decide
  · decide

theorem NumWord.word {w : List Char} (h : NumWord w) : Word w := by
  obtain ⟨c, hc, _⟩ := h.digit
  exact ⟨by rintro rfl; simp at hc, fun c hc => (h.char hc).2.1⟩

theorem NumWord.lower {w : List Char} (h : NumWord w) : toLower w = w := by
  unfold toLower
  conv => rhs; rw [← List.map_id w]
  exact List.map_congr_left fun c hc => (h.char hc).2.2.2.1

theorem digit_not_entry {w : List Char} (h : ∃ c ∈ w, c.isDigit = true) : (enData.lang U).inDictionary w = false := by
  cases hc : (enData.lang U).inDictionary w with
  | false => rfl
  | true =>
    obtain ⟨c, hm, hd⟩ := h
    have := List.all_eq_true.mp (List.all_eq_true.mp entries_nodigit _ (dict_entry hc)) c hm
    rw [hd] at this; simp at this

theorem digit_not_leading {w : List Char} (h : ∃ c ∈ w, c.isDigit = true) : w ∉ leading := by
  intro hl
  unfold leading at hl
  obtain ⟨e, he, rfl⟩ := List.mem_map.mp hl
  obtain ⟨he, hlen⟩ := List.mem_filter.mp he
  obtain ⟨c, hm, hd⟩ := h
  have := List.all_eq_true.mp entries_fields_nodigit e he
  cases hf : fields e with
  | nil => rw [hf] at hlen; simp at hlen
  | cons a r =>
    rw [hf] at hm this
    simp only [List.headD_cons] at hm
    rw [List.all_cons, Bool.and_eq_true] at this
    have := List.all_eq_true.mp this.1 c hm
    rw [hd] at this; simp at this

/-- Trimming keeps what is not trimmed. -/
theorem trim_mem {w cs : List Char} {c : Char} (hc : c ∈ w) (hn : cs.contains c = false) : c ∈ trimChars w cs := by
  have step : ∀ l : List Char, c ∈ l → c ∈ l.dropWhile cs.contains := by
    intro l
    induction l with
    | nil => simp
    | cons a r ih =>
      intro h
      rw [List.dropWhile_cons]
      split
      · rename_i ha
        rcases List.mem_cons.mp h with rfl | h
        · rw [hn] at ha; simp at ha
        · exact ih h
      · exact h
  unfold trimChars
  rw [List.mem_reverse]
  exact step _ (by rw [List.mem_reverse]; exact step _ hc)

theorem digit_not_punct {c : Char} (h : c.isDigit = true) : searchPunct.contains c = false := by
  cases hc : searchPunct.contains c with
  | false => rfl
  | true =>
    have : ∀ d ∈ searchPunct, d.isDigit = false := by decide
    have := this c (by simpa using hc)
    rw [h] at this; simp at this

/-- A number is kept as it is. -/
theorem NumWord.kept {w : List Char} (h : NumWord w) : Kept (enData.lang U) w w := by
  obtain ⟨c, hc, hd⟩ := h.digit
  refine Or.inr ⟨digit_not_entry h.digit, digit_not_entry ⟨c, trim_mem hc (digit_not_punct hd), hd⟩, ?_, rfl⟩
  unfold digitsOk
  rw [if_neg (by show ¬ (false = true); simp)]
  exact List.any_eq_true.mpr ⟨c, hc, hd⟩

theorem NumWord.alone {w next : List Char} (h : NumWord w) (hn : next = [] ∨ Word next) : Alone (enData.lang U) w next :=
  alone_of h.word hn (digit_not_leading h.digit)

/-- A word of small letters. -/
structure LowerWord (w : List Char) : Prop where
  ne : w ≠ []
  lower : ∀ c ∈ w, c.isLower = true

theorem lower_facts {c : Char} (h : c.isLower = true) : c.toNat < 128 ∧ isSpace c = false ∧ c.isDigit = false ∧ c.isAlpha = true ∧ c.isUpper = false ∧ c ∉ terminators 1 := by
  have key : ∀ i : Fin 128, (Char.ofNat i).isLower = true → isSpace (Char.ofNat i) = false ∧ (Char.ofNat i).isDigit = false ∧ (Char.ofNat i).isAlpha = true ∧
      (Char.ofNat i).isUpper = false ∧ Char.ofNat i ∉ terminators 1 := by decide +kernel
  have h128 : c.toNat < 128 := by
    simp only [Char.isLower, Bool.and_eq_true, decide_eq_true_eq] at h
    have h2 : c.val.toNat ≤ 122 := h.2
    show c.val.toNat < 128
    omega
  have := key ⟨c.toNat, h128⟩
  simp only [char_of_nat] at this
  exact ⟨h128, this h⟩

theorem LowerWord.word {w : List Char} (h : LowerWord w) : Word w := ⟨h.ne, fun c hc => (lower_facts (h.lower c hc)).2.1⟩

theorem LowerWord.dash {w : List Char} (h : LowerWord w) : isDash w = false := by
  cases hc : isDash w with
  | false => rfl
  | true =>
    have key : ∀ d ∈ [['-'], ['—', '—'], ['—'], ['～']], ∃ c ∈ d, c.isLower = false := by decide
    unfold isDash at hc
    obtain ⟨c, h1, h2⟩ := key w (by simpa using hc)
    rw [h.lower c h1] at h2; simp at h2

theorem alpha_facts {c : Char} (h : c.isAlpha = true) : c.toNat < 128 ∧ isSpace c = false ∧ c.isDigit = false ∧ (toLowerC c).isLower = true ∧ c ∉ terminators 1 := by
  have key : ∀ i : Fin 128, (Char.ofNat i).isAlpha = true → isSpace (Char.ofNat i) = false ∧ (Char.ofNat i).isDigit = false ∧ (toLowerC (Char.ofNat i)).isLower = true ∧
      Char.ofNat i ∉ terminators 1 := by
    decide +kernel
  have h128 : c.toNat < 128 := by
    simp only [Char.isAlpha, Char.isUpper, Char.isLower, Bool.or_eq_true, Bool.and_eq_true, decide_eq_true_eq] at h
    show c.val.toNat < 128
    rcases h with h | h
    · have h2 : c.val.toNat ≤ 90 := h.2
      omega
    · have h2 : c.val.toNat ≤ 122 := h.2
      omega
  have := key ⟨c.toNat, h128⟩
  simp only [char_of_nat] at this
  exact ⟨h128, this h⟩

theorem lower_alpha {c : Char} (h : (toLowerC c).isLower = true) : c.isAlpha = true := by
  unfold toLowerC at h
  split at h
  · rename_i hc
    simp only [Char.isAlpha, Char.isUpper, Char.isLower, Bool.or_eq_true, Bool.and_eq_true, decide_eq_true_eq]
    exact Or.inl hc
  · simp [Char.isAlpha, h]

/-- The words before small letters were made. -/
theorem LowerWord.before {w : List Char} (h : LowerWord (toLower w)) : w ≠ [] ∧ ∀ c ∈ w, c.isAlpha = true := by
  refine ⟨by rintro rfl; exact h.ne rfl, fun c hc => lower_alpha (h.lower _ (List.mem_map.mpr ⟨c, hc, rfl⟩))⟩

theorem link_lower {w : List Char} (h : toLower w ∈ linkWords) : LowerWord (toLower w) := by
  have := List.all_eq_true.mp links_plain _ h
  simp only [Bool.and_eq_true, Bool.not_eq_true', List.isEmpty_eq_false_iff] at this
  exact ⟨this.1.1, List.all_eq_true.mp this.1.2⟩

theorem link_kept {w : List Char} (h : toLower w ∈ linkWords) : Kept (enData.lang U) (toLower w) [] := by
  refine Or.inl ⟨?_, (link_lower h).dash⟩
  have := List.all_eq_true.mp links_known _ h
  simp only [Bool.and_eq_true, Option.isNone_iff_eq_none, decide_eq_true_eq] at this
  unfold Lang.translateWord
  rw [show (enData.lang U).relativeType = enData.relativeType from rfl, this.1]
  exact this.2

theorem link_alone {w next : List Char} (h : toLower w ∈ linkWords) (hn : next = [] ∨ Word next) : Alone (enData.lang U) (toLower w) next := by
  refine alone_of (link_lower h).word hn ?_
  have := List.all_eq_true.mp links_not_leading _ h
  simpa using this

theorem month_lower {w : List Char} {n : Int} (h : IsMonthName w n) : LowerWord (toLower w) := by
  have := List.all_eq_true.mp months_plain _ h
  simp only [Bool.and_eq_true, Bool.not_eq_true', List.isEmpty_eq_false_iff] at this
  exact ⟨this.1.1, List.all_eq_true.mp this.1.2⟩

theorem month_kept {w : List Char} {n : Int} (h : IsMonthName w n) : Kept (enData.lang U) (toLower w) (fullName n) := by
  refine Or.inl ⟨?_, (month_lower h).dash⟩
  have := List.all_eq_true.mp months_known _ h
  simp only [Bool.and_eq_true, Option.isNone_iff_eq_none, decide_eq_true_eq] at this
  unfold Lang.translateWord
  rw [show (enData.lang U).relativeType = enData.relativeType from rfl, this.1]
  exact this.2

theorem month_alone {w next : List Char} {n : Int} (h : IsMonthName w n) (hn : next = [] ∨ Word next) : Alone (enData.lang U) (toLower w) next := by
  refine alone_of (month_lower h).word hn ?_
  have := List.all_eq_true.mp months_not_leading _ h
  simpa using this

/-! ## Fillers -/

theorem punct_facts {c : Char} (h : c ∈ wordPunctuation) : c.toNat < 128 ∧ isSpace c = false ∧ c.isDigit = false ∧ c.isAlpha = false ∧ toLowerC c = c ∧ c ∉ terminators 1 ∧
    searchPunct.contains c = true ∧ wordChar c = false ∧ c.isUpper = false := by
  have key : ∀ d ∈ wordPunctuation, d.toNat < 128 ∧ isSpace d = false ∧ d.isDigit = false ∧ d.isAlpha = false ∧ toLowerC d = d ∧ d ∉ terminators 1 ∧
    searchPunct.contains d = true ∧ wordChar d = false ∧ d.isUpper = false := by decide
  exact key c h

theorem letter_not_punct {c : Char} (h : c.isLower = true) : searchPunct.contains c = false := by
  cases hc : searchPunct.contains c with
  | false => rfl
  | true =>
    have : ∀ d ∈ searchPunct, d.isLower = false := by decide
    have := this c (by simpa using hc)
    rw [h] at this; simp at this

/-- A filler in small letters. -/
structure SmallFiller (w pre core post : List Char) : Prop where
  eq : w = pre ++ core ++ post
  punct : ∀ c ∈ pre ++ post, c ∈ wordPunctuation
  letters : LowerWord core
  known : core ∉ englishVocabulary

theorem filler_small {w : List Char} (h : IsFiller w) : ∃ pre core post, SmallFiller (toLower w) pre core post := by
  obtain ⟨pre, core, post, rfl, hp, hne, hc, hv⟩ := h
  have same : ∀ l : List Char, (∀ c ∈ l, c ∈ wordPunctuation) → toLower l = l := by
    intro l hl
    unfold toLower
    conv => rhs; rw [← List.map_id l]
    exact List.map_congr_left fun c hc => (punct_facts (hl c hc)).2.2.2.2.1
  refine ⟨pre, toLower core, post, ?_, hp, ⟨by simpa [toLower] using hne, ?_⟩, hv⟩
  · have : toLower (pre ++ core ++ post) = toLower pre ++ toLower core ++ toLower post := by simp [toLower]
    rw [this, same pre (fun c hc => hp c (by simp [hc])), same post (fun c hc => hp c (by simp [hc]))]
  · intro c hcm
    obtain ⟨x, hx, rfl⟩ := List.mem_map.mp hcm
    exact (alpha_facts (hc x hx)).2.2.2.1

theorem SmallFiller.char {w pre core post : List Char} (h : SmallFiller w pre core post) {c : Char} (hc : c ∈ w) :
    c ∈ wordPunctuation ∨ c.isLower = true := by
  rw [h.eq] at hc
  simp only [List.mem_append] at hc
  rcases hc with (hc | hc) | hc
  · exact Or.inl (h.punct c (by simp [hc]))
  · exact Or.inr (h.letters.lower c hc)
  · exact Or.inl (h.punct c (by simp [hc]))

theorem SmallFiller.word {w pre core post : List Char} (h : SmallFiller w pre core post) : Word w := by
  refine ⟨?_, ?_⟩
  · rw [h.eq]; have := h.letters.ne; simp [this]
  · intro c hc
    rcases h.char hc with hc | hc
    · exact (punct_facts hc).2.1
    · exact (lower_facts hc).2.1

theorem SmallFiller.unknown {w pre core post : List Char} (h : SmallFiller w pre core post) : w ∉ englishVocabulary := by
  intro hv
  by_cases hp : pre ++ post = []
  · rw [List.append_eq_nil_iff] at hp
    rw [h.eq, hp.1, hp.2] at hv
    simp at hv
    exact h.known hv
  · obtain ⟨a, ha⟩ := List.exists_mem_of_ne_nil _ hp
    obtain ⟨b, hb⟩ := List.exists_mem_of_ne_nil _ h.letters.ne
    have hpure := List.all_eq_true.mp vocabulary_pure _ hv
    have haw : a ∈ w := by rw [h.eq]; simp at ha ⊢; exact ha.elim Or.inl fun h => Or.inr (Or.inr h)
    have hbw : b ∈ w := by rw [h.eq]; simp [hb]
    rw [Bool.or_eq_true] at hpure
    rcases hpure with hp | hp
    · have := List.all_eq_true.mp hp a haw
      rw [(punct_facts (h.punct a ha)).2.2.2.1] at this; simp at this
    · have := List.all_eq_true.mp hp b hbw
      rw [(lower_facts (h.letters.lower b hb)).2.2.2.1] at this; simp at this

theorem SmallFiller.trimmed {w pre core post : List Char} (h : SmallFiller w pre core post) : trimChars w searchPunct = core := by
  have hd : ∀ (a b : List Char), (∀ c ∈ a, c ∈ wordPunctuation) → (∀ c, b.head? = some c → searchPunct.contains c = false) → (a ++ b).dropWhile searchPunct.contains = b := by
    intro a
    induction a with
    | nil =>
      intro b _ hb
      cases b with
      | nil => rfl
      | cons c b => rw [List.nil_append, List.dropWhile_cons, hb c rfl]; simp
    | cons c a ih =>
      intro b ha hb
      rw [List.cons_append, List.dropWhile_cons, (punct_facts (ha c (by simp))).2.2.2.2.2.2.1, if_pos rfl]
      exact ih b (fun x hx => ha x (by simp [hx])) hb
  have hhead : ∀ (l : List Char) (x : List Char), l ≠ [] → (∀ c ∈ l, c.isLower = true) → ∀ c, (l ++ x).head? = some c → searchPunct.contains c = false := by
    intro l x hne hl c hc
    cases l with
    | nil => exact absurd rfl hne
    | cons a l => simp at hc; subst hc; exact letter_not_punct (hl a (by simp))
  unfold trimChars
  rw [h.eq, List.append_assoc, hd pre (core ++ post) (fun c hc => h.punct c (by simp [hc])) (hhead core post h.letters.ne h.letters.lower)]
  rw [List.reverse_append, hd post.reverse core.reverse (fun c hc => h.punct c (by simp at hc; simp [hc])), List.reverse_reverse]
  have := hhead core.reverse [] (by simpa using h.letters.ne) (by intro c hc; exact h.letters.lower c (by simpa using hc))
  simpa using this

theorem SmallFiller.drops {w pre core post : List Char} (h : SmallFiller w pre core post) : Drops (enData.lang U) w := by
  refine ⟨?_, ?_, ?_⟩
  · cases hc : (enData.lang U).inDictionary w with
    | false => rfl
    | true => exact absurd (dict_vocabulary h.word hc) h.unknown
  · rw [h.trimmed]
    cases hc : (enData.lang U).inDictionary core with
    | false => rfl
    | true => exact absurd (dict_vocabulary h.letters.word hc) h.known
  · unfold digitsOk
    rw [if_neg (by show ¬ (false = true); simp)]
    rw [List.any_eq_false]
    intro c hc
    rcases h.char hc with hc | hc
    · simp [(punct_facts hc).2.2.1]
    · simp [(lower_facts hc).2.2.1]

theorem SmallFiller.alone {w next pre core post : List Char} (h : SmallFiller w pre core post) (hn : next = [] ∨ Word next) : Alone (enData.lang U) w next :=
  alone_of h.word hn fun hl => h.unknown (leading_vocabulary hl)

/-! ## Nothing is rewritten -/

/-- All runs of letters and digits are of one kind, and none is a word that is rewritten. -/
def Unrewritten (w : List Char) : Prop :=
  Plain w ∧ ∀ r ∈ runs wordChar w, r ∉ rewriteWords ∧ ((∀ c ∈ r, c.isDigit = false) ∨ ∀ c ∈ r, c.isLower = false)

theorem unrewritten_join {ws : List (List Char)} (h : ∀ w ∈ ws, Unrewritten w) : Unrewritten (joinWith [' '] ws) := by
  constructor
  · intro c hc
    have : ∀ (ws : List (List Char)), c ∈ joinWith [' '] ws → c = ' ' ∨ ∃ w ∈ ws, c ∈ w := by
      intro ws
      induction ws with
      | nil => intro h; simp [joinWith] at h
      | cons x r ih =>
        intro h
        cases r with
        | nil => simp [joinWith] at h; exact Or.inr ⟨x, by simp, h⟩
        | cons y r =>
          have e : joinWith [' '] (x :: y :: r) = x ++ ' ' :: joinWith [' '] (y :: r) := by simp [joinWith]
          rw [e] at h
          simp only [List.mem_append, List.mem_cons] at h
          rcases h with h | h | h
          · exact Or.inr ⟨x, by simp, h⟩
          · exact Or.inl h
          · rcases ih h with h | ⟨w, hw, hc⟩
            · exact Or.inl h
            · exact Or.inr ⟨w, by simp [List.mem_cons.mp hw], hc⟩
    rcases this ws hc with rfl | ⟨w, hw, hc⟩
    · decide
    · exact (h w hw).1 c hc
  · intro r hr
    rw [runs_join (by decide)] at hr
    obtain ⟨w, hw, hr⟩ := List.mem_flatMap.mp hr
    exact (h w hw).2 r hr

theorem digit_wordChar {c : Char} (h : c.isDigit = true) : wordChar c = true := by simp [wordChar, h]
theorem lower_wordChar {c : Char} (h : c.isLower = true) : wordChar c = true := by simp [wordChar, (lower_facts h).2.2.2.1]

theorem unrewritten_simplify (hU : AsciiUni U) {s : List Char} (h : Unrewritten s) : simplify (enData.lang U) s = s := by
  refine simplify_none hU (ws := rewriteWords) (by decide) rewrites_need h.1 ?_
  rintro (⟨w, hw, hr⟩ | ⟨a, x, y, b, rfl, hx, hy⟩)
  · exact (h.2 w hr).1 hw
  · obtain ⟨r, hr, hxr, hyr⟩ := runs_pair (q := wordChar) (lower_wordChar hx) (digit_wordChar hy) a b
    rcases (h.2 r hr).2 with h | h
    · have := h y hyr; rw [hy] at this; simp at this
    · have := h x hxr; rw [hx] at this; simp at this

theorem runs_mem {q : Char → Bool} : ∀ (s cur : List Char), ∀ r ∈ runsAux q s cur, ∀ c ∈ r, c ∈ s ∨ c ∈ cur := by
  intro s
  induction s with
  | nil =>
    intro cur r hr c hc
    unfold runsAux at hr
    split at hr
    · simp at hr
    · simp at hr; subst hr; right; simpa using hc
  | cons x s ih =>
    intro cur r hr c hc
    unfold runsAux at hr
    split at hr
    · rcases ih _ r hr c hc with h | h
      · exact Or.inl (by simp [h])
      · rcases List.mem_cons.mp h with rfl | h
        · exact Or.inl (by simp)
        · exact Or.inr h
    · rcases List.mem_append.mp hr with hr | hr
      · split at hr
        · simp at hr
        · simp at hr; subst hr; right; simpa using hc
      · rcases ih _ r hr c hc with h | h
        · exact Or.inl (by simp [h])
        · simp at h

theorem digit_facts {c : Char} (h : c.isDigit = true) : c.toNat < 128 ∧ c.isUpper = false ∧ c.isLower = false := by
  have key : ∀ i : Fin 128, (Char.ofNat i).isDigit = true → (Char.ofNat i).isUpper = false ∧ (Char.ofNat i).isLower = false := by decide +kernel
  have h128 : c.toNat < 128 := by
    simp only [Char.isDigit, Bool.and_eq_true, decide_eq_true_eq] at h
    have : c.val.toNat ≤ 57 := h.2
    show c.val.toNat < 128
    omega
  have := key ⟨c.toNat, h128⟩
  simp only [char_of_nat] at this
  exact ⟨h128, this h⟩

theorem NumWord.unrewritten {w : List Char} (h : NumWord w) : Unrewritten w := by
  have hc : ∀ c ∈ w, c.toNat < 128 ∧ c.isUpper = false ∧ c.isLower = false := by
    intro c hc
    rcases h.chars c hc with h | rfl | rfl | rfl
    · exact digit_facts h
    · decide
    · decide
    · decide
  refine ⟨fun c h => ⟨(hc c h).1, (hc c h).2.1⟩, ?_⟩
  intro r hr
  have hl : ∀ c ∈ r, c.isLower = false := by
    intro c hcr
    rcases runs_mem w [] r hr c hcr with h | h
    · exact (hc c h).2.2
    · simp at h
  refine ⟨?_, Or.inr hl⟩
  intro hw
  have := List.all_eq_true.mp rewrites_lower _ hw
  simp only [Bool.and_eq_true, Bool.not_eq_true', List.isEmpty_eq_false_iff] at this
  obtain ⟨a, ha⟩ := List.exists_mem_of_ne_nil _ this.1
  have h1 := List.all_eq_true.mp this.2 a ha
  rw [hl a ha] at h1; simp at h1

theorem LowerWord.unrewritten {w : List Char} (h : LowerWord w) (hn : w ∉ rewriteWords) : Unrewritten w := by
  refine ⟨fun c hc => ⟨(lower_facts (h.lower c hc)).1, (lower_facts (h.lower c hc)).2.2.2.2.1⟩, ?_⟩
  rw [runs_self (fun c hc => lower_wordChar (h.lower c hc)) h.ne]
  intro r hr
  simp at hr; subst hr
  exact ⟨hn, Or.inl fun c hc => (lower_facts (h.lower c hc)).2.2.1⟩

theorem runs_none {q : Char → Bool} {s : List Char} (h : ∀ c ∈ s, q c = false) : runs q s = [] := by
  induction s with
  | nil => rfl
  | cons c s ih => rw [runs_skip (h c (by simp)), ih fun x hx => h x (by simp [hx])]

theorem runs_prefix {q : Char → Bool} {a b : List Char} (h : ∀ c ∈ a, q c = false) : runs q (a ++ b) = runs q b := by
  induction a with
  | nil => rfl
  | cons c s ih => rw [List.cons_append, runs_skip (h c (by simp)), ih fun x hx => h x (by simp [hx])]

theorem SmallFiller.unrewritten {w pre core post : List Char} (h : SmallFiller w pre core post) : Unrewritten w := by
  have hcore := LowerWord.unrewritten h.letters (fun hr => h.known (by rw [vocabulary_split]; exact List.mem_append_right _ hr))
  have hruns : runs wordChar w = runs wordChar core := by
    rw [h.eq, List.append_assoc, runs_prefix fun c hc => (punct_facts (h.punct c (by simp [hc]))).2.2.2.2.2.2.2.1]
    cases hp : post with
    | nil => simp
    | cons c p =>
      have hpp : ∀ x ∈ post, wordChar x = false := fun x hx => (punct_facts (h.punct x (by simp [hx]))).2.2.2.2.2.2.2.1
      rw [hp] at hpp
      rw [runs_sep (hpp c (by simp)), runs_none (q := wordChar) (s := p) fun x hx => hpp x (by simp [hx]), List.append_nil]
  refine ⟨?_, by rw [hruns]; exact hcore.2⟩
  intro c hc
  rcases h.char hc with hc | hc
  · exact ⟨(punct_facts hc).1, (punct_facts hc).2.2.2.2.2.2.2.2⟩
  · exact ⟨(lower_facts hc).1, (lower_facts hc).2.2.2.2.1⟩

theorem link_unrewritten {w : List Char} (h : toLower w ∈ linkWords) : Unrewritten (toLower w) := by
  refine (link_lower h).unrewritten ?_
  have := List.all_eq_true.mp links_plain _ h
  simp only [Bool.and_eq_true, Bool.not_eq_true'] at this
  simpa using this.2

theorem month_unrewritten {w : List Char} {n : Int} (h : IsMonthName w n) : Unrewritten (toLower w) := by
  refine (month_lower h).unrewritten ?_
  have := List.all_eq_true.mp months_plain _ h
  simp only [Bool.and_eq_true, Bool.not_eq_true'] at this
  simpa using this.2

end Verif.Lemmas
