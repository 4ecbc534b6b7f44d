import Verif.Lemmas.Chunks
import Verif.Props.Search
import Verif.Data.Dicts
import Verif.Data.LangEn
import Verif.Data.LangYue
/-! # C32, C33, C40: searching a text -/
set_option autoImplicit false
namespace Verif.Props
open Verif.Go Verif.Model Verif.Spec Verif.Lemmas

/-- **C32.** The sentences of a text make it up, in order, but for white space and the punctuation that ends sentences. -/
theorem C32_sentences (U : Uni) (L : Lang) (str : List Char) (hg : L.splitterGroup ≠ 2) :
    ∃ l, splitSentence U L str = some l ∧
      Sentences (fun c => isSpace c = true ∨ c ∈ terminators (if L.splitterGroup < 1 ∨ L.splitterGroup > 6 then 1 else L.splitterGroup)) l str :=
  splitSentence_spec U L str hg

/-- **C32.** In Spanish also the marks that open a question or an exclamation are left out; a text without them is split. -/
theorem C32_sentences_spanish (U : Uni) (L : Lang) (str : List Char) (hg : L.splitterGroup = 2) :
    ((∀ c ∈ str, ¬ opening c) → ∃ l, splitSentence U L str = some l) ∧
    ∀ l, splitSentence U L str = some l → Sentences (fun c => isSpace c = true ∨ c ∈ terminators 2 ∨ opening c) l str :=
  splitSentence_spanish U L str hg

/-- The chunks of a text in a language with spaces. -/
theorem translateSearch_chunks (U : Uni) (L : Lang) (hL : SpacedDictionary L) (isTz : List Char → Bool) (skip : List (List Char)) (str : List Char)
    (sentences : List (List Char)) (hs : splitSentence U L str = some sentences) (hsen : ∀ s ∈ sentences, s <:+: str) :
    ∃ tr og, translateSearch U L isTz skip str = some (tr, og) ∧ tr.length = og.length ∧
      ∀ o ∈ og, ∃ u, u <:+: str ∧ SameWords u o := by
  obtain ⟨chunks, hc⟩ := sentencesLoop_some (U := U) hL isTz (mapSkippedTokens skip L) sentences
  unfold translateSearch
  rw [hs]
  simp only [Option.bind_eq_bind, Option.bind_some, hc]
  refine ⟨_, _, rfl, by simp, ?_⟩
  intro o ho
  obtain ⟨c, hcm, rfl⟩ := List.mem_map.mp ho
  obtain ⟨s, hsm, hinf⟩ := sentencesLoop_infix (U := U) hL.spaces isTz (mapSkippedTokens skip L) sentences chunks hc c hcm
  obtain ⟨u, hu, hf⟩ := infix_words hinf
  refine ⟨u, hu.trans (hsen s hsm), ?_⟩
  unfold SameWords
  rw [hf, fields_joinChunk hL.spaces]
  unfold filterChunk
  generalize c.1 = l
  induction l with
  | nil => rfl
  | cons x r ih =>
    rw [List.flatMap_cons, List.filter_cons]
    cases x with
    | nil => simpa [show fields [] = [] from rfl] using ih
    | cons a x => simpa using ih

/-- The sentences of a text in a language with spaces are pieces of it; only Spanish may have none. -/
theorem sentences_pieces (U : Uni) (L : Lang) (str : List Char) :
    ((L.splitterGroup = 2 → ∀ c ∈ str, ¬ opening c) → ∃ l, splitSentence U L str = some l) ∧
    ∀ l, splitSentence U L str = some l → ∀ s ∈ l, s <:+: str := by
  by_cases hg : L.splitterGroup = 2
  · obtain ⟨h1, h2⟩ := splitSentence_spanish U L str hg
    exact ⟨fun h => h1 (h hg), fun l hl => (h2 l hl).infix⟩
  · obtain ⟨l, h1, h2⟩ := splitSentence_spec U L str hg
    refine ⟨fun _ => ⟨l, h1⟩, ?_⟩
    intro l' hl
    rw [h1] at hl
    injection hl with hl
    subst hl
    exact h2.infix

section
variable {σ τ D : Type}

/-- The search ends when the text is cut into chunks. -/
theorem search_of_chunks (U : Uni) (env : SearchEnv σ τ D) (L : Lang) (isTz : List Char → Bool) (skip : List (List Char)) (lang str : List Char)
    (st : σ × Option τ) (tr og : List (List Char)) (h1 : translateSearch U L isTz skip str = some (tr, og)) (h2 : tr.length = og.length) :
    ∃ out, searchWithLanguage U env L isTz skip lang str st = some out := by
  obtain ⟨st', res, subs, h3, h4, _⟩ := C32_found env (!(lang == ['v', 'i'] || lang == ['h', 'u'])) tr og h2 st
  unfold searchWithLanguage
  rw [h1]
  simp only [Option.bind_eq_bind, Option.bind_some, h3]
  rw [if_pos (by omega)]
  exact ⟨_, rfl⟩

/-- **C33.** In a language written with spaces, searching any text ends without a panic, whatever the parser does; in
Spanish, any text without an opening `¿` or `¡`. -/
theorem C33_no_panic_partial (U : Uni) (env : SearchEnv σ τ D) (L : Lang) (hL : SpacedDictionary L) (isTz : List Char → Bool)
    (skip : List (List Char)) (lang str : List Char) (hsp : L.splitterGroup = 2 → ∀ c ∈ str, ¬ opening c) (st : σ × Option τ) :
    ∃ out, searchWithLanguage U env L isTz skip lang str st = some out := by
  obtain ⟨h1, h2⟩ := sentences_pieces U L str
  obtain ⟨l, hl⟩ := h1 hsp
  obtain ⟨tr, og, h3, h4, _⟩ := translateSearch_chunks U L hL isTz skip str l hl (h2 l hl)
  exact search_of_chunks U env L isTz skip lang str st tr og h3 h4

/-- **C33.** In Chinese and Japanese, searching any text ends without a panic, whatever the parser does. -/
theorem C33_unspaced (U : Uni) (env : SearchEnv σ τ D) (L : Lang) (hL : UnspacedLanguage L) (isTz : List Char → Bool)
    (skip : List (List Char)) (lang str : List Char) (st : σ × Option τ) :
    ∃ out, searchWithLanguage U env L isTz skip lang str st = some out := by
  obtain ⟨sentences, hs, _⟩ := splitSentence_spec U L str hL.group
  obtain ⟨chunks, hc⟩ := sentencesLoop_some_unspaced (U := U) hL isTz (mapSkippedTokens skip L) sentences
  refine search_of_chunks U env L isTz skip lang str st
    (chunks.map fun c => joinChunk L (filterChunk (clearFutureWords c.2))) (chunks.map fun c => joinChunk L (filterChunk c.1)) ?_ (by simp)
  unfold translateSearch
  rw [hs]
  simp only [Option.bind_eq_bind, Option.bind_some, hc]
  rfl

/-- **C40.** In a language written with spaces, every text returned has the words of a piece of the searched text. -/
theorem C40_found_text (U : Uni) (env : SearchEnv σ τ D) (L : Lang) (hL : SpacedDictionary L) (isTz : List Char → Bool)
    (skip : List (List Char)) (lang str : List Char) (st : σ × Option τ) (out : List (ParsedSearch D × List Char))
    (h : searchWithLanguage U env L isTz skip lang str st = some out) :
    ∀ r ∈ out, ∃ u, u <:+: str ∧ SameWords u r.2 := by
  cases hl : splitSentence U L str with
  | none =>
    unfold searchWithLanguage translateSearch at h
    rw [hl] at h
    simp at h
  | some l =>
  obtain ⟨tr, og, h1, h2, hw⟩ := translateSearch_chunks U L hL isTz skip str l hl ((sentences_pieces U L str).2 l hl)
  obtain ⟨st', res, subs, h3, h4, idx, i1, _, i2⟩ := C32_found env (!(lang == ['v', 'i'] || lang == ['h', 'u'])) tr og h2 st
  unfold searchWithLanguage at h
  rw [h1] at h
  simp only [Option.bind_eq_bind, Option.bind_some, h3] at h
  rw [if_pos (by omega)] at h
  injection h with h
  subst h
  intro r hr
  obtain ⟨k, hk⟩ := List.getElem?_of_mem hr
  have hkl : k < res.length := by
    have := (List.getElem?_eq_some_iff.mp hk).1
    simp at this; omega
  have hz := (List.getElem?_eq_some_iff.mp hk).2
  obtain ⟨entry, o, d, _, ho, _, hf⟩ := i2 k idx[k] res[k] subs[k] (List.getElem?_eq_getElem _) (List.getElem?_eq_getElem _) (List.getElem?_eq_getElem _)
  obtain ⟨u, hu, hs⟩ := hw o (List.mem_of_getElem? ho)
  have : r.2 = subs[k] := by
    rw [← hz]; simp
  rw [this]
  obtain ⟨u', hu', hs'⟩ := piece_words hs (FoundIn.infix hf)
  exact ⟨u', hu'.trans hu, hs'⟩

end

/-! ## Where it panics -/

theorem endWord_fails {terms : List Char} (r : Rx) {p : Option Char} {x y : List Char} (hx : ∀ c ∈ x, c ∉ terms)
    (hy : ∀ c, y.head? = some c → isRxSpace c = true ∧ c ∉ terms) (rest : Rx) (hr : r = .seq rxEndWord (.seq (rxTerm terms) rest)) :
    r.Fails ⟨p, x ++ y, []⟩ := by
  subst hr
  unfold Rx.Fails
  apply List.eq_nil_iff_forall_not_mem.mpr
  intro t ht
  rw [Rx.run, List.mem_flatMap] at ht
  obtain ⟨u, hu, ht⟩ := ht
  unfold rxEndWord at hu
  rw [Rx.run, List.mem_map] at hu
  obtain ⟨v, hv, rfl⟩ := hu
  obtain ⟨w, e1, e2, _⟩ := run_only (p := fun c => isRxSpace c = false) (Rx.star (.chr fun c => !isRxSpace c && c != '.'))
    (fun c hc => by simp at hc; exact hc.1) _ v hv
  rw [Rx.run, List.mem_flatMap] at ht
  obtain ⟨u2, hu2, _⟩ := ht
  unfold rxTerm Rx.plus at hu2
  rw [Rx.run, List.mem_flatMap] at hu2
  obtain ⟨u3, hu3, _⟩ := hu2
  unfold Rx.run at hu3
  dsimp only at hu3 e1
  split at hu3
  · rename_i c cs hc
    split at hu3
    · rename_i hct
      have hct : c ∈ terms := by simpa using hct
      rw [hc] at e1
      rcases Nat.lt_or_ge w.length x.length with hlt | hge
      · have h1 : (x ++ y)[w.length]? = some c := by rw [e1]; simp
        rw [List.getElem?_append_left hlt] at h1
        exact hx c (List.mem_of_getElem? h1) hct
      · cases y with
        | nil =>
          have := congrArg List.length e1
          simp at this; omega
        | cons d y =>
          obtain ⟨hs, hd⟩ := hy d rfl
          have h1 : (x ++ d :: y)[x.length]? = some d := by simp
          rw [e1] at h1
          rcases Nat.lt_or_ge x.length w.length with hlt | hge'
          · rw [List.getElem?_append_left hlt] at h1
            have := e2 d (List.mem_of_getElem? h1)
            rw [hs] at this; simp at this
          · have : x.length = w.length := by omega
            rw [this] at h1
            simp at h1
            subst h1; exact hd hct
    · simp at hu3
  · simp at hu3

/-- **C33 (finding).** In Spanish, searching panics for every text with an opening `¿` or `¡` whose word does not also
end the sentence: `¿Qué día es hoy?`. -/
theorem C33_spanish_panics {σ τ D : Type} (U : Uni) (env : SearchEnv σ τ D) (L : Lang) (hL : L.splitterGroup = 2) (isTz : List Char → Bool)
    (skip : List (List Char)) (lang : List Char) (st : σ × Option τ) (pre word post : List Char) (q : Char) (hq : opening q)
    (hpre : ∀ c ∈ pre, c ∉ terminators 2 ∧ ¬ opening c) (hlast : ∀ c, pre.getLast? = some c → isRxSpace c = true)
    (hword : ∀ c ∈ word, c ∉ terminators 2) (hpost : ∀ c, post.head? = some c → isRxSpace c = true ∧ c ∉ terminators 2) :
    searchWithLanguage U env L isTz skip lang (pre ++ (q :: word ++ post)) st = none := by
  have hopen : ∀ c, ['¡', '¿'].contains c = true ↔ opening c := by
    intro c; simp [opening]
  have hqt : q ∉ terminators 2 := by
    rcases hq with rfl | rfl <;> decide
  -- the opening mark is the first match, without group 1
  have hsplit : ∃ ds rest, q :: word ++ post = ds ++ rest ∧ ds ≠ [] ∧ (∀ c ∈ ds, ['¡', '¿'].contains c = true) ∧
      ∀ c, rest.head? = some c → ['¡', '¿'].contains c = false := by
    have h := List.takeWhile_append_dropWhile (p := ['¡', '¿'].contains) (l := q :: word ++ post)
    refine ⟨_, _, h.symm, ?_, ?_, ?_⟩
    · rw [List.cons_append, List.takeWhile_cons, if_pos ((hopen q).mpr hq)]; simp
    · intro c hc
      have hall := List.all_takeWhile (p := ['¡', '¿'].contains) (l := q :: word ++ post)
      exact List.all_eq_true.mp hall c hc
    · intro c hc
      have := List.head?_dropWhile_not (p := ['¡', '¿'].contains) (q :: word ++ post)
      rw [hc] at this
      simpa using this
  obtain ⟨ds, rest, e, hne, hds, hrest⟩ := hsplit
  have hfirst : (sentenceRx 2).First ⟨lastOr none pre, q :: word ++ post, []⟩ ⟨lastOr (lastOr none pre) ds, rest, []⟩ := by
    refine Rx.First.right ?_ ?_
    · refine endWord_fails (terms := terminators 2) _ (x := q :: word) (y := post) ?_ hpost _ rfl
      intro c hc
      rcases List.mem_cons.mp hc with rfl | hc
      · exact hqt
      · exact hword c hc
    · rw [e]
      exact First.plus_chr hne hds hrest
  have hfind : (sentenceRx 2).find none (pre ++ (q :: word ++ post)) = some ⟨pre, ds, ⟨lastOr (lastOr none pre) ds, rest, []⟩⟩ := by
    rw [find_skip pre (q :: word ++ post) none, find_here hfirst]
    · rw [e]
      simp
    · intro a b hab hb
      have hbl : ∃ b' z, b = b' ++ [z] := ⟨b.dropLast, b.getLast hb, (List.dropLast_concat_getLast hb).symm⟩
      obtain ⟨b', z, rfl⟩ := hbl
      have hz : isRxSpace z = true := hlast z (by rw [hab]; simp)
      have hmem : ∀ c ∈ b' ++ [z], c ∈ pre := by intro c hc; rw [hab]; simp at hc ⊢; exact Or.inr hc
      refine Rx.Fails.alt ?_ ?_
      · rw [List.append_assoc]
        refine endWord_fails (terms := terminators 2) _ (x := b') (y := [z] ++ (q :: word ++ post)) ?_ ?_ _ rfl
        · intro c hc; exact (hpre c (hmem c (by simp [hc]))).1
        · intro c hc
          simp at hc; subst hc
          exact ⟨hz, (hpre z (hmem z (by simp))).1⟩
      · refine Rx.Fails.seq_left (Rx.Fails.chr ?_)
        intro c hc
        have hcm : c ∈ b' ++ [z] := by
          cases b' with
          | nil => simp at hc; subst hc; simp
          | cons d b' => simp at hc; subst hc; simp
        cases hcc : ['¡', '¿'].contains c with
        | false => rfl
        | true => exact absurd ((hopen c).mp hcc) (hpre c (hmem c hcm)).2
  have hs : splitSentence U L (pre ++ (q :: word ++ post)) = none := by
    unfold splitSentence
    rw [hL]
    dsimp only
    unfold Rx.findAll
    rw [if_neg (by omega), findAllFuel_step hfind hne]
    unfold sentenceLoop
    rfl
  unfold searchWithLanguage translateSearch
  rw [hs]
  rfl

/-- **C33 (finding).** In a language written without spaces other than Chinese and Japanese (`yue`, `zh-Hans`,
`zh-Hant`), searching panics for every text that is one word of the dictionary. -/
theorem C33_unspaced_panics {σ τ D : Type} (U : Uni) (env : SearchEnv σ τ D) (L : Lang) (hs : L.noWordSpacing = true) (hj : joinUnusable L = false)
    (isTz : List Char → Bool) (skip : List (List Char)) (lang : List Char) (st : σ × Option τ) (str word o : List Char)
    (h1 : splitSentence U L str = some [str]) (h2 : simplifySplitAlign U L (mapSkippedTokens skip L) str = ([o], [word]))
    (hw : L.inDictionary word = true) (ht : trimSpace word = word) (hn : word ≠ []) (hd : isDash word = false) :
    searchWithLanguage U env L isTz skip lang str st = none := by
  have hne : (word.isEmpty || word == [' ']) = false := by
    cases hc : (word.isEmpty || word == [' ']) with
    | false => rfl
    | true =>
      simp at hc
      rcases hc with rfl | rfl
      · exact absurd rfl hn
      · exact absurd ht (by decide)
  have hjoin : joinChunk L [word, []] = word := by
    unfold joinChunk
    rw [if_pos hs]
    unfold joinTokens joinLoop joinLoop
    simp [ht]
  unfold searchWithLanguage translateSearch
  rw [h1]
  simp only [Option.bind_eq_bind, Option.bind_some]
  unfold sentencesLoop
  rw [h2]
  simp only [Option.bind_eq_bind]
  unfold chunkLoop
  simp only [Bool.false_eq_true, if_false, hne, List.headD_nil, hjoin, hw, hd, hj, Bool.not_false, Bool.and_self, if_true, Option.bind_eq_bind]
  rfl

/-! ## The supported languages -/

theorem lookup_mem {α β : Type} [BEq α] [LawfulBEq α] : ∀ (l : List (α × β)) (a : α) (b : β), l.lookup a = some b → (a, b) ∈ l := by
  intro l
  induction l with
  | nil => intro a b h; simp at h
  | cons x r ih =>
    intro a b h
    rw [List.lookup_cons] at h
    split at h
    · rename_i hx
      injection h with h
      have : a = x.1 := by simpa using hx
      subst h; subst this; simp
    · exact List.mem_cons_of_mem _ (ih a b h)

/-- What to check in the data: no empty list of translations, no word with a space behind it. -/
def dictCheck (d : LangData) : Bool :=
  (d.translations.all fun x => !x.2.isEmpty && (x.1.getLast? != some ' ' || x.1.dropLast.all isSpace)) &&
  (d.relativeType.all fun x => x.1.getLast? != some ' ' || x.1.dropLast.all isSpace)

theorem compact_ne : ∀ (l : List (List Char)), l ≠ [] → compact l ≠ [] := by
  intro l
  induction l with
  | nil => intro h; exact absurd rfl h
  | cons a r ih =>
    intro _
    cases r with
    | nil => simp [compact]
    | cons b r =>
      unfold compact
      split
      · exact ih (by simp)
      · simp

theorem dictCheck_merge (p : Option LangData) (d : LangData) (hp : ∀ q, p = some q → dictCheck q = true) (hd : dictCheck d = true) :
    dictCheck (mergeLang p d) = true := by
  cases p with
  | none => exact hd
  | some q =>
    have hq := hp q rfl
    unfold dictCheck at hq hd ⊢
    simp only [Bool.and_eq_true, List.all_eq_true] at hq hd ⊢
    unfold mergeLang
    constructor
    · intro x hx
      rcases List.mem_append.mp hx with hx | hx
      · obtain ⟨y, hy, rfl⟩ := List.mem_map.mp hx
        obtain ⟨h1, h2⟩ := hq.1 y hy
        refine ⟨?_, h2⟩
        simp only [Bool.not_eq_true', List.isEmpty_eq_false_iff] at h1 ⊢
        refine compact_ne _ ?_
        intro he
        have := congrArg List.length he
        rw [List.length_mergeSort] at this
        have h1 : 0 < y.2.length := List.length_pos_iff.mpr h1
        simp only [List.length_append, List.length_nil] at this
        omega
      · exact hd.1 x (List.mem_filter.mp hx).1
    · intro x hx
      rcases List.mem_append.mp hx with hx | hx
      · exact hq.2 x hx
      · exact hd.2 x (List.mem_filter.mp hx).1

theorem translated_of_check {L : Lang} {d : LangData} (hL : HasDictionary L d) (h : dictCheck d = true) :
    ∀ w ts, L.translateWord w = some ts → ts ≠ [] := by
  unfold dictCheck at h
  simp only [Bool.and_eq_true] at h
  obtain ⟨h3, h4⟩ := h
  rw [List.all_eq_true] at h3 h4
  intro w ts hw
  unfold Lang.translateWord at hw
  rw [hL.relative, hL.translations] at hw
  split at hw
  · injection hw with hw; subst hw; simp
  · have := h3 _ (lookup_mem _ _ _ hw)
    intro he
    subst he
    simp at this

theorem spaced_of_check {L : Lang} {d : LangData} (hL : HasDictionary L d) (h1 : d.noWordSpacing = false)
    (h : dictCheck d = true) : SpacedDictionary L := by
  have htr := translated_of_check hL h
  unfold dictCheck at h
  simp only [Bool.and_eq_true] at h
  obtain ⟨h3, h4⟩ := h
  rw [List.all_eq_true] at h3 h4
  have bad : ∀ w : List Char, w ≠ [] → (∀ c ∈ w, isSpace c = false) →
      ((w ++ [' ']).getLast? != some ' ' || (w ++ [' ']).dropLast.all isSpace) = false := by
    intro w hw hc
    cases w with
    | nil => exact absurd rfl hw
    | cons a w => rw [List.dropLast_concat, List.all_cons, hc a (by simp), List.getLast?_concat]; simp
  refine ⟨by rw [hL.spacing, h1], htr, ?_⟩
  · intro w hw hc
    unfold Lang.translateWord
    rw [hL.relative, hL.translations]
    have b := bad w hw hc
    split
    · rename_i t ht
      have := h4 _ (lookup_mem _ _ _ ht)
      rw [b] at this; simp at this
    · cases ht : List.lookup (w ++ [' ']) d.translations with
      | none => rfl
      | some ts =>
        have := h3 _ (lookup_mem _ _ _ ht)
        simp only [b, Bool.and_false] at this
        simp at this

/-- What the supported locales look like. -/
theorem supported_locale {L : Lang} {d : LangData} {p : Option LangData} (hm : (d, p) ∈ Data.allDicts) (hn : cantoneseOrScript d.name = false)
    (hL : HasDictionary L (mergeLang p d)) : UnspacedLanguage L ∨ (SpacedDictionary L ∧ (L.splitterGroup = 2 → spanish d.name = true)) := by
  have hall : Data.allDicts.all (fun x => cantoneseOrScript x.1.name || (dictCheck x.1 && (x.2.map dictCheck).getD true &&
      (if x.1.noWordSpacing then
        (x.1.name == ['z', 'h'] || x.1.name == ['j', 'a']) && (mergeLang x.2 { x.1 with translations := [], relativeType := [] }).splitterGroup != 2
      else (spanish x.1.name || (mergeLang x.2 { x.1 with translations := [], relativeType := [] }).splitterGroup != 2)))) = true := by decide +kernel
  have := List.all_eq_true.mp hall _ hm
  simp only [hn, Bool.false_or, Bool.and_eq_true] at this
  obtain ⟨⟨h1, h2⟩, h3⟩ := this
  have hc : dictCheck (mergeLang p d) = true := dictCheck_merge p d (by
    intro q hq
    subst hq
    simpa using h2) h1
  have hnm : (mergeLang p d).name = d.name := by cases p <;> rfl
  have hsp : (mergeLang p d).noWordSpacing = d.noWordSpacing := by cases p <;> rfl
  have hgr : (mergeLang p { d with translations := [], relativeType := [] }).splitterGroup = (mergeLang p d).splitterGroup := by cases p <;> rfl
  rw [hgr] at h3
  by_cases hs : d.noWordSpacing = true
  · rw [if_pos hs] at h3
    simp only [Bool.and_eq_true, Bool.or_eq_true, beq_iff_eq, bne_iff_ne, ne_eq] at h3
    exact Or.inl ⟨by rw [hL.name, hnm]; exact h3.1, by rw [hL.group]; exact h3.2, translated_of_check hL hc⟩
  · rw [if_neg hs] at h3
    simp only [Bool.or_eq_true, bne_iff_ne, ne_eq] at h3
    refine Or.inr ⟨spaced_of_check hL (by rw [hsp]; simpa using hs) hc, ?_⟩
    intro hg
    rw [hL.group] at hg
    rcases h3 with h | h
    · exact h
    · exact absurd hg h

/-- **C33.** In every supported locale but the Cantonese one and those of Chinese with a script, searching any text ends
without a panic, whatever the parser does; in Spanish, any text without an opening `¿` or `¡`. -/
theorem C33_supported_partial {σ τ D : Type} (U : Uni) (env : SearchEnv σ τ D) (L : Lang) (d : LangData) (p : Option LangData)
    (hm : (d, p) ∈ Data.allDicts) (hn : cantoneseOrScript d.name = false) (hL : HasDictionary L (mergeLang p d))
    (isTz : List Char → Bool) (skip : List (List Char)) (lang str : List Char)
    (hsp : spanish d.name = true → ∀ c ∈ str, c ≠ '¡' ∧ c ≠ '¿') (st : σ × Option τ) :
    ∃ out, searchWithLanguage U env L isTz skip lang str st = some out := by
  rcases supported_locale hm hn hL with h | ⟨h, hg⟩
  · exact C33_unspaced U env L h isTz skip lang str st
  · refine C33_no_panic_partial U env L h isTz skip lang str (fun h2 c hc => ?_) st
    obtain ⟨a, b⟩ := hsp (hg h2) c hc
    simp [opening, a, b]

/-! ## The hypotheses are met -/

/-- English is such a language. -/
theorem english_spaced (U : Uni) : SpacedDictionary (Data.enData.lang U) :=
  spaced_of_check ⟨rfl, rfl, rfl, rfl, rfl⟩ rfl (by decide +kernel : dictCheck Data.enData = true)

/-- 504 locales; `C33_supported_partial` is about 496 of them, 28 of which are Spanish. -/
example : Data.allDicts.length = 504 ∧ (Data.allDicts.filter fun x => !cantoneseOrScript x.1.name).length = 496 ∧
    (Data.allDicts.filter fun x => spanish x.1.name).length = 28 := by decide +kernel

/-- Searching any text in Japanese. -/
example (U : Uni) (str : List Char) : ∃ out, searchWithLanguage U toyEnv (Data.jaDict.lang U) (fun _ => false) [] ['j', 'a'] str ((), none) = some out := by
  exact C33_unspaced U toyEnv _ ⟨Or.inr rfl, show (4 : Nat) ≠ 2 by decide, translated_of_check (d := Data.jaDict) ⟨rfl, rfl, rfl, rfl, rfl⟩ (by decide +kernel)⟩ _ _ _ _ _

/-- Unicode tables cut down to ASCII and Chinese characters. -/
def smallUni : Uni where
  nfkc := id
  lower := fun s => s.map Char.toLower
  isDigit := Char.isDigit
  isNumber := Char.isDigit
  isLetter := fun c => c.isAlpha || (0x4e00 ≤ c.toNat && c.toNat ≤ 0x9fff)
  isMark := fun _ => false

/-- The search of an English text. -/
example : translateSearch smallUni (Data.enData.lang smallUni) (fun _ => false) [] "See you on 2 May 2015, or tomorrow.".toList =
    some (["2 may 2015,".toList, "in 1 day".toList], ["on 2 May 2015,".toList, "tomorrow".toList]) := by decide +kernel

/-- Spanish, with and without the marks that open a question. -/
example : splitSentence smallUni { name := ['e', 's'], splitterGroup := 2 } "Hola! Nos vemos hoy? Quizás.".toList =
      some ["Hola".toList, "Nos vemos hoy".toList, "Quizás".toList] ∧
    splitSentence smallUni { name := ['e', 's'], splitterGroup := 2 } "¡Hola! ¿Nos vemos? Quizás.".toList =
      some ["¡Hola".toList, "Nos vemos".toList, "Quizás".toList] := by decide +kernel

/-- "See you today?" in Spanish. -/
example : searchWithLanguage smallUni toyEnv { name := ['e', 's'], splitterGroup := 2 } (fun _ => false) [] ['e', 's']
    "Hola, ¿nos vemos hoy?".toList ((), none) = none :=
  C33_spanish_panics smallUni toyEnv _ rfl _ _ _ _ "Hola, ".toList "nos".toList " vemos hoy?".toList '¿' (Or.inr rfl)
    (by unfold opening; decide +kernel) (by intro c h; have : c = ' ' := by simpa using h.symm
                                            subst this; decide)
    (by decide +kernel) (by intro c h; have : c = ' ' := by simpa using h.symm
                            subst this; decide)

/-- "Today" in Cantonese. -/
example : searchWithLanguage smallUni toyEnv (Data.yueData.lang smallUni) (fun _ => false) [] ['y', 'u', 'e']
    "今日".toList ((), none) = none :=
  C33_unspaced_panics smallUni toyEnv _ rfl rfl _ _ _ _ _ "今日".toList "今日".toList (by decide +kernel) (by decide +kernel)
    (by decide +kernel) (by decide +kernel) (by decide) (by decide)

end Verif.Props
