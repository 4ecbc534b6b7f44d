import Verif.Lemmas.Language
/-! # Aligning tokens, chunks -/
set_option autoImplicit false
namespace Verif.Lemmas
open Verif.Go Verif.Model Verif.Spec

/-! ## Aligning -/

theorem insertSlice_length {l : List (List Char)} {i : Nat} (h : i ≤ l.length) (x : List Char) : (insertSlice l i x).length = l.length + 1 := by
  simp [insertSlice]; omega

theorem insertSlice_filter (l : List (List Char)) (i : Nat) : (insertSlice l i []).filter (!·.isEmpty) = l.filter (!·.isEmpty) := by
  unfold insertSlice
  rw [List.filter_append]
  simp only [List.filter_cons, List.isEmpty_nil, Bool.not_true, Bool.false_eq_true, if_false]
  rw [← List.filter_append, List.take_append_drop]

/-- Empty tokens are put in until the list is at least as long as the other. -/
theorem alignLoop_spec (eq : List Char → List Char → Bool) : ∀ (toks : List (List Char)) (i : Nat) (b : Bool) (grow : List (List Char)),
    i ≤ grow.length →
    (alignLoop eq i b toks grow).filter (!·.isEmpty) = grow.filter (!·.isEmpty) ∧ i + toks.length ≤ (alignLoop eq i b toks grow).length := by
  intro toks
  induction toks with
  | nil => intro i b grow h; exact ⟨rfl, by simpa [alignLoop] using h⟩
  | cons token rest ih =>
    intro i b grow h
    unfold alignLoop
    cases hg : grow[i]? with
    | none =>
      have hl : grow.length ≤ i := by simpa using hg
      obtain ⟨h1, h2⟩ := ih (i + 1) b (grow ++ [[]]) (by simp; omega)
      refine ⟨?_, by simp at h2 ⊢; omega⟩
      simp only
      rw [h1]; simp
    | some g =>
      have hl : i < grow.length := (List.getElem?_eq_some_iff.mp hg).1
      simp only
      split
      · obtain ⟨h1, h2⟩ := ih (i + 1) false grow (by omega)
        exact ⟨h1, by simp at h2 ⊢; omega⟩
      · split
        · obtain ⟨h1, h2⟩ := ih (i + 1) true grow (by omega)
          exact ⟨h1, by simp at h2 ⊢; omega⟩
        · obtain ⟨h1, h2⟩ := ih (i + 1) true (insertSlice grow i []) (by rw [insertSlice_length (by omega)]; omega)
          exact ⟨by rw [h1, insertSlice_filter], by simp at h2 ⊢; omega⟩

theorem erase_empty_filter (l : List (List Char)) : (l.erase []).filter (!·.isEmpty) = l.filter (!·.isEmpty) := by
  induction l with
  | nil => rfl
  | cons x r ih =>
    by_cases hx : x = []
    · subst hx; simp
    · rw [List.erase_cons_tail (by simpa using hx), List.filter_cons, List.filter_cons, ih]

/-- The last loop ends with lists of equal length, when the longer one has enough empty tokens. -/
theorem evenLoop_spec : ∀ (n : Nat) (o s : List (List Char)), o.length + s.length ≤ n →
    (o.filter (!·.isEmpty)).length ≤ s.length ∨ o.length ≤ s.length → (s.filter (!·.isEmpty)).length ≤ o.length ∨ s.length ≤ o.length →
    (evenLoop n o s).1.length = (evenLoop n o s).2.length ∧
    (evenLoop n o s).1.filter (!·.isEmpty) = o.filter (!·.isEmpty) ∧
    (evenLoop n o s).2.filter (!·.isEmpty) = s.filter (!·.isEmpty) := by
  intro n
  have short : ∀ l : List (List Char), [] ∉ l → (l.filter (!·.isEmpty)).length = l.length := by
    intro l hl
    rw [List.filter_eq_self.mpr]
    intro x hx
    cases x with
    | nil => exact absurd hx hl
    | cons _ _ => rfl
  induction n with
  | zero =>
    intro o s h _ _
    have : o = [] := List.eq_nil_of_length_eq_zero (by omega)
    have : s = [] := List.eq_nil_of_length_eq_zero (by omega)
    subst o s
    exact ⟨rfl, rfl, rfl⟩
  | succ n ih =>
    intro o s h h1 h2
    unfold evenLoop
    split
    · rename_i he; exact ⟨he, rfl, rfl⟩
    · split
      · rename_i hne hgt
        unfold removeEmpty
        by_cases hm : [] ∈ o
        · rw [if_pos (by simpa using hm)]
          have hl : (o.erase []).length = o.length - 1 := List.length_erase_of_mem hm
          have := ih (o.erase []) s (by omega) (by rw [erase_empty_filter]; omega) (by
            right; omega)
          rw [erase_empty_filter] at this
          exact this
        · have := short o hm
          omega
      · rename_i hne hgt
        unfold removeEmpty
        by_cases hm : [] ∈ s
        · rw [if_pos (by simpa using hm)]
          have hl : (s.erase []).length = s.length - 1 := List.length_erase_of_mem hm
          have := ih o (s.erase []) (by omega) (by right; omega) (by rw [erase_empty_filter]; omega)
          rw [erase_empty_filter] at this
          exact this
        · have := short s hm
          omega

/-- The two lists of tokens come out with the same length; nothing but empty tokens is added or removed. -/
theorem simplifySplitAlign_spec (U : Uni) (L : Lang) (skip : List (List Char)) (str : List Char) :
    (simplifySplitAlign U L skip str).1.length = (simplifySplitAlign U L skip str).2.length ∧
    (simplifySplitAlign U L skip str).1.filter (!·.isEmpty) = (wordSplit U L skip str).filter (!·.isEmpty) ∧
    (simplifySplitAlign U L skip str).2.filter (!·.isEmpty) =
      (wordSplit U L skip (simplify L (normalizeToken U str))).filter (!·.isEmpty) := by
  unfold simplifySplitAlign
  dsimp only
  generalize wordSplit U L skip str = o
  generalize wordSplit U L skip (simplify L (normalizeToken U str)) = s
  split
  · rename_i h; exact ⟨h, rfl, rfl⟩
  · rename_i hne
    split
    · rename_i hlt
      obtain ⟨a1, a2⟩ := alignLoop_spec (fun token g => token == normalizeToken U g) s 0 false o (by omega)
      simp only
      have hf := List.length_filter_le (fun x : List Char => !x.isEmpty) o
      obtain ⟨e1, e2, e3⟩ := evenLoop_spec _ _ s (Nat.le_refl _) (by rw [a1]; omega) (by
        right; simpa using a2)
      exact ⟨e1, by rw [e2, a1], e3⟩
    · rename_i hlt
      obtain ⟨a1, a2⟩ := alignLoop_spec (fun token g => normalizeToken U token == g) o 0 false s (by omega)
      simp only
      have hf := List.length_filter_le (fun x : List Char => !x.isEmpty) s
      obtain ⟨e1, e2, e3⟩ := evenLoop_spec _ o _ (Nat.le_refl _) (by right; simpa using a2) (by rw [a1]; omega)
      exact ⟨e1, e2, by rw [e3, a1]⟩

/-- In a language with spaces, the tokens are words or empty. -/
theorem spaced_tokens {U : Uni} {L : Lang} {skip : List (List Char)} (hs : L.noWordSpacing = false) (str : List Char) :
    (∀ t ∈ (simplifySplitAlign U L skip str).1, t = [] ∨ Word t) ∧ (∀ t ∈ (simplifySplitAlign U L skip str).2, t = [] ∨ Word t) ∧
    (simplifySplitAlign U L skip str).1.flatMap fields = fields str := by
  obtain ⟨_, h1, h2⟩ := simplifySplitAlign_spec U L skip str
  have hw : ∀ s, wordSplit U L skip s = fields s := by intro s; simp [wordSplit, hs]
  rw [hw] at h1 h2
  have key : ∀ (l : List (List Char)) (s : List Char), l.filter (!·.isEmpty) = (fields s).filter (!·.isEmpty) → ∀ t ∈ l, t = [] ∨ Word t := by
    intro l s h t ht
    by_cases he : t = []
    · exact Or.inl he
    · right
      have : t ∈ l.filter (!·.isEmpty) := List.mem_filter.mpr ⟨ht, by simpa using he⟩
      rw [h] at this
      exact fields_words s t (List.mem_filter.mp this).1
  refine ⟨key _ _ h1, key _ _ h2, ?_⟩
  have hall : ∀ (l : List (List Char)), (∀ t ∈ l, t = [] ∨ Word t) → l.flatMap fields = l.filter (!·.isEmpty) := by
    intro l
    induction l with
    | nil => intro _; rfl
    | cons x r ih =>
      intro h
      rw [List.flatMap_cons, ih fun t ht => h t (by simp [ht]), words_fields (h x (by simp)), List.filter_cons]
      by_cases hx : x = []
      · subst hx; simp
      · rw [if_neg hx, if_pos (by simpa using hx)]; rfl
  rw [hall _ (key _ _ h1), h1, List.filter_eq_self.mpr]
  intro x hx
  simpa using (fields_words str x hx).1

/-! ## Chunks -/

theorem fields_joinChunk {L : Lang} (hs : L.noWordSpacing = false) (l : List (List Char)) : fields (joinChunk L l) = l.flatMap fields := by
  unfold joinChunk
  rw [if_neg (by simp [hs]), fields_collapse, fields_joinSpace]

theorem flushChunk_mem {oc : List (List Char)} {tc : List (List (List Char))} {out : List (List (List Char) × List (List Char))}
    (h : flushChunk oc tc = some out) : ∀ x ∈ out, x.1 = oc := by
  unfold flushChunk at h
  cases hp : createPermutation tc with
  | none => rw [hp] at h; simp at h
  | some ps =>
    rw [hp] at h
    simp only [Option.map_some, Option.some.injEq] at h
    subst h
    intro x hx
    obtain ⟨p, _, rfl⟩ := List.mem_map.mp hx
    rfl

/-- The words of the original tokens that are still to come. -/
def ahead (original : List (List Char)) (skip : Bool) : List (List Char) :=
  (if skip then original.tail else original).flatMap fields

/-- Every chunk has the words of some consecutive tokens. -/
theorem chunkLoop_infix {L : Lang} (hs : L.noWordSpacing = false) (isTz : List Char → Bool) :
    ∀ (rest original : List (List Char)) (skip : Bool) (oc : List (List Char)) (tc : List (List (List Char)))
      (out : List (List (List Char) × List (List Char))), oc.length = tc.length →
    chunkLoop L isTz original rest skip oc tc = some out →
    ∀ x ∈ out, x.1.flatMap fields <:+: oc.flatMap fields ++ ahead original skip := by
  intro rest
  induction rest with
  | nil =>
    intro original skip oc tc out hl h x hx
    unfold chunkLoop at h
    split at h
    · injection h with h; subst h; simp at hx
    · rw [flushChunk_mem h x hx]
      exact (List.prefix_append _ _).isInfix
  | cons word rest ih =>
    intro original skip oc tc out hl h x hx
    -- what comes after the first token
    have step : ∀ (o : List Char), original[0]? = some o → ahead original false = fields o ++ ahead original.tail false := by
      intro o ho
      cases original with
      | nil => simp at ho
      | cons a r => simp at ho; subst ho; simp [ahead]
    have one : ∀ (o : List Char) (t : List (List Char)), original[0]? = some o → skip = false →
        chunkLoop L isTz original.tail rest false (oc ++ [o]) (tc ++ [t]) = some out →
        x.1.flatMap fields <:+: oc.flatMap fields ++ ahead original skip := by
      intro o t ho hsk h
      have := ih _ _ _ _ _ (by simp [hl]) h x hx
      rw [hsk, step o ho]
      simpa [List.append_assoc] using this
    unfold chunkLoop at h
    dsimp only at h
    by_cases hsk : skip = true
    · rw [if_pos hsk] at h
      have := ih _ _ _ _ _ hl h x hx
      rw [hsk]
      simpa [ahead] using this
    · rw [if_neg hsk] at h
      have hsk : skip = false := by simpa using hsk
      by_cases c1 : (word.isEmpty || word == [' ']) = true
      · rw [if_pos c1] at h
        cases ho : original[0]? with
        | none => rw [ho] at h; simp at h
        | some o =>
          rw [ho] at h; simp only [Option.bind_eq_bind, Option.bind_some] at h
          exact one o _ ho hsk h
      rw [if_neg c1] at h
      by_cases c2 : (L.inDictionary (joinChunk L [word, rest.headD []]) && !isDash word && !joinUnusable L) = true
      · rw [if_pos c2] at h
        cases ho : original[0]? with
        | none => rw [ho] at h; simp at h
        | some o =>
          cases ho' : original[1]? with
          | none => rw [ho, ho'] at h; simp at h
          | some o' =>
            rw [ho, ho'] at h; simp only [Option.bind_eq_bind, Option.bind_some] at h
            have := ih _ _ _ _ _ (by simp [hl]) h x hx
            have e : ahead original skip = (fields o ++ fields o') ++ ahead original.tail true := by
              rw [hsk]
              cases original with
              | nil => simp at ho
              | cons a r =>
                cases r with
                | nil => simp at ho'
                | cons b r => simp at ho ho'; subst ho ho'; simp [ahead]
            rw [e]
            simpa [List.append_assoc, fields_joinChunk hs] using this
      rw [if_neg c2] at h
      by_cases c3 : (L.inDictionary word && !isDash word) = true
      · rw [if_pos c3] at h
        cases ho : original[0]? with
        | none => rw [ho] at h; simp at h
        | some o =>
          rw [ho] at h; simp only [Option.bind_eq_bind, Option.bind_some] at h
          exact one o _ ho hsk h
      rw [if_neg c3] at h
      by_cases c4 : (L.inDictionary (trimChars word searchPunct) && !isDash word) = true
      · rw [if_pos c4] at h
        cases ho : original[0]? with
        | none => rw [ho] at h; simp at h
        | some o =>
          rw [ho] at h; simp only [Option.bind_eq_bind, Option.bind_some] at h
          exact one o _ ho hsk h
      rw [if_neg c4] at h
      by_cases c5 : digitsOk L word = true
      · rw [if_pos c5] at h
        cases ho : original[0]? with
        | none => rw [ho] at h; simp at h
        | some o =>
          rw [ho] at h; simp only [Option.bind_eq_bind, Option.bind_some] at h
          exact one o _ ho hsk h
      rw [if_neg c5] at h
      have tailInfix : ahead original.tail false <:+: ahead original skip := by
        rw [hsk]
        cases original with
        | nil => exact List.infix_rfl
        | cons a r => simp only [ahead, List.tail_cons, Bool.false_eq_true, if_false, List.flatMap_cons]; exact (List.suffix_append _ _).isInfix
      split at h
      · rename_i htc
        have hoc : oc = [] := by
          have : tc = [] := by simpa using htc
          subst this
          exact List.eq_nil_of_length_eq_zero hl
        subst hoc
        have := ih _ _ _ _ _ hl h x hx
        simp only [List.flatMap_nil, List.nil_append] at this ⊢
        exact this.trans tailInfix
      · cases ho : original[0]? with
        | none => rw [ho] at h; simp at h
        | some o =>
          rw [ho] at h; simp only [Option.bind_eq_bind, Option.bind_some] at h
          split at h
          · exact one o _ ho hsk h
          · cases hf : flushChunk oc tc with
            | none => rw [hf] at h; simp at h
            | some done =>
              rw [hf] at h; simp only [Option.bind_some] at h
              cases hm : chunkLoop L isTz original.tail rest false [] [] with
              | none => rw [hm] at h; simp at h
              | some more =>
                rw [hm] at h; simp only [Option.bind_some, Option.pure_def, Option.some.injEq] at h
                subst h
                rcases List.mem_append.mp hx with hx | hx
                · rw [flushChunk_mem hf x hx]
                  exact (List.prefix_append _ _).isInfix
                · have := ih _ _ _ _ _ rfl hm x hx
                  simp only [List.flatMap_nil, List.nil_append] at this
                  exact (this.trans tailInfix).trans (List.suffix_append _ _).isInfix

theorem flushChunk_some {oc : List (List Char)} {tc : List (List (List Char))} (h : ∀ e ∈ tc, e ≠ []) : ∃ out, flushChunk oc tc = some out := by
  unfold flushChunk
  rw [Props.C31_all_combinations tc h]
  exact ⟨_, rfl⟩

theorem collapse_word {w : List Char} (h : Word w) : collapseSpaces (w ++ [' ']) = w ++ [' '] := by
  have key : ∀ (w : List Char), (∀ c ∈ w, isSpace c = false) → collapseLoop [] (w ++ [' ']) = w ++ [' '] := by
    intro w
    induction w with
    | nil => intro _; decide
    | cons c s ih =>
      intro h
      have hc : isRxSpace c = false := by
        cases hr : isRxSpace c with
        | false => rfl
        | true => have := isSpace_of_rx hr; rw [h c (by simp)] at this; simp at this
      rw [List.cons_append, collapseLoop, hc]
      simp only [Bool.false_eq_true, if_false, List.length_nil, Nat.not_succ_le_zero, ge_iff_le, List.reverse_nil, List.nil_append]
      rw [ih fun d hd => h d (by simp [hd])]
      rfl
  exact key w h.2

/-- No index runs out in a language with spaces. -/
theorem chunkLoop_some {L : Lang} (hL : SpacedDictionary L) (isTz : List Char → Bool) :
    ∀ (rest original : List (List Char)) (skip : Bool) (oc : List (List Char)) (tc : List (List (List Char))),
    original.length = rest.length → (∀ t ∈ rest, t = [] ∨ Word t) → (∀ e ∈ tc, e ≠ []) →
    ∃ out, chunkLoop L isTz original rest skip oc tc = some out := by
  intro rest
  induction rest with
  | nil =>
    intro original skip oc tc _ _ ht
    unfold chunkLoop
    split
    · exact ⟨_, rfl⟩
    · exact flushChunk_some ht
  | cons word rest ih =>
    intro original skip oc tc hl hw ht
    cases original with
    | nil => simp at hl
    | cons o original =>
    have hl' : original.length = rest.length := by simpa using hl
    have hw' : ∀ t ∈ rest, t = [] ∨ Word t := fun t h => hw t (by simp [h])
    have one : ∀ (t : List (List Char)) (sk : Bool) (oc : List (List Char)), t ≠ [] →
        ∃ out, chunkLoop L isTz original rest sk oc (tc ++ [t]) = some out := fun t sk oc h =>
      ih original sk oc (tc ++ [t]) hl' hw' (by
        intro e he
        rcases List.mem_append.mp he with he | he
        · exact ht e he
        · simp at he; subst he; exact h)
    have tr : ∀ w, L.inDictionary w = true → (L.translateWord w).getD [] ≠ [] := by
      intro w h
      unfold Lang.inDictionary at h
      cases ht : L.translateWord w with
      | none => rw [ht] at h; simp at h
      | some ts => exact hL.translated w ts ht
    unfold chunkLoop
    simp only [List.tail_cons, List.getElem?_cons_zero, List.getElem?_cons_succ, Option.bind_eq_bind, Option.bind_some]
    split
    · exact ih _ _ _ _ hl' hw' ht
    split
    · exact one _ _ _ (by simp)
    rename_i hword
    split
    · rename_i hd
      simp only [Bool.and_eq_true] at hd
      cases rest with
      | nil =>
        exfalso
        have hww : Word word := by
          rcases hw word (by simp) with h | h
          · subst h; simp at hword
          · exact h
        have e : joinChunk L [word, ([] : List (List Char)).headD []] = word ++ [' '] := by
          unfold joinChunk
          rw [if_neg (by simp [hL.spaces])]
          simp only [joinWith, List.headD_nil, List.append_nil]
          exact collapse_word hww
        rw [e] at hd
        have := hL.trimmed word hww.1 hww.2
        unfold Lang.inDictionary at hd
        rw [this] at hd
        simp at hd
      | cons w2 rest =>
        cases original with
        | nil => simp at hl'
        | cons o2 original =>
          simp only [List.getElem?_cons_zero, Option.bind_some]
          exact one _ _ _ (tr _ hd.1.1)
    split
    · rename_i hd
      simp only [Bool.and_eq_true] at hd
      exact one _ _ _ (tr _ hd.1)
    split
    · rename_i hd
      simp only [Bool.and_eq_true] at hd
      exact one _ _ _ (by
        intro h
        exact tr _ hd.1 (List.map_eq_nil_iff.mp h))
    split
    · exact one _ _ _ (by simp)
    split
    · exact ih _ _ _ _ hl' hw' ht
    split
    · exact one _ _ _ (by simp)
    · obtain ⟨d, hd⟩ := flushChunk_some (oc := oc) ht
      obtain ⟨m, hm⟩ := ih original false [] [] hl' hw' (by simp)
      rw [hd, hm]
      exact ⟨_, rfl⟩

/-- Nor in Chinese and Japanese, where two tokens are never joined. -/
theorem chunkLoop_some_unspaced {L : Lang} (hL : UnspacedLanguage L) (isTz : List Char → Bool) :
    ∀ (rest original : List (List Char)) (skip : Bool) (oc : List (List Char)) (tc : List (List (List Char))),
    original.length = rest.length → (∀ e ∈ tc, e ≠ []) →
    ∃ out, chunkLoop L isTz original rest skip oc tc = some out := by
  intro rest
  induction rest with
  | nil =>
    intro original skip oc tc _ ht
    unfold chunkLoop
    split
    · exact ⟨_, rfl⟩
    · exact flushChunk_some ht
  | cons word rest ih =>
    intro original skip oc tc hl ht
    cases original with
    | nil => simp at hl
    | cons o original =>
    have hl' : original.length = rest.length := by simpa using hl
    have one : ∀ (t : List (List Char)) (sk : Bool) (oc : List (List Char)), t ≠ [] →
        ∃ out, chunkLoop L isTz original rest sk oc (tc ++ [t]) = some out := fun t sk oc h =>
      ih original sk oc (tc ++ [t]) hl' (by
        intro e he
        rcases List.mem_append.mp he with he | he
        · exact ht e he
        · simp at he; subst he; exact h)
    have tr : ∀ w, L.inDictionary w = true → (L.translateWord w).getD [] ≠ [] := by
      intro w h
      unfold Lang.inDictionary at h
      cases ht : L.translateWord w with
      | none => rw [ht] at h; simp at h
      | some ts => exact hL.translated w ts ht
    have hju : joinUnusable L = true := by
      unfold joinUnusable
      rcases hL.name with h | h <;> rw [h] <;> rfl
    unfold chunkLoop
    simp only [List.tail_cons, List.getElem?_cons_zero, List.getElem?_cons_succ, Option.bind_eq_bind, Option.bind_some]
    split
    · exact ih _ _ _ _ hl' ht
    split
    · exact one _ _ _ (by simp)
    rename_i hword
    split
    · rename_i hd
      simp only [Bool.and_eq_true] at hd
      rw [hju] at hd
      simp at hd
    split
    · rename_i hd
      simp only [Bool.and_eq_true] at hd
      exact one _ _ _ (tr _ hd.1)
    split
    · rename_i hd
      simp only [Bool.and_eq_true] at hd
      exact one _ _ _ (by
        intro h
        exact tr _ hd.1 (List.map_eq_nil_iff.mp h))
    split
    · exact one _ _ _ (by simp)
    split
    · exact ih _ _ _ _ hl' ht
    split
    · exact one _ _ _ (by simp)
    · obtain ⟨d, hd⟩ := flushChunk_some (oc := oc) ht
      obtain ⟨m, hm⟩ := ih original false [] [] hl' (by simp)
      rw [hd, hm]
      exact ⟨_, rfl⟩

theorem sentencesLoop_some_unspaced {U : Uni} {L : Lang} (hL : UnspacedLanguage L) (isTz : List Char → Bool) (skip : List (List Char)) :
    ∀ l : List (List Char), ∃ out, sentencesLoop U L isTz skip l = some out := by
  intro l
  induction l with
  | nil => exact ⟨_, rfl⟩
  | cons s r ih =>
    obtain ⟨b, hb⟩ := ih
    obtain ⟨a, ha⟩ := chunkLoop_some_unspaced hL isTz (simplifySplitAlign U L skip s).2 (simplifySplitAlign U L skip s).1 false [] []
      (simplifySplitAlign_spec U L skip s).1 (by simp)
    unfold sentencesLoop
    simp only [Option.bind_eq_bind, ha, hb, Option.bind_some]
    exact ⟨_, rfl⟩

theorem sentencesLoop_some {U : Uni} {L : Lang} (hL : SpacedDictionary L) (isTz : List Char → Bool) (skip : List (List Char)) :
    ∀ l : List (List Char), ∃ out, sentencesLoop U L isTz skip l = some out := by
  intro l
  induction l with
  | nil => exact ⟨_, rfl⟩
  | cons s r ih =>
    obtain ⟨b, hb⟩ := ih
    obtain ⟨_, h2, _⟩ := spaced_tokens (U := U) (skip := skip) hL.spaces s
    obtain ⟨a, ha⟩ := chunkLoop_some hL isTz (simplifySplitAlign U L skip s).2 (simplifySplitAlign U L skip s).1 false [] []
      (simplifySplitAlign_spec U L skip s).1 h2 (by simp)
    unfold sentencesLoop
    simp only [Option.bind_eq_bind, ha, hb, Option.bind_some]
    exact ⟨_, rfl⟩

theorem sentencesLoop_infix {U : Uni} {L : Lang} (hs : L.noWordSpacing = false) (isTz : List Char → Bool) (skip : List (List Char)) :
    ∀ (l : List (List Char)) (out : List (List (List Char) × List (List Char))), sentencesLoop U L isTz skip l = some out →
    ∀ x ∈ out, ∃ s ∈ l, x.1.flatMap fields <:+: fields s := by
  intro l
  induction l with
  | nil => intro out h x hx; simp [sentencesLoop] at h; subst h; simp at hx
  | cons s r ih =>
    intro out h x hx
    unfold sentencesLoop at h
    simp only [Option.bind_eq_bind] at h
    cases ha : chunkLoop L isTz (simplifySplitAlign U L skip s).1 (simplifySplitAlign U L skip s).2 false [] [] with
    | none => rw [ha] at h; simp at h
    | some a =>
      cases hb : sentencesLoop U L isTz skip r with
      | none => rw [ha, hb] at h; simp at h
      | some b =>
        rw [ha, hb] at h
        simp only [Option.bind_some, Option.pure_def, Option.some.injEq] at h
        subst h
        rcases List.mem_append.mp hx with hx | hx
        · have := chunkLoop_infix hs isTz _ _ _ _ _ _ rfl ha x hx
          simp only [List.flatMap_nil, List.nil_append, ahead, Bool.false_eq_true, if_false] at this
          rw [(spaced_tokens (U := U) (skip := skip) hs s).2.2] at this
          exact ⟨s, by simp, this⟩
        · obtain ⟨s', h1, h2⟩ := ih b hb x hx
          exact ⟨s', by simp [h1], h2⟩

end Verif.Lemmas
