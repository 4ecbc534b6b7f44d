import Verif.Props.LocaleTables
/-! # C27: languages and locales -/
set_option autoImplicit false
namespace Verif.Props
open Verif.Go Verif.Model Verif.Spec Verif.Data

theorem lookup_isSome {α : Type} (t : List (Name × α)) (k : Name) : (lookup t k).isSome = true ↔ k ∈ t.map (·.1) := by
  unfold lookup
  rw [Option.isSome_map, List.find?_isSome, List.mem_map]
  constructor
  · rintro ⟨x, h1, h2⟩; exact ⟨x, h1, by simpa using h2⟩
  · rintro ⟨x, h1, h2⟩; exact ⟨x, h1, by simpa using h2⟩

theorem known_iff (x : Name) : (getLocaleData x).isNone = false ↔ KnownLocale x := by
  unfold getLocaleData KnownLocale
  rw [← lookup_isSome]
  cases lookup localeData x <;> simp

theorem knownLang_iff (x : Name) : (langRank x).isNone = false ↔ KnownLanguage x := by
  unfold langRank KnownLanguage
  rw [← lookup_isSome]
  cases lookup languageOrder x <;> simp

theorem mem_firsts (l : List Name) (x : Name) : x ∈ firsts l ↔ x ∈ l := by
  induction l with
  | nil => simp [firsts]
  | cons y r ih =>
    simp only [firsts, List.mem_cons, List.mem_filter, ih, decide_eq_true_eq]
    by_cases h : x = y <;> simp [h]

theorem nodup_firsts (l : List Name) : (firsts l).Nodup := by
  induction l with
  | nil => simp [firsts]
  | cons y r ih =>
    simp only [firsts, List.nodup_cons, List.mem_filter, decide_eq_true_eq]
    exact ⟨fun h => h.2 rfl, ih.filter _⟩

/-- What the loop still has to add. -/
def news (valid r : List Name) : List Name := (firsts r).filter fun x => !valid.contains x

theorem news_old {valid : List Name} {x : Name} (r : List Name) (h : x ∈ valid) : news valid (x :: r) = news valid r := by
  unfold news
  have hx : (!valid.contains x) = false := by simp [h]
  simp only [firsts, List.filter_cons, hx, Bool.false_eq_true, if_false]
  rw [List.filter_filter]
  congr 1
  funext y
  by_cases e : y = x
  · subst e; simp [h]
  · simp [e]

theorem news_new {valid : List Name} {x : Name} (r : List Name) (h : x ∉ valid) :
    news valid (x :: r) = x :: news (valid ++ [x]) r := by
  unfold news
  have hx : (!valid.contains x) = true := by simp [h]
  simp only [firsts, List.filter_cons, hx, if_true]
  rw [List.filter_filter]
  congr 2
  funext y
  by_cases e : y = x
  · subst e; simp
  · simp [e]

/-- The loop over locales, when it succeeds. -/
theorem locLoop_ok (r : List Name) : ∀ (valid invalid : List Name) (res : List Name),
    (valid.map removeRegion).Nodup →
    locLoop false r valid (valid.map removeRegion) invalid = .ok res →
    invalid = [] ∧ (∀ x ∈ r, x ∈ valid ∨ KnownLocale x) ∧ res = valid ++ news valid r ∧ (res.map removeRegion).Nodup := by
  induction r with
  | nil =>
    intro valid invalid res hn h
    unfold locLoop at h
    split at h
    · rename_i hi
      injection h with h; subst h
      exact ⟨by simpa using hi, by simp, by simp [news, firsts], hn⟩
    · simp at h
  | cons l r ih =>
    intro valid invalid res hn h
    unfold locLoop at h
    split at h
    · rename_i hc
      have hc : l ∈ valid := by simpa using hc
      obtain ⟨h1, h2, h3, h4⟩ := ih _ _ _ hn h
      refine ⟨h1, ?_, by rw [news_old r hc]; exact h3, h4⟩
      intro x hx
      rcases List.mem_cons.mp hx with rfl | hx
      · exact .inl hc
      · exact h2 x hx
    · rename_i hc
      have hc : l ∉ valid := by simpa using hc
      split at h
      · have := (ih _ _ _ hn h).1
        simp at this
      · rename_i hk
        have hk := (known_iff l).mp (by cases hd : getLocaleData l <;> simp_all)
        split at h
        · simp at h
        · rename_i hl
          have hl : removeRegion l ∉ valid.map removeRegion := by simpa using hl
          simp only [Bool.false_eq_true, if_false] at h
          have hn' : ((valid ++ [l]).map removeRegion).Nodup := by
            rw [List.map_append, List.nodup_append]
            refine ⟨hn, by simp, ?_⟩
            intro a ha b hb e
            simp only [List.map_cons, List.map_nil, List.mem_singleton] at hb
            subst hb
            exact hl (e ▸ ha)
          rw [show valid.map removeRegion ++ [removeRegion l] = (valid ++ [l]).map removeRegion by simp] at h
          obtain ⟨h1, h2, h3, h4⟩ := ih _ _ _ hn' h
          refine ⟨h1, ?_, by rw [news_new r hc, h3]; simp, h4⟩
          intro x hx
          rcases List.mem_cons.mp hx with rfl | hx
          · exact .inr hk
          · rcases h2 x hx with h2 | h2
            · rcases List.mem_append.mp h2 with h2 | h2
              · exact .inl h2
              · simp only [List.mem_singleton] at h2; subst h2; exact .inr hk
            · exact .inr h2

/-- … and when it must. -/
theorem locLoop_all (r : List Name) : ∀ (valid : List Name), (∀ x ∈ r, KnownLocale x) →
    ((valid ++ news valid r).map removeRegion).Nodup →
    locLoop false r valid (valid.map removeRegion) [] = .ok (valid ++ news valid r) := by
  induction r with
  | nil => intro valid _ _; simp [locLoop, news, firsts]
  | cons l r ih =>
    intro valid hk hn
    unfold locLoop
    by_cases hc : l ∈ valid
    · rw [if_pos (by simpa using hc), news_old r hc]
      rw [news_old r hc] at hn
      exact ih valid (fun x hx => hk x (List.mem_cons_of_mem _ hx)) hn
    · rw [news_new r hc] at hn ⊢
      rw [if_neg (by simpa using hc), if_neg (by rw [(known_iff l).mpr (hk l (by simp))]; simp)]
      have hl : removeRegion l ∉ valid.map removeRegion := by
        intro hm
        rw [List.map_append, List.nodup_append] at hn
        exact hn.2.2 _ hm (removeRegion l) (by simp) rfl
      rw [if_neg (by simpa using hl)]
      simp only [Bool.false_eq_true, if_false]
      rw [show valid.map removeRegion ++ [removeRegion l] = (valid ++ [l]).map removeRegion by simp]
      rw [ih (valid ++ [l]) (fun x hx => hk x (List.mem_cons_of_mem _ hx)) (by simpa using hn)]
      simp

theorem withRegion_eq (region lang : Name) : withRegion region lang = code region lang := by
  unfold withRegion code
  cases region <;> simp

theorem code_inj (region a b : Name) (h : code region a = code region b) : a = b := by
  unfold code at h
  split at h
  · exact h
  · exact List.append_cancel_right h

/-- The codes of languages that are known. -/
def codes (region : Name) (l : List Name) : List Name :=
  (l.map (code region)).filter fun x => (getLocaleData x).isSome

theorem codes_append (region : Name) (a b : List Name) : codes region (a ++ b) = codes region a ++ codes region b := by
  simp [codes]

theorem mem_codes (region : Name) (l : List Name) (x : Name) :
    x ∈ codes region l ↔ KnownLocale x ∧ ∃ lang ∈ l, x = code region lang := by
  unfold codes
  rw [List.mem_filter, List.mem_map]
  have : (getLocaleData x).isSome = true ↔ KnownLocale x := lookup_isSome _ _
  rw [this]
  constructor
  · rintro ⟨⟨a, h1, h2⟩, h3⟩; exact ⟨h3, a, h1, h2.symm⟩
  · rintro ⟨h3, a, h1, h2⟩; exact ⟨⟨a, h1, h2.symm⟩, h3⟩

theorem nodup_codes (region : Name) (l : List Name) (h : l.Nodup) : (codes region l).Nodup := by
  unfold codes
  apply List.Pairwise.filter
  unfold List.Nodup at h
  rw [List.pairwise_map]
  exact h.imp fun {a b} h e => h (code_inj region a b e)

/-- The loop over languages. -/
theorem langLoop_eq (region : Name) (r : List Name) : ∀ (seen unknown : List Name),
    (∃ x ∈ r, x ∉ seen ∧ ¬ KnownLanguage x) ∧
      (∃ u, u ≠ [] ∧ langLoop region r (codes region (seen.filter fun x => (langRank x).isSome)) seen unknown =
        .error (.unknownLanguages (unknown ++ u)) ∧ ∀ x, x ∈ u ↔ x ∈ r ∧ x ∉ seen ∧ ¬ KnownLanguage x) ∨
    (∀ x ∈ r, x ∈ seen ∨ KnownLanguage x) ∧
      langLoop region r (codes region (seen.filter fun x => (langRank x).isSome)) seen unknown =
        (if unknown.isEmpty then
          .ok (codes region ((seen ++ news seen r).filter fun x => (langRank x).isSome))
        else .error (.unknownLanguages unknown)) := by
  induction r with
  | nil =>
    intro seen unknown
    right
    simp [langLoop, news, firsts]
  | cons l r ih =>
    intro seen unknown
    by_cases hs : l ∈ seen
    · have hstep : ∀ v, langLoop region (l :: r) v seen unknown = langLoop region r v seen unknown := by
        intro v; rw [langLoop, if_pos (by simpa using hs)]
      rw [hstep, news_old r hs]
      rcases ih seen unknown with ⟨⟨x, h1, h2⟩, u, h4, h5, h6⟩ | ⟨h1, h2⟩
      · left
        refine ⟨⟨x, List.mem_cons_of_mem _ h1, h2⟩, u, h4, h5, ?_⟩
        intro y
        rw [h6 y, List.mem_cons]
        constructor
        · rintro ⟨a, b⟩; exact ⟨.inr a, b⟩
        · rintro ⟨rfl | a, b⟩
          · exact absurd hs b.1
          · exact ⟨a, b⟩
      · right
        refine ⟨?_, h2⟩
        intro x hx
        rcases List.mem_cons.mp hx with rfl | hx
        · exact .inl hs
        · exact h1 x hx
    · rw [news_new r hs]
      by_cases hk : KnownLanguage l
      · have hk' := (knownLang_iff l).mpr hk
        have hk'' : (langRank l).isSome = true := by cases h : langRank l <;> simp_all
        have hf : ((seen ++ [l]).filter fun x => (langRank x).isSome) =
            (seen.filter fun x => (langRank x).isSome) ++ [l] := by simp [hk'']
        -- whatever the branch, the valid list becomes the codes of the longer list
        have hstep : langLoop region (l :: r) (codes region (seen.filter fun x => (langRank x).isSome)) seen unknown =
            langLoop region r (codes region ((seen ++ [l]).filter fun x => (langRank x).isSome)) (seen ++ [l]) unknown := by
          rw [langLoop, if_neg (by simpa using hs), if_neg (by rw [hk']; simp), hf, codes_append, withRegion_eq]
          have hnot : (codes region (seen.filter fun x => (langRank x).isSome)).contains (code region l) = false := by
            rw [Bool.eq_false_iff]
            intro hm
            rw [List.contains_eq_mem, decide_eq_true_eq, mem_codes] at hm
            obtain ⟨_, b, hb, e⟩ := hm
            have := code_inj region l b e
            subst this
            exact hs (List.mem_filter.mp hb).1
          rw [hnot]
          simp only [Bool.false_eq_true, if_false]
          unfold codes
          cases hd : getLocaleData (code region l) with
          | none => simp [hd]
          | some v => simp [hd]
        rw [hstep]
        rcases ih (seen ++ [l]) unknown with ⟨⟨x, h1, h2, h3⟩, u, h4, h5, h6⟩ | ⟨h1, h2⟩
        · left
          refine ⟨⟨x, List.mem_cons_of_mem _ h1, ?_, h3⟩, u, h4, h5, ?_⟩
          · intro hx; exact h2 (List.mem_append_left _ hx)
          · intro y
            rw [h6 y, List.mem_cons, List.mem_append, List.mem_singleton]
            constructor
            · rintro ⟨a, b, c⟩; exact ⟨.inr a, fun h => b (.inl h), c⟩
            · rintro ⟨a, b, c⟩
              have : y ≠ l := fun e => c (e ▸ hk)
              exact ⟨a.resolve_left this, fun h => h.elim b this, c⟩
        · right
          refine ⟨?_, ?_⟩
          · intro x hx
            rcases List.mem_cons.mp hx with rfl | hx
            · exact .inr hk
            · rcases h1 x hx with h | h
              · rcases List.mem_append.mp h with h | h
                · exact .inl h
                · simp only [List.mem_singleton] at h; subst h; exact .inr hk
              · exact .inr h
          · rw [h2]; simp
      · have hk' : (langRank l).isNone = true := by
          cases h : langRank l with
          | none => rfl
          | some v => exact absurd ((knownLang_iff l).mp (by simp [h])) hk
        have hk'' : (langRank l).isSome = false := by cases h : langRank l <;> simp_all
        have hf : ((seen ++ [l]).filter fun x => (langRank x).isSome) = seen.filter fun x => (langRank x).isSome := by
          simp [hk'']
        have hstep : langLoop region (l :: r) (codes region (seen.filter fun x => (langRank x).isSome)) seen unknown =
            langLoop region r (codes region ((seen ++ [l]).filter fun x => (langRank x).isSome)) (seen ++ [l])
              (unknown ++ [l]) := by
          rw [langLoop, if_neg (by simpa using hs), if_pos hk', hf]
        left
        refine ⟨⟨l, by simp, hs, hk⟩, ?_⟩
        rw [hstep]
        rcases ih (seen ++ [l]) (unknown ++ [l]) with ⟨_, u, h4, h5, h6⟩ | ⟨h1, h2⟩
        · refine ⟨l :: u, by simp, by rw [h5]; simp, ?_⟩
          intro y
          rw [List.mem_cons, h6 y, List.mem_cons, List.mem_append, List.mem_singleton]
          by_cases e : y = l
          · subst e; simp [hs, hk]
          · simp [e]
        · refine ⟨[l], by simp, by rw [h2]; simp, ?_⟩
          intro y
          rw [List.mem_singleton, List.mem_cons]
          constructor
          · rintro rfl; exact ⟨.inl rfl, hs, hk⟩
          · rintro ⟨a, b, c⟩
            rcases a with a | a
            · exact a
            · rcases h1 y a with h | h
              · rcases List.mem_append.mp h with h | h
                · exact absurd h b
                · simpa using h
              · exact absurd h c

theorem pairwise_ne {f : Name → Name} {l : List Name} (h : l.Pairwise fun a b => f a ≠ f b) {x y : Name}
    (hx : x ∈ l) (hy : y ∈ l) (hne : x ≠ y) : f x ≠ f y := by
  induction l with
  | nil => simp at hx
  | cons a r ih =>
    rw [List.pairwise_cons] at h
    rcases List.mem_cons.mp hx with hx' | hx' <;> rcases List.mem_cons.mp hy with hy' | hy'
    · exact absurd (hx'.trans hy'.symm) hne
    · rw [hx']; exact h.1 y hy'
    · rw [hy']; exact fun e => h.1 x hx' e.symm
    · exact ih h.2 hx' hy'

/-! ### Sorting -/

theorem rankLE_total (rank : Name → Nat) (a b : Name) : rankLE rank a b = true ∨ rankLE rank b a = true := by
  unfold rankLE
  by_cases h1 : rank a < rank b
  · simp [h1]
  · by_cases h2 : rank b < rank a
    · simp [h2]
    · have : rank a = rank b := by omega
      have hab : ¬ (b < a) ∨ ¬ (a < b) := by
        by_cases h : b < a
        · exact .inr (fun h' => List.lt_irrefl _ (List.lt_trans h h'))
        · exact .inl h
      simp only [this, Nat.lt_irrefl, decide_false, Bool.false_or, beq_self_eq_true, Bool.true_and,
        Bool.not_eq_true', decide_eq_false_iff_not]
      exact hab

theorem rankLE_trans (rank : Name → Nat) (a b c : Name) (h1 : rankLE rank a b = true) (h2 : rankLE rank b c = true) :
    rankLE rank a c = true := by
  unfold rankLE at *
  simp only [Bool.or_eq_true, decide_eq_true_eq, Bool.and_eq_true, beq_iff_eq, Bool.not_eq_true',
    decide_eq_false_iff_not] at *
  rcases h1 with h1 | ⟨h1, h1'⟩ <;> rcases h2 with h2 | ⟨h2, h2'⟩
  · left; omega
  · left; omega
  · left; omega
  · right
    refine ⟨by omega, ?_⟩
    intro h
    have k1 : a ≤ b := h1'
    have k2 : b ≤ c := h2'
    exact (List.le_trans k1 k2) h

theorem rankLE_earlier (rank : Name → Nat) (a b : Name) (h : rankLE rank a b = true) (hne : a ≠ b) : Earlier rank a b := by
  unfold rankLE at h
  simp only [Bool.or_eq_true, decide_eq_true_eq, Bool.and_eq_true, beq_iff_eq, Bool.not_eq_true',
    decide_eq_false_iff_not] at h
  unfold Earlier
  rcases h with h | ⟨h, h'⟩
  · exact .inl h
  · refine .inr ⟨h, ?_⟩
    have k1 : a ≤ b := h'
    by_cases hlt : a < b
    · exact hlt
    · have k2 : b ≤ a := hlt
      exact absurd (List.le_antisymm k1 k2) hne

theorem sort_earlier (rank : Name → Nat) (l : List Name) (h : l.Nodup) :
    (sortBy (rankLE rank) l).Pairwise (Earlier rank) := by
  have s := sortBy_sorted (rankLE_total rank) (rankLE_trans rank) l
  have n : (sortBy (rankLE rank) l).Nodup := (sortBy_perm _ l).nodup_iff.mpr h
  unfold List.Nodup at n
  exact (List.Pairwise.and s n).imp fun {a b} h => rankLE_earlier rank a b h.1 h.2

/-! ### C27 -/

theorem allLanguages_eq : allLanguages = languageOrder.map (·.1) := by decide +kernel

theorem news_nil (r : List Name) : news [] r = firsts r := by simp [news]

/-- The languages a request stands for. -/
def requested (languages : List Name) : List Name := if languages.isEmpty then allLanguages else languages

theorem mem_requested (languages : List Name) (x : Name) :
    x ∈ requested languages ↔ if languages = [] then KnownLanguage x else x ∈ languages := by
  unfold requested KnownLanguage
  rw [allLanguages_eq]
  cases languages <;> simp

theorem raw_languages (languages : List Name) (region : Name) (allow : Bool) :
    ((∃ x ∈ requested languages, ¬ KnownLanguage x) ∧
      ∃ u, u ≠ [] ∧ rawLocales [] languages region allow = .error (.unknownLanguages u) ∧
        ∀ x, x ∈ u ↔ x ∈ requested languages ∧ ¬ KnownLanguage x) ∨
    ((∀ x ∈ requested languages, KnownLanguage x) ∧
      rawLocales [] languages region allow = .ok (codes (tidyRegion region) (firsts (requested languages)))) := by
  have h := langLoop_eq (tidyRegion region) (requested languages) [] []
  have e : rawLocales [] languages region allow = langLoop (tidyRegion region) (requested languages) [] [] [] := by
    simp [rawLocales, requested]
  have ec : codes (tidyRegion region) (([] : List Name).filter fun x => (langRank x).isSome) = [] := rfl
  rw [ec] at h
  rw [e]
  rcases h with ⟨⟨x, h1, _, h3⟩, u, h4, h5, h6⟩ | ⟨h1, h2⟩
  · left
    refine ⟨⟨x, h1, h3⟩, u, h4, by simpa using h5, ?_⟩
    intro y
    rw [h6 y]
    simp
  · right
    have hk : ∀ x ∈ requested languages, KnownLanguage x := by
      intro x hx
      rcases h1 x hx with h | h
      · simp at h
      · exact h
    refine ⟨hk, ?_⟩
    rw [h2, news_nil]
    have hf : (firsts (requested languages)).filter (fun x => (langRank x).isSome) = firsts (requested languages) := by
      rw [List.filter_eq_self]
      intro x hx
      rw [mem_firsts] at hx
      exact (lookup_isSome languageOrder x).mpr (hk x hx)
    simp [hf]

/-- **C27, what is loaded.** When locales are loaded, none is loaded twice, all are known, they are exactly those
asked for, and unless the given order is wanted they are sorted by popularity of the language, then by name. -/
theorem C27_loaded (locales languages : List Name) (region : Name) (given : Bool) (L : List Name)
    (h : getLocales locales languages region given false = .ok L) :
    L ≠ [] ∧ L.Nodup ∧ (∀ x ∈ L, KnownLocale x) ∧
    (∀ x, x ∈ L ↔ AskedFor locales languages (tidyRegion region) x) ∧
    (given = false → L.Pairwise (Earlier localeRank)) := by
  -- before sorting
  have key : ∃ R, rawLocales locales languages region false = .ok R ∧ R.Nodup ∧ (∀ x ∈ R, KnownLocale x) ∧
      (∀ x, x ∈ R ↔ AskedFor locales languages (tidyRegion region) x) := by
    cases locales with
    | nil =>
      rcases raw_languages languages region false with ⟨_, u, _, e, _⟩ | ⟨_, e⟩
      · unfold getLocales at h; rw [e] at h; simp at h
      · refine ⟨_, e, nodup_codes _ _ (nodup_firsts _), ?_, ?_⟩
        · intro x hx; exact ((mem_codes _ _ _).mp hx).1
        · intro x
          rw [mem_codes]
          unfold AskedFor
          simp only [ne_eq, not_true, if_false]
          constructor
          · rintro ⟨h1, a, h2, h3⟩
            rw [mem_firsts, mem_requested] at h2
            exact ⟨h1, a, h3, h2⟩
          · rintro ⟨h1, a, h3, h2⟩
            exact ⟨h1, a, by rw [mem_firsts, mem_requested]; exact h2, h3⟩
    | cons l locales =>
      have e : rawLocales (l :: locales) languages region false = locLoop false (l :: locales) [] [] [] := rfl
      rw [e]
      cases hl : locLoop false (l :: locales) [] [] [] with
      | error er =>
        unfold getLocales at h
        rw [e, hl] at h; simp at h
      | ok R =>
        obtain ⟨_, h2, h3, _⟩ := locLoop_ok (l :: locales) [] [] R (by simp) hl
        rw [news_nil, List.nil_append] at h3
        subst h3
        refine ⟨_, rfl, nodup_firsts _, ?_, ?_⟩
        · intro x hx
          rw [mem_firsts] at hx
          rcases h2 x hx with h | h
          · simp at h
          · exact h
        · intro x
          rw [mem_firsts]
          unfold AskedFor
          simp
  obtain ⟨R, e, hn, hk, hm⟩ := key
  unfold getLocales at h
  rw [e] at h
  simp only at h
  have hp : (if given = true then R else sortBy (rankLE localeRank) R).Perm R := by
    split
    · exact .refl _
    · exact sortBy_perm _ _
  have hs : given = false → (if given = true then R else sortBy (rankLE localeRank) R).Pairwise (Earlier localeRank) := by
    intro hg
    subst hg
    exact sort_earlier _ _ hn
  generalize (if given = true then R else sortBy (rankLE localeRank) R) = S at h hp hs
  split at h
  · simp at h
  · rename_i hne
    injection h with h
    subst h
    refine ⟨by simpa using hne, hp.nodup_iff.mpr hn, ?_, ?_, ?_⟩
    · intro x hx; exact hk x (hp.mem_iff.mp hx)
    · intro x; rw [hp.mem_iff]; exact hm x
    · exact hs

/-- **C27, given order.** With the given order, locales come in the order of their first mention. -/
theorem C27_given_order (locales languages : List Name) (region : Name) (L : List Name)
    (h : getLocales locales languages region true false = .ok L) :
    if locales ≠ [] then L = firsts locales
    else L = ((firsts (requested languages)).map (code (tidyRegion region))).filter fun x =>
      decide (KnownLocale x) := by
  unfold getLocales at h
  cases locales with
  | nil =>
    rcases raw_languages languages region false with ⟨_, u, _, e, _⟩ | ⟨_, e⟩
    · rw [e] at h; simp at h
    · rw [e] at h
      simp only [if_true] at h
      split at h
      · simp at h
      · injection h with h
        simp only [ne_eq, not_true, if_false]
        rw [← h]
        unfold codes
        congr 1
        funext x
        have := lookup_isSome localeData x
        rw [Bool.eq_iff_iff, decide_eq_true_eq]
        exact this
  | cons l locales =>
    have e : rawLocales (l :: locales) languages region false = locLoop false (l :: locales) [] [] [] := rfl
    rw [e] at h
    cases hl : locLoop false (l :: locales) [] [] [] with
    | error er => rw [hl] at h; simp at h
    | ok R =>
      rw [hl] at h
      obtain ⟨_, _, h3, _⟩ := locLoop_ok (l :: locales) [] [] R (by simp) hl
      rw [news_nil, List.nil_append] at h3
      simp only [if_true] at h
      split at h
      · simp at h
      · injection h with h
        simp only [ne_eq, reduceCtorEq, not_false_eq_true, if_true]
        rw [← h, h3]

/-- **C27, locales: when loading fails.** Given locales are loaded if and only if all are known and no two different
ones have the same language. -/
theorem C27_locales_accepted (locales languages : List Name) (region : Name) (given : Bool) (hne : locales ≠ []) :
    (∃ L, getLocales locales languages region given false = .ok L) ↔
      (∀ x ∈ locales, KnownLocale x) ∧
      ∀ x ∈ locales, ∀ y ∈ locales, x ≠ y → removeRegion x ≠ removeRegion y := by
  have e : rawLocales locales languages region false = locLoop false locales [] [] [] := by
    cases locales with
    | nil => exact absurd rfl hne
    | cons l r => rfl
  constructor
  · rintro ⟨L, h⟩
    unfold getLocales at h
    rw [e] at h
    cases hl : locLoop false locales [] [] [] with
    | error er => rw [hl] at h; simp at h
    | ok R =>
      obtain ⟨_, h2, h3, h4⟩ := locLoop_ok locales [] [] R (by simp) hl
      rw [news_nil, List.nil_append] at h3
      subst h3
      refine ⟨?_, ?_⟩
      · intro x hx
        rcases h2 x hx with h | h
        · simp at h
        · exact h
      · intro x hx y hy hxy hr
        unfold List.Nodup at h4
        rw [List.pairwise_map] at h4
        have hx := (mem_firsts locales x).mpr hx
        have hy := (mem_firsts locales y).mpr hy
        exact absurd hr (pairwise_ne h4 hx hy hxy)
  · rintro ⟨h1, h2⟩
    have hn : ((firsts locales).map removeRegion).Nodup := by
      unfold List.Nodup
      rw [List.pairwise_map]
      have := nodup_firsts locales
      unfold List.Nodup at this
      refine List.Pairwise.imp_of_mem ?_ this
      intro a b ha hb hab
      exact h2 a ((mem_firsts _ _).mp ha) b ((mem_firsts _ _).mp hb) hab
    have := locLoop_all locales [] h1 (by rw [news_nil]; simpa using hn)
    rw [news_nil, List.nil_append] at this
    unfold getLocales
    rw [e]
    rw [show locLoop false locales [] [] [] = _ from this]
    simp only
    have hp : (if given = true then firsts locales else sortBy (rankLE localeRank) (firsts locales)).Perm (firsts locales) := by
      split
      · exact .refl _
      · exact sortBy_perm _ _
    have hne' : ¬ (if given = true then firsts locales else sortBy (rankLE localeRank) (firsts locales)).isEmpty = true := by
      intro hemp
      have h0 : firsts locales = [] := by
        have := hp.length_eq
        rw [List.isEmpty_iff.mp hemp] at this
        exact List.eq_nil_of_length_eq_zero this.symm
      cases locales with
      | nil => exact hne rfl
      | cons a r => simp [firsts] at h0
    rw [if_neg hne']
    exact ⟨_, rfl⟩

/-- **C27, languages: when loading fails.** Without locales, an unknown language is reported, all unknown ones
together; else loading only fails when no known locale is asked for. -/
theorem C27_languages_accepted (languages : List Name) (region : Name) (given : Bool) :
    (∃ L, getLocales [] languages region given false = .ok L) ↔
      (∀ x ∈ languages, KnownLanguage x) ∧ ∃ x, AskedFor [] languages (tidyRegion region) x := by
  have hreq : (∀ x ∈ languages, KnownLanguage x) ↔ ∀ x ∈ requested languages, KnownLanguage x := by
    constructor
    · intro h x hx
      rw [mem_requested] at hx
      split at hx
      · exact hx
      · exact h x hx
    · intro h x hx
      apply h
      rw [mem_requested]
      split
      · rename_i e; subst e; simp at hx
      · exact hx
  constructor
  · rintro ⟨L, h⟩
    have hl := C27_loaded [] languages region given L h
    refine ⟨?_, ?_⟩
    · rw [hreq]
      rcases raw_languages languages region false with ⟨_, u, _, e, _⟩ | ⟨h1, _⟩
      · unfold getLocales at h; rw [e] at h; simp at h
      · exact h1
    · obtain ⟨x, hx⟩ := List.exists_mem_of_ne_nil L hl.1
      exact ⟨x, (hl.2.2.2.1 x).mp hx⟩
  · rintro ⟨h1, x, hx⟩
    rcases raw_languages languages region false with ⟨⟨y, hy, hy'⟩, _⟩ | ⟨_, e⟩
    · exact absurd (hreq.mp h1 y hy) hy'
    · unfold getLocales
      rw [e]
      simp only
      have hm : x ∈ codes (tidyRegion region) (firsts (requested languages)) := by
        rw [mem_codes]
        unfold AskedFor at hx
        simp only [ne_eq, not_true, if_false] at hx
        obtain ⟨k, a, h3, h2⟩ := hx
        exact ⟨k, a, by rw [mem_firsts, mem_requested]; exact h2, h3⟩
      rw [if_neg]
      · exact ⟨_, rfl⟩
      · intro hemp
        have hp : (if given = true then codes (tidyRegion region) (firsts (requested languages))
            else sortBy (rankLE localeRank) (codes (tidyRegion region) (firsts (requested languages)))).Perm
            (codes (tidyRegion region) (firsts (requested languages))) := by
          split
          · exact .refl _
          · exact sortBy_perm _ _
        rw [List.isEmpty_iff.mp hemp] at hp
        have := hp.mem_iff.mpr hm
        simp at this

/-- E.g. German and English in the region Austria, sorted: English first; unknown `xx` refused. -/
example : getLocales [] ["de".toList, "en".toList] " at".toList false false = .ok ["en-AT".toList, "de-AT".toList] ∧
    getLocales ["fr".toList, "xx".toList] [] [] false false = .error (.unknownLocales ["xx".toList]) ∧
    getLocales ["fr".toList, "fr-BE".toList] [] [] false false = .error .conflicting := by decide +kernel

end Verif.Props
