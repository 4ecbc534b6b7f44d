import Verif.Spec.Detect
import Verif.Props.Loader
import Verif.Lemmas.Whole
import Verif.Lemmas.Spaces
/-! # Language detection: lemmas -/
set_option autoImplicit false
namespace Verif.Lemmas
open Verif.Go Verif.Model Verif.Data Verif.Spec

/-! ## The languages of a search -/

theorem removeRegion_language (l : Name) : LanguageOf (removeRegion l) l := by
  unfold removeRegion
  dsimp only
  split
  · rename_i h
    simp only [Bool.and_eq_true] at h
    have hc : '-' ∈ l := by simpa using h.1.1
    right
    refine ⟨(l.reverse.takeWhile (· != '-')).reverse, ?_⟩
    have h1 := List.takeWhile_append_dropWhile (p := fun c : Char => c != '-') (l := l.reverse)
    have hd : ∃ r, l.reverse.dropWhile (fun c : Char => c != '-') = '-' :: r := by
      cases hd : l.reverse.dropWhile (fun c : Char => c != '-') with
      | nil =>
        rw [hd, List.append_nil] at h1
        have hm : '-' ∈ l.reverse.takeWhile (fun c : Char => c != '-') := by rw [h1]; exact List.mem_reverse.mpr hc
        have hall : ∀ (m : List Char), '-' ∉ m.takeWhile (fun c : Char => c != '-') := by
          intro m
          induction m with
          | nil => simp
          | cons a m ih =>
            rw [List.takeWhile_cons]
            split
            · rename_i ha
              intro hx
              rcases List.mem_cons.mp hx with hx | hx
              · rw [← hx] at ha; simp at ha
              · exact ih hx
            · simp
        exact absurd hm (hall _)
      | cons c r =>
        have := List.head_dropWhile_not (fun c : Char => c != '-') (l := l.reverse) (by rw [hd]; simp)
        simp only [hd, List.head_cons] at this
        have hc : c = '-' := by simpa using this
        exact ⟨r, by rw [hc]⟩
    obtain ⟨r, hr⟩ := hd
    rw [hr] at h1
    generalize l.reverse.takeWhile (fun c : Char => c != '-') = t at h1 ⊢
    have hl : l = r.reverse ++ '-' :: t.reverse := by
      rw [← List.reverse_reverse l, ← h1]; simp
    subst hl
    have : (r.reverse ++ '-' :: t.reverse).length - t.reverse.length - 1 = r.reverse.length := by simp; omega
    rw [this, List.take_left]
  · exact Or.inl rfl

theorem langOfLoop_ok : ∀ (r result invalid out : List Name), langOfLoop r result invalid = .ok out →
    (∀ x ∈ out, x ∈ result ∨ ∃ loc ∈ r, x = removeRegion loc) ∧ (∀ x ∈ result, x ∈ out) ∧
      (r ≠ [] → out ≠ []) ∧ (result.Nodup → out.Nodup)
  | [], result, invalid, out, h => by
    simp only [langOfLoop] at h
    split at h
    · injection h with h; subst h; exact ⟨fun x hx => Or.inl hx, fun x hx => hx, fun h => absurd rfl h, id⟩
    · simp at h
  | l :: r, result, invalid, out, h => by
    simp only [langOfLoop] at h
    split at h
    · -- not known: an error in the end
      exfalso
      have hbad : ∀ (r result invalid : List Name), invalid ≠ [] → ∀ out, langOfLoop r result invalid ≠ .ok out := by
        intro r
        induction r with
        | nil => intro result invalid hi out; simp [langOfLoop, hi]
        | cons a r ih =>
          intro result invalid hi out
          simp only [langOfLoop]
          split
          · exact ih _ _ (by simp) _
          · split
            · exact ih _ _ hi _
            · exact ih _ _ hi _
      exact hbad _ _ _ (by simp) _ h
    · split at h
      · rename_i hc
        obtain ⟨a1, a2, a3, a4⟩ := langOfLoop_ok _ _ _ _ h
        refine ⟨fun x hx => ?_, a2, fun _ => ?_, a4⟩
        · rcases a1 x hx with h | ⟨loc, h1, h2⟩
          · exact Or.inl h
          · exact Or.inr ⟨loc, by simp [h1], h2⟩
        · intro ho
          have := a2 _ (by simpa using hc)
          simp [ho] at this
      · rename_i hc
        obtain ⟨a1, a2, a3, a4⟩ := langOfLoop_ok _ _ _ _ h
        refine ⟨fun x hx => ?_, fun x hx => a2 x (by simp [hx]), fun _ => ?_, fun hn => a4 ?_⟩
        · rcases a1 x hx with h | ⟨loc, h1, h2⟩
          · rw [List.mem_append] at h
            rcases h with h | h
            · exact Or.inl h
            · simp at h; exact Or.inr ⟨l, by simp, h⟩
          · exact Or.inr ⟨loc, by simp [h1], h2⟩
        · intro ho
          have := a2 (removeRegion l) (by simp)
          simp [ho] at this
        · rw [List.nodup_append]
          refine ⟨hn, by simp, ?_⟩
          intro a ha b hb
          simp at hb
          subst hb
          intro hab
          subst hab
          simp [ha] at hc

theorem allLanguages_nodup : allLanguages.Nodup := by decide +kernel
theorem allLanguages_ne : allLanguages ≠ [] := by decide +kernel

theorem getLanguages_ok (locales languages : List Name) (given : Bool) (out : List Name) (h : getLanguages locales languages given = .ok out) :
    out ≠ [] ∧ (∀ l ∈ out, SearchedLanguage locales languages l) ∧ (locales ≠ [] ∨ languages.Nodup → out.Nodup) := by
  unfold getLanguages at h
  dsimp only at h
  by_cases hl : locales = []
  · subst hl
    simp only [List.isEmpty_nil, if_true] at h
    by_cases ha : (languages.all fun l => (langRank l).isSome) = true
    · rw [if_pos ha] at h
      simp only at h
      injection h with h
      by_cases hg : languages = []
      · subst hg
        have : out = allLanguages := by
          rw [← h]; cases given <;> rfl
        rw [this]
        refine ⟨allLanguages_ne, ?_, fun _ => allLanguages_nodup⟩
        intro l hl
        simp only [SearchedLanguage, ne_eq, not_true_eq_false, if_false]
        rw [Props.allLanguages_eq] at hl
        exact hl
      · have hp : (if given then languages else sortBy (rankLE fun l => (langRank l).getD 0) languages).Perm languages := by
          cases given
          · exact Props.sortBy_perm _ _
          · exact List.Perm.refl _
        have hne : (if given then languages else sortBy (rankLE fun l => (langRank l).getD 0) languages) ≠ [] := by
          intro hc
          rw [hc] at hp
          exact hg (List.nil_perm.mp hp)
        have : out = (if given then languages else sortBy (rankLE fun l => (langRank l).getD 0) languages) := by
          rw [← h]
          rw [if_neg (by simpa using hne)]
        subst this
        refine ⟨hne, ?_, ?_⟩
        · intro l hl
          simp only [SearchedLanguage, ne_eq, not_true_eq_false, if_false, hg, not_false_eq_true, if_true]
          exact hp.mem_iff.mp hl
        · intro hn
          rcases hn with hn | hn
          · exact absurd rfl hn
          · exact hp.nodup_iff.mpr hn
    · rw [if_neg ha] at h
      simp at h
  · rw [if_neg (by simpa using hl)] at h
    cases hr : langOfLoop locales [] [] with
    | error e => rw [hr] at h; simp at h
    | ok res =>
      rw [hr] at h
      simp only at h
      injection h with h
      obtain ⟨a1, _, a3, a4⟩ := langOfLoop_ok _ _ _ _ hr
      have hres := a3 hl
      have hp : (if given then res else sortBy (rankLE fun l => (langRank l).getD 0) res).Perm res := by
        cases given
        · exact Props.sortBy_perm _ _
        · exact List.Perm.refl _
      have hne : (if given then res else sortBy (rankLE fun l => (langRank l).getD 0) res) ≠ [] := by
        intro hc
        rw [hc] at hp
        exact hres (List.nil_perm.mp hp)
      have : out = (if given then res else sortBy (rankLE fun l => (langRank l).getD 0) res) := by
        rw [← h]
        rw [if_neg (by simpa using hne)]
      subst this
      refine ⟨hne, ?_, fun _ => hp.nodup_iff.mpr (a4 (by simp))⟩
      intro l hl'
      unfold SearchedLanguage
      rw [if_pos hl]
      rcases a1 l (hp.mem_iff.mp hl') with h | ⟨loc, h1, h2⟩
      · simp at h
      · exact ⟨loc, h1, h2 ▸ removeRegion_language loc⟩

/-! ## Candidates and scores -/

theorem find?_mem' {α : Type} {p : α → Bool} {l : List α} {a : α} (h : l.find? p = some a) : a ∈ l := List.mem_of_find?_eq_some h

theorem candidates_mem {E : DetectEnv} {str : List Char} {languages : List Name} {unique : List (Name × List Char)} {cs : List Name}
    (h : getLanguageCandidates E str languages unique = some cs) : ∀ l ∈ cs, l ∈ languages := by
  unfold getLanguageCandidates at h
  dsimp only at h
  split at h
  · cases languages with
    | nil => simp at h
    | cons a r =>
      simp only [List.head?_cons, Option.map_some, Option.some.injEq] at h
      subst h
      intro l hl; simp at hl; simp [hl]
  · split at h
    · rename_i l' hf
      injection h with h
      subst h
      intro l hl
      simp at hl
      subst hl
      exact find?_mem' hf
    · injection h with h
      subst h
      intro l hl
      exact (List.mem_filter.mp hl).1

theorem candidates_some (E : DetectEnv) (str : List Char) {languages : List Name} (unique : List (Name × List Char)) (hne : languages ≠ []) :
    ∃ cs, getLanguageCandidates E str languages unique = some cs := by
  unfold getLanguageCandidates
  dsimp only
  split
  · cases languages with
    | nil => exact absurd rfl hne
    | cons a r => exact ⟨_, rfl⟩
  · split
    · exact ⟨_, rfl⟩
    · exact ⟨_, rfl⟩

/-- The scores are those of the candidates that understand something, in order. -/
theorem scoreLoop_eq {E : DetectEnv} {skip : List (List Char)} {str : List Char} : ∀ {cs : List Name} {out : List (Name × (Nat × Nat))},
    scoreLoop E skip str cs = some out →
    out = cs.filterMap fun l => ((candidateScore E skip str l).getD none).map fun n => (l, n)
  | [], out, h => by simp [scoreLoop] at h; simp [h]
  | l :: r, out, h => by
    simp only [scoreLoop, Option.bind_eq_bind, Option.bind_eq_some_iff] at h
    obtain ⟨sc, h1, rest, h2, h3⟩ := h
    have ih := scoreLoop_eq h2
    cases sc with
    | none =>
      simp only [Option.some.injEq] at h3
      subst h3
      rw [List.filterMap_cons, h1]
      simpa using ih
    | some n =>
      simp only [Option.some.injEq] at h3
      subst h3
      rw [List.filterMap_cons, h1]
      simp [← ih]

theorem scoreLt_iff (a b : Nat × Nat) : scoreLt a b = true ↔ Better a b := by
  unfold scoreLt Better
  split
  · rename_i h
    have : a.1 ≠ b.1 := by simpa using h
    simp; omega
  · rename_i h
    have : a.1 = b.1 := by simpa using h
    simp [this]

theorem bestScore_spec : ∀ (l : List (Name × (Nat × Nat))),
    match bestScore l with
    | none => l = []
    | some b => ∃ p r, l = p ++ b :: r ∧ (∀ x ∈ p, Better b.2 x.2) ∧ ∀ x ∈ r, ¬ Better x.2 b.2
  | [] => rfl
  | x :: r => by
    have ih := bestScore_spec r
    cases h : bestScore r with
    | none =>
      rw [h] at ih
      simp only [bestScore, h]
      exact ⟨[], r, rfl, by simp, by simp [ih]⟩
    | some y =>
      rw [h] at ih
      obtain ⟨p, q, h1, h2, h3⟩ := ih
      simp only [bestScore, h]
      by_cases hs : scoreLt y.2 x.2 = true
      · simp only [hs, if_true]
        refine ⟨x :: p, q, by simp [h1], ?_, h3⟩
        intro z hz
        rcases List.mem_cons.mp hz with rfl | hz
        · exact (scoreLt_iff _ _).mp hs
        · exact h2 z hz
      · simp only [hs]
        refine ⟨[], r, rfl, by simp, ?_⟩
        have hy : ¬ Better y.2 x.2 := fun hb => hs ((scoreLt_iff _ _).mpr hb)
        intro z hz hb
        rw [h1] at hz
        rcases List.mem_append.mp hz with hz | hz
        · have := h2 z hz
          unfold Better at *; omega
        · rcases List.mem_cons.mp hz with rfl | hz
          · exact hy hb
          · have := h3 z hz
            unfold Better at *; omega

theorem detect_mem {E : DetectEnv} {skip : List (List Char)} {defaults : List Name} {str : List Char} {languages : List Name}
    {unique : List (Name × List Char)} {lang : Name}
    (h : detectFullTextLanguage E skip defaults str languages unique = some (some lang)) :
    lang ∈ languages ∨ defaults.head? = some lang := by
  unfold detectFullTextLanguage at h
  simp only [Option.bind_eq_bind, Option.bind_eq_some_iff] at h
  obtain ⟨cs, h1, h2⟩ := h
  have hm := candidates_mem h1
  split at h2
  · rename_i l
    simp only [Option.some.injEq] at h2
    subst h2
    exact Or.inl (hm _ (by simp))
  · simp only [Option.bind_eq_some_iff] at h2
    obtain ⟨scores, h3, h4⟩ := h2
    have he := scoreLoop_eq h3
    split at h4
    · rename_i b hb
      simp only [Option.some.injEq] at h4
      subst h4
      have hs := bestScore_spec scores
      rw [hb] at hs
      obtain ⟨p, r, h5, _, _⟩ := hs
      have : b ∈ scores := by rw [h5]; simp
      rw [he, List.mem_filterMap] at this
      obtain ⟨l, h6, h7⟩ := this
      rw [Option.map_eq_some_iff] at h7
      obtain ⟨n, _, h8⟩ := h7
      left
      rw [← h8]
      exact hm _ h6
    · simp only [Option.some.injEq] at h4
      exact Or.inr h4

end Verif.Lemmas

namespace Verif.Lemmas
open Verif.Go Verif.Model Verif.Data Verif.Spec

/-! ## The characters only one language has -/

theorem lookup_filterMap {α β : Type} [BEq α] [LawfulBEq α] (f : α → Option β) : ∀ (L : List α) (l : α),
    (L.filterMap fun x => (f x).map fun b => (x, b)).lookup l = if l ∈ L then f l else none
  | [], l => by simp
  | a :: L, l => by
    have ih := lookup_filterMap f L l
    rw [List.filterMap_cons]
    cases hf : f a with
    | none =>
      simp only [Option.map_none]
      rw [ih]
      by_cases h : l = a
      · subst h; simp [hf]
      · simp [h]
    | some b =>
      simp only [Option.map_some]
      by_cases h : l = a
      · subst h; simp [hf]
      · rw [List.lookup_cons]
        have : (l == a) = false := by simpa using h
        simp [this, ih, h]

theorem lookup_unique (E : DetectEnv) (L : List Name) (l : Name) :
    (getUniqueCharsets E L).lookup l = if l ∈ L then (E.data l).map fun d => uniqueChars E L l d.2 else none := by
  unfold getUniqueCharsets
  have h := lookup_filterMap (fun l => (E.data l).map fun d => uniqueChars E L l d.2) L.eraseDups l
  simp only [Option.map_map, Function.comp_def, List.mem_eraseDups] at h
  exact h

theorem mem_uniqueChars (E : DetectEnv) (L : List Name) (l : Name) (cs : List Char) (c : Char) :
    c ∈ uniqueChars E L l cs ↔ c ∈ cs ∧ ∀ l' ∈ L, l' ≠ l → ∀ d, E.data l' = some d → c ∉ d.2 := by
  unfold uniqueChars
  rw [List.mem_filter, List.all_eq_true]
  refine and_congr Iff.rfl (forall_congr' fun l' => forall_congr' fun _ => ?_)
  by_cases h : l' = l
  · simp [h]
  · have : (l' == l) = false := by simpa using h
    cases hd : E.data l' with
    | none => simp [this]
    | some d => simp [this, h]

theorem uniqueChars_congr (E : DetectEnv) (L L' : List Name) (h : ∀ x, (E.data x).isSome = true → (x ∈ L ↔ x ∈ L')) (l : Name)
    (cs : List Char) : uniqueChars E L l cs = uniqueChars E L' l cs := by
  unfold uniqueChars
  apply List.filter_congr
  intro c _
  rw [Bool.eq_iff_iff, List.all_eq_true, List.all_eq_true]
  constructor
  · intro hh x hx
    cases hd : E.data x with
    | none => simp
    | some d => have := hh x ((h x (by simp [hd])).mpr hx); rw [hd] at this; exact this
  · intro hh x hx
    cases hd : E.data x with
    | none => simp
    | some d => have := hh x ((h x (by simp [hd])).mp hx); rw [hd] at this; exact this

/-- Pigeonhole: a list without duplicates inside a list that is not longer has all its elements. -/
theorem subset_of_length {α : Type} [DecidableEq α] : ∀ (a b : List α), a.Nodup → (∀ x ∈ a, x ∈ b) → b.length ≤ a.length → ∀ x ∈ b, x ∈ a
  | [], b, _, _, hl, x, hx => by
    have : b = [] := List.length_eq_zero_iff.mp (by simpa using hl)
    subst this; simp at hx
  | y :: a, b, hn, hs, hl, x, hx => by
    by_cases hxy : x = y
    · simp [hxy]
    · have hy := hs y (by simp)
      have hn' := List.nodup_cons.mp hn
      have hlen : (b.erase y).length = b.length - 1 := List.length_erase_of_mem hy
      have := subset_of_length a (b.erase y) hn'.2 (by
        intro z hz
        have hzy : z ≠ y := fun h => hn'.1 (h ▸ hz)
        exact (List.mem_erase_of_ne hzy).mpr (hs z (by simp [hz]))) (by
          rw [hlen]; simp at hl; omega) x ((List.mem_erase_of_ne hxy).mpr hx)
      simp [this]

/-- The field holds what an earlier search computed. -/
def CacheOf (E : DetectEnv) (u : List (Name × List Char)) : Prop := u = [] ∨ ∃ L, u = getUniqueCharsets E L

theorem cacheOf_init {E : DetectEnv} {L : List Name} {u : List (Name × List Char)} (h : CacheOf E u) :
    CacheOf E (initUniqueCharsets E L u) := by
  unfold initUniqueCharsets
  split
  · exact Or.inr ⟨L, rfl⟩
  · exact h

/-- After `initUniqueCharsets` for languages without repetition the field holds what would be computed from scratch. -/
theorem init_lookup {E : DetectEnv} {L : List Name} {u : List (Name × List Char)} (h : CacheOf E u) (hn : L.Nodup) (l : Name) (hl : l ∈ L) :
    (initUniqueCharsets E L u).lookup l = (getUniqueCharsets E L).lookup l := by
  unfold initUniqueCharsets
  split
  · rfl
  · rename_i hc
    simp only [Bool.or_eq_true, bne_iff_ne, ne_eq, not_or, Decidable.not_not, List.any_eq_true, not_exists, not_and] at hc
    obtain ⟨hlen, hall⟩ := hc
    have hall : ∀ x ∈ L, ∃ cs, u.lookup x = some cs := by
      intro x hx
      have := hall x hx
      cases hu : u.lookup x with
      | none => simp [hu] at this
      | some cs => exact ⟨cs, rfl⟩
    rcases h with rfl | ⟨L', rfl⟩
    · obtain ⟨cs, hcs⟩ := hall l hl
      simp at hcs
    · have hmem : ∀ x ∈ L, x ∈ L' ∧ (E.data x).isSome = true := by
        intro x hx
        obtain ⟨cs, hcs⟩ := hall x hx
        rw [lookup_unique] at hcs
        split at hcs
        · rename_i hx'
          refine ⟨hx', ?_⟩
          cases hd : E.data x with
          | none => simp [hd] at hcs
          | some d => rfl
        · simp at hcs
      have hkeys : ((getUniqueCharsets E L').map (·.1)) = L'.eraseDups.filter fun x => (E.data x).isSome := by
        unfold getUniqueCharsets
        generalize L'.eraseDups = K
        induction K with
        | nil => rfl
        | cons a K ih =>
          rw [List.filterMap_cons, List.filter_cons]
          cases hd : E.data a with
          | none => simpa using ih
          | some d => simpa using ih
      have hback : ∀ x, x ∈ (getUniqueCharsets E L').map (·.1) → x ∈ L := by
        refine fun x hx => subset_of_length L _ hn ?_ (by simp [hlen]) x hx
        intro y hy
        rw [hkeys, List.mem_filter, List.mem_eraseDups]
        exact hmem y hy
      rw [lookup_unique, lookup_unique, if_pos hl, if_pos (hmem l hl).1]
      congr 1
      funext d
      refine uniqueChars_congr E L' L ?_ l d.2
      intro x hx
      constructor
      · intro hx'
        exact hback x (by rw [hkeys, List.mem_filter, List.mem_eraseDups]; exact ⟨hx', hx⟩)
      · intro hx'
        exact (hmem x hx').1

theorem candidates_congr {E : DetectEnv} {str : List Char} {L : List Name} {u u' : List (Name × List Char)}
    (h : ∀ l ∈ L, u.lookup l = u'.lookup l) : getLanguageCandidates E str L u = getLanguageCandidates E str L u' := by
  unfold getLanguageCandidates
  dsimp only
  split
  · rfl
  · have : (L.find? fun l => ((u.lookup l).getD []).any (normalizeCharset E str).contains) =
        L.find? fun l => ((u'.lookup l).getD []).any (normalizeCharset E str).contains := by
      induction L with
      | nil => rfl
      | cons a L ih =>
        rw [List.find?_cons, List.find?_cons, h a (by simp), ih fun l hl => h l (by simp [hl])]
    rw [this]

theorem detect_congr {E : DetectEnv} {skip : List (List Char)} {defaults : List Name} {str : List Char} {L : List Name} {u u' : List (Name × List Char)}
    (h : ∀ l ∈ L, u.lookup l = u'.lookup l) :
    detectFullTextLanguage E skip defaults str L u = detectFullTextLanguage E skip defaults str L u' := by
  unfold detectFullTextLanguage
  rw [candidates_congr h]

/-! ## `Search` -/

section
variable {σ D : Type}

/-- The configuration a search works with. -/
def searchCfg (c : PCfg) : PCfg :=
  { c with
    currentTime := if c.currentTime.isZero then Time.zero else c.currentTime
    skipTokens := if c.skipTokens.isEmpty then [['t']] else c.skipTokens }

theorem initSearchConfig_eq (now : Time) (c : Option PCfg) :
    initSearchConfig now c = match (c.getD {}).validate with
      | .error e => .error e
      | .ok () => .ok (searchCfg (c.getD {})) := by
  unfold initSearchConfig
  generalize c.getD {} = c0
  have hv : (c0.initiate now).validate = c0.validate := rfl
  dsimp only
  rw [hv]
  cases c0.validate with
  | error e => rfl
  | ok x =>
    cases x
    dsimp only
    unfold searchCfg PCfg.initiate
    by_cases hz : c0.currentTime.isZero = true
    · simp [hz]
    · simp [hz]

theorem initSearchConfig_again {now : Time} {c : Option PCfg} {c' : PCfg} (h : initSearchConfig now c = .ok c') :
    initSearchConfig now (some c') = .ok c' := by
  rw [initSearchConfig_eq] at h ⊢
  cases hv : (c.getD {}).validate with
  | error e => rw [hv] at h; simp at h
  | ok x =>
    cases x
    rw [hv] at h
    simp only [Except.ok.injEq] at h
    subst h
    have : ((some (searchCfg (c.getD {}))).getD {}).validate = (c.getD {}).validate := rfl
    rw [this, hv]
    simp only [Option.getD_some, Except.ok.injEq]
    generalize c.getD {} = c0
    have hz0 : Time.zero.isZero = true := by decide
    unfold searchCfg
    by_cases hz : c0.currentTime.isZero = true <;> by_cases hs : c0.skipTokens.isEmpty = true <;> simp [hz, hs, hz0]

theorem initSearchConfig_fields {now : Time} {c : Option PCfg} {c' : PCfg} (h : initSearchConfig now c = .ok c') :
    c'.locales = (c.getD {}).locales ∧ c'.languages = (c.getD {}).languages ∧ c'.useGivenOrder = (c.getD {}).useGivenOrder ∧
      c'.defaultLanguages = (c.getD {}).defaultLanguages := by
  unfold initSearchConfig at h
  dsimp only at h
  split at h
  · simp at h
  · injection h with h
    subst h
    exact ⟨rfl, rfl, rfl, rfl⟩

theorem searchLanguages_eq (W : SearchWorld σ D) (c : PCfg) (text : List Char) :
    searchLanguages W c text = getLanguages c.locales (givenLanguages W.detect c text) c.useGivenOrder := by
  unfold searchLanguages givenLanguages
  cases hl : c.languages with
  | nil =>
    cases hd : W.detect with
    | none => simp
    | some f => simp
  | cons a r => simp

/-- The steps of a search that gets to the detection. -/
theorem search_steps (W : SearchWorld σ D) (st : SearchSt σ) (c : Option PCfg) (text : List Char) (c' : PCfg) (L : List Name)
    (h1 : initSearchConfig W.now c = .ok c') (h2 : searchLanguages W c' text = .ok L) :
    search W st c text =
      (detectFullTextLanguage W.toDetectEnv c'.skipTokens c'.defaultLanguages text L (initUniqueCharsets W.toDetectEnv L st.unique)).bind
        fun
        | none => some (initUniqueCharsets W.toDetectEnv L st.unique, .error .notDetected)
        | some lang => (searchIn W (some c') lang text st.parser).bind fun
          | .error e => some (initUniqueCharsets W.toDetectEnv L st.unique, .error e)
          | .ok r => some (initUniqueCharsets W.toDetectEnv L st.unique, .ok (lang, r)) := by
  unfold search
  rw [h1]
  dsimp only
  rw [h2]
  rfl

theorem history_cache {W : SearchWorld σ D} {u : List (Name × List Char)} (h : SearchHistory W u) : CacheOf W.toDetectEnv u := by
  induction h with
  | new => exact Or.inl rfl
  | search u s c text u' r _ hs ih =>
    cases h1 : initSearchConfig W.now c with
    | error e =>
      unfold search at hs; rw [h1] at hs
      simp only [Option.some.injEq, Prod.mk.injEq] at hs
      exact hs.1 ▸ ih
    | ok c' =>
      cases h2 : searchLanguages W c' text with
      | error e =>
        unfold search at hs; rw [h1] at hs; dsimp only at hs; rw [h2] at hs
        simp only [Option.some.injEq, Prod.mk.injEq] at hs
        exact hs.1 ▸ ih
      | ok L =>
        rw [search_steps W ⟨s, u⟩ c text c' L h1 h2] at hs
        have : u' = initUniqueCharsets W.toDetectEnv L u := by
          rw [Option.bind_eq_some_iff] at hs
          obtain ⟨d, _, hs⟩ := hs
          cases d with
          | none => simp only [Option.some.injEq, Prod.mk.injEq] at hs; exact hs.1.symm
          | some lang =>
            rw [Option.bind_eq_some_iff] at hs
            obtain ⟨d, _, hs⟩ := hs
            cases d with
            | error e => simp only [Option.some.injEq, Prod.mk.injEq] at hs; exact hs.1.symm
            | ok r => simp only [Option.some.injEq, Prod.mk.injEq] at hs; exact hs.1.symm
        subst this
        exact cacheOf_init ih

end

end Verif.Lemmas
