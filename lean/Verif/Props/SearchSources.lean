import Verif.Spec.SearchSources
import Verif.Props.SearchExact
import Verif.Props.SearchEnglishCases
import Verif.Props.Api
import Verif.Props.ResultZone
/-! # C64: where the dates of a search come from -/
set_option autoImplicit false
namespace Verif.Props
open Verif.Go Verif.Model Verif.Data Verif.Lemmas Verif.Spec

/-- What is found in a chunk was read from it or from a piece of it. -/
theorem findsIn_mem {D : Type} {isDigit : Char → Bool} {f : List Char → Option D} {entry original : List Char} {x : D × List Char}
    (h : x ∈ findsIn isDigit f entry original) : ∃ e o, PieceOf entry original e o ∧ 3 ≤ e.length ∧ f (textFor e) = some x.1 ∧
      (x.2 = trimChars o " .,:()[]-'".toList ∨ x.2 = trimChars o " .,:()[]-".toList) := by
  unfold findsIn at h
  split at h
  · cases h
  · rename_i hl
    split at h
    · rename_i d hd
      rw [List.mem_singleton] at h
      subst h
      exact ⟨entry, original, Or.inl ⟨rfl, rfl⟩, by omega, hd, Or.inl rfl⟩
    · obtain ⟨y, hy, e⟩ := List.mem_filterMap.mp h
      have hb : ∀ l : List (List (Option D × List Char)), y ∈ bestOf isDigit l → ∃ b ∈ l, y ∈ b := by
        intro l hy
        unfold bestOf at hy
        cases hf : l.find? fun a => l.all fun b => noWorse isDigit a b with
        | none => rw [hf] at hy; cases hy
        | some b => rw [hf] at hy; exact ⟨b, List.mem_of_find?_eq_some hf, hy⟩
      obtain ⟨b, hb, hyb⟩ := hb _ hy
      obtain ⟨cut, hcut, rfl⟩ := List.mem_map.mp hb
      obtain ⟨sep, hsep, hcut⟩ := List.mem_flatMap.mp hcut
      unfold readCut at hyb
      obtain ⟨p, hp, rfl⟩ := List.mem_map.mp hyb
      obtain ⟨hp1, hp2⟩ := List.mem_filter.mp hp
      dsimp only at e
      cases hd : f (textFor p.1) with
      | none => rw [hd] at e; simp at e
      | some d =>
        rw [hd] at e
        simp only [Option.map_some, Option.some.injEq] at e
        subst e
        exact ⟨p.1, p.2, Or.inr ⟨sep, hsep, cut, hcut, hp1⟩, by simpa using hp2, hd, Or.inr rfl⟩

/-- At a given time the parser of a search answers the same in all states it gets into. -/
theorem search_memoryless (E : Env) (c : PCfg) {detect : Option (List Char → List Name)} {ks : List Kind} {s : ParserSt} (hs : Props.Inv detect ks s)
    (now : Time) : Memoryless (E.searchParser c) now (fun e => ((E.searchParser c).parse s (some now) e).2) (Props.Inv detect ks) where
  stays s' e h := (search_alike E c detect ks s' s' ⟨h, h⟩ (some now) e).2.1
  answer s' e h := (search_alike E c detect ks s' s ⟨h, hs⟩ (some now) e).1

/-- **C64, searching.** With a current time given, every date a search finds is that of a chunk of the text or of a piece of one, with that piece of the
original text, and is accounted for by it. -/
theorem C64_search (E : Env) (hE : Surroundings E) (compose : List Char → List Char) (detect : Option (List Char → List Name)) (ks : List Kind)
    (s : ParserSt) (hs : Props.Inv detect ks s) (c : PCfg) (h0 : c.currentTime.isZero = false) (hf : c.currentTime.loc.IsFixed) (lang : Name)
    (text : List Char) (out : List (ParsedSearch DateRes × List Char))
    (h : searchIn (E.searchWorld compose detect) (some c) lang text s = some (.ok out)) :
    ∃ (c' : PCfg) (tr og : List (List Char)), SameSettings c c' ∧ c'.currentTime = c.currentTime ∧
      translateSearch E.uni (E.lang lang) (wordIsTz E.table) (skipWords c) text = some (tr, og) ∧
      ∀ x ∈ out, ∃ (i : Nat) (entry original e o : List Char) (d : DateRes), (if lang = "vi".toList ∨ lang = "hu".toList then og else tr)[i]? = some entry ∧ og[i]? = some original ∧
        PieceOf entry original e o ∧ 3 ≤ e.length ∧ x.1.date = some d ∧
        (x.2 = trimChars o " .,:()[]-'".toList ∨ x.2 = trimChars o " .,:()[]-".toList) ∧ Accounted E s c' (textFor e) d := by
  unfold searchIn at h
  rw [initSearchConfig_eq] at h
  cases hv : ((some c).getD {}).validate with
  | error e => rw [hv] at h; simp at h
  | ok u =>
    rw [hv] at h
    dsimp only [Option.getD_some] at h hv
    have hcur : (searchCfg c).currentTime = c.currentTime := by unfold searchCfg; simp [h0]
    split at h
    · simp at h
    · rename_i d hd
      have hd1 : d.1 = E.lang lang := by
        have hd : (getLocaleData lang).map (fun _ => (E.lang lang, (charsets.lookup lang).getD [])) = some d := hd
        cases hg : getLocaleData lang with
        | none => rw [hg] at hd; cases hd
        | some i => rw [hg] at hd; injection hd with hd; rw [← hd]
      simp only [Option.bind_eq_bind, Option.bind_eq_some_iff, Option.pure_def, Option.some.injEq, Except.ok.injEq] at h
      obtain ⟨r, h, rfl⟩ := h
      unfold searchWithLanguage at h
      simp only [Option.bind_eq_bind, Option.bind_eq_some_iff] at h
      obtain ⟨⟨tr, og⟩, htr, ⟨st', res, subs⟩, h1, h2⟩ := h
      rw [hd1] at htr
      have hlen : tr.length = og.length := by
        unfold translateSearch at htr
        simp only [Option.bind_eq_bind, Option.bind_eq_some_iff, Option.pure_def, Option.some.injEq] at htr
        obtain ⟨_, _, chunks, _, htr⟩ := htr
        injection htr with a b
        rw [← a, ← b, List.length_map, List.length_map]
      have hskip : (searchCfg c).skipTokens = skipWords c := (entry_settings hv none).skip
      rw [hskip] at htr
      refine ⟨entryCfg (searchCfg c) (some c.currentTime), tr, og, entry_settings hv _, rfl, htr, ?_⟩
      dsimp only at h1 h2
      rw [hcur, h0] at h1
      obtain ⟨s2, res', e1, e2⟩ := C32_exact (search_memoryless E (searchCfg c) hs c.currentTime) hs
        (!(lang == ['v', 'i'] || lang == ['h', 'u'])) tr og hlen
      have h1' : some ((s2, some c.currentTime), res', _) = some (st', res, subs) := e1.symm.trans h1
      simp only [Option.some.injEq, Prod.mk.injEq] at h1'
      obtain ⟨_, rfl, rfl⟩ := h1'
      rw [Option.ite_none_right_eq_some] at h2
      obtain ⟨_, h2⟩ := h2
      injection h2 with h2
      subst h2
      intro x hx
      obtain ⟨k, hk⟩ := List.getElem?_of_mem hx
      rw [List.getElem?_zip_eq_some] at hk
      obtain ⟨hk1, hk2⟩ := hk
      rw [List.getElem?_map] at hk2
      obtain ⟨y, hy, hy2⟩ := Option.map_eq_some_iff.mp hk2
      have hdate : x.1.date = some y.1 := by
        have := congrArg (fun l => l[k]?) e2
        simp only [List.getElem?_map, hk1, hy, Option.map_some, Option.some.injEq] at this
        exact this
      obtain ⟨p, hp, hyp⟩ := List.mem_flatMap.mp (List.mem_of_getElem? hy)
      obtain ⟨i, hi⟩ := List.getElem?_of_mem hp
      rw [List.getElem?_zip_eq_some] at hi
      obtain ⟨e, o, m1, m2, m3, m4⟩ := findsIn_mem hyp
      refine ⟨i, p.1, p.2, e, o, y.1, ?_, hi.2, m1, m2, hdate, hy2 ▸ m4, ?_⟩
      · rw [← hi.1]
        by_cases hl : lang = "vi".toList ∨ lang = "hu".toList
        · have : (lang == ['v', 'i'] || lang == ['h', 'u']) = true := by simpa using hl
          rw [if_pos hl, this]; rfl
        · have : (lang == ['v', 'i'] || lang == ['h', 'u']) = false := by
            rw [← Bool.not_eq_true]; simpa using hl
          rw [if_neg hl, this]; rfl
      · unfold Env.searchParser at m3
        dsimp only at m3
        cases hq : (E.parse s (some (entryCfg (searchCfg c) (some c.currentTime))) (textFor e) []).2 with
        | error _ => rw [hq] at m3; simp at m3
        | ok r =>
          rw [hq] at m3
          dsimp only at m3
          split at m3
          · cases m3
          · injection m3 with m3
            subst m3
            refine C64_sources E hE s _ ?_ _ _ hq
            have : baseTime (entryCfg (searchCfg c) (some c.currentTime)) E.now = c.currentTime := by
              unfold baseTime
              show (if c.currentTime.isZero then _ else c.currentTime) = _
              rw [h0]; rfl
            rw [this]; exact hf

/-- The times a search works with are in fixed zones where those of the settings are. -/
theorem searchTime_fixed {E : Env} (hE : Surroundings E) (hl : E.localZone.IsFixed) {c : PCfg} (hf : (baseTime c E.now).loc.IsFixed)
    (hd : ∀ l, c.defaultTz = some l → l.IsFixed) {t : Option Time} (h : SearchTime E c t) : ∀ u, t = some u → u.loc.IsFixed := by
  induction h with
  | given h0 =>
    intro u e
    unfold baseTime at hf
    rw [h0] at hf
    injection e with e
    rw [← e]; exact hf
  | none _ => intro u e; cases e
  | @found h0 t _ _ _ hr ih =>
    intro u e
    injection e with e
    rw [← e]
    obtain ⟨s, c', hs, hc, hp, _⟩ := hr
    refine C65_fixed E hE hl s c' ?_ (fun l h => hd l (by rw [← hs.zone]; exact h)) _ _ hp
    unfold baseTime
    split
    · exact Loc.utc_isFixed
    · rename_i hz
      rw [hc] at hz ⊢
      cases t with
      | none => exact absurd (by decide +kernel : Time.zero.isZero = true) hz
      | some v => exact ih v rfl

/-- **C64, searching.** With or without a current time: every date a search finds is accounted for by the text of one question it asked the parser, in the
caller's settings, at a current time that a search works with. -/
theorem C64_search_any_time (E : Env) (hE : Surroundings E) (hl : E.localZone.IsFixed) (compose : List Char → List Char) (detect : Option (List Char → List Name))
    (c : PCfg) (hf : (baseTime c E.now).loc.IsFixed) (hd : ∀ l, c.defaultTz = some l → l.IsFixed) (lang : Name) (text : List Char) (s : ParserSt)
    (out : List (ParsedSearch DateRes × List Char)) (h : searchIn (E.searchWorld compose detect) (some c) lang text s = some (.ok out)) :
    ∀ x ∈ out, ∃ s' c' t entry d, x.1.date = some d ∧ SearchTime E c t ∧ SameSettings c c' ∧ c'.currentTime = t.getD Time.zero ∧
      Accounted E s' c' entry d := by
  intro x hx
  obtain ⟨t, entry, d, h1, h2, s', c', h3, h4, h5, _⟩ := C51_search_with_language E compose detect (some c) lang text s out h x hx
  refine ⟨s', c', t, entry, d, h1, h2, h3, h4, C64_sources E hE s' c' ?_ entry d h5⟩
  unfold baseTime
  split
  · exact Loc.utc_isFixed
  · rename_i hz
    rw [h4] at hz ⊢
    cases t with
    | none => exact absurd (by decide +kernel : Time.zero.isZero = true) hz
    | some v => exact searchTime_fixed hE hl hf hd h2 v rfl

/-- The hypotheses are met, by a text with a date and a current time. -/
example : ∃ p, searchIn (demoEnv.searchWorld id none) (some { currentTime := goDate 2024 1 2 3 4 5 0 Loc.utc }) "en".toList "on 3/5/2015".toList {} = some (.ok [p]) ∧
    Props.Inv none [] {} ∧ (goDate 2024 1 2 3 4 5 0 Loc.utc).isZero = false ∧ (goDate 2024 1 2 3 4 5 0 Loc.utc).loc.IsFixed ∧ Surroundings demoEnv := by
  have hps : PlainSentence demoEnv.table [.link "on".toList, .date (.numeric .mdy '/' "5".toList "3".toList "2015".toList)] := by
    refine ⟨?_, by decide, ?_⟩
    · intro p hp
      simp only [List.mem_cons, List.not_mem_nil, or_false] at hp
      rcases hp with rfl | rfl
      · show toLower "on".toList ∈ linkWords; decide
      · exact ⟨⟨by unfold Order.Agrees; decide, Or.inl rfl, ⟨by unfold IsNumeral; decide, by decide⟩, ⟨by unfold IsNumeral; decide, by decide⟩,
          by unfold IsNumeral; decide, by decide⟩, by decide, by decide⟩
    · intro a p w b h _
      have hw : Spec.Piece.filler w ∈ [Spec.Piece.link "on".toList, .date (.numeric .mdy '/' "5".toList "3".toList "2015".toList)] := by rw [h]; simp
      simp at hw
  obtain ⟨out, e, hl, _⟩ := C49_search_with_language demo_sound id none (c := { currentTime := goDate 2024 1 2 3 4 5 0 Loc.utc }) ⟨rfl, Or.inl rfl⟩ (s := {})
    ⟨Or.inl rfl, rfl⟩ [] _ [] ⟨by simp, hps, Or.inl rfl⟩
    ⟨fun _ _ _ => Loc.IsFixed.noJump (fun _ _ => rfl) _, fun _ _ => by show (-86400 : Int) ≤ 0 ∧ (0 : Int) ≤ 86400; decide, fun l h => by cases h⟩
  have hd : datesInText [] [.link "on".toList, .date (.numeric .mdy '/' "5".toList "3".toList "2015".toList)] =
      [(.numeric .mdy '/' "5".toList "3".toList "2015".toList, "on 3/5/2015".toList)] := rfl
  rw [hd] at hl
  match out, hl with
  | [p], _ => exact ⟨p, e, Inv.new none [], by decide +kernel, Loc.utc_isFixed, demo_sound.toSurroundings⟩

end Verif.Props
