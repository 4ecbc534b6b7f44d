import Verif.Spec.Api
import Verif.Lemmas.SearchSim
import Verif.Props.Parser
import Verif.Props.SearchSettings
/-! # C57: a `Parser` object used for many calls; what `Search` reports -/
set_option autoImplicit false
namespace Verif.Props
open Verif.Go Verif.Model Verif.Lemmas Verif.Spec Verif.Data

/-! ## `Parse` without remembered locales -/

/-- Without `TryPreviousLocales` the parser keeps nothing of a call, except that missing parser types are filled in. -/
theorem parse_state {detect : Option (List Char → List Name)} {ks : List Kind} {P : Parts} {s : ParserSt} (h : Inv detect ks s) (now : Time)
    {c : Option PCfg} (hc : (c.getD {}).tryPrevious = false) (str : List Char) (formats : List (List Char)) :
    (parse P now s c str formats).1 = filled s := by
  rw [parse_eq h.find_none]
  have ht : ((c.getD {}).initiate now).tryPrevious = false := hc
  unfold parseWithTypes
  split
  · rfl
  · dsimp only
    split
    · rfl
    · split
      · rfl
      · split
        · rw [ht]; rfl
        · rfl

/-- Without `TryPreviousLocales` two parsers made alike give the same answer. -/
theorem parse_same {detect : Option (List Char → List Name)} {ks : List Kind} {P : Parts} {s s' : ParserSt} (h : Inv detect ks s)
    (h' : Inv detect ks s') (now : Time) {c : Option PCfg} (hc : (c.getD {}).tryPrevious = false) (str : List Char) (formats : List (List Char)) :
    (parse P now s c str formats).2 = (parse P now s' c str formats).2 := by
  rw [parse_eq h.find_none, parse_eq h'.find_none]
  obtain ⟨a1, a2, a3⟩ := h.filled
  obtain ⟨n1, n2, n3⟩ := h'.filled
  generalize filled s = s1 at *
  generalize filled s' = s2 at *
  have hts : s1.types = s2.types := by rw [a2, n2]
  have ht : ((c.getD {}).initiate now).tryPrevious = false := hc
  generalize (c.getD {}).initiate now = d at ht ⊢
  have hg : ∀ str, getApplicableLocales P s1 d d.toInternal str = getApplicableLocales P s2 d d.toInternal str := by
    intro str
    unfold getApplicableLocales previousLocale languagesFor
    rw [a1.detect, n1.detect, ht]
    rfl
  unfold parseWithTypes
  dsimp only
  rw [hg, hts]
  split
  · rfl
  · split
    · rfl
    · split
      · rfl
      · split <;> rfl

theorem filled_inv {detect : Option (List Char → List Name)} {ks : List Kind} {s : ParserSt} (h : Inv detect ks s) : Inv detect ks (filled s) :=
  h.filled.1

/-- The settings a search reads dates with do not ask for earlier locales. -/
theorem entryCfg_forgets (c : PCfg) (t : Option Time) : ((some (entryCfg c t)).getD {}).tryPrevious = false := rfl

/-- In a search all parsers made alike answer alike. -/
theorem search_alike (E : Env) (c : PCfg) (detect : Option (List Char → List Name)) (ks : List Kind) :
    Alike (E.searchParser c) fun s s' => Inv detect ks s ∧ Inv detect ks s' := by
  intro s s' hs t e
  unfold Env.searchParser Env.parse
  dsimp only
  rw [parse_same hs.1 hs.2 E.now (entryCfg_forgets c t) e []]
  exact ⟨rfl, parse_inv hs.1 _ _ _ _, parse_inv hs.2 _ _ _ _⟩

/-- What a search leaves behind of the parser: its types are filled in. -/
def Untouched (detect : Option (List Char → List Name)) (ks : List Kind) (s s' : ParserSt) : Prop :=
  Inv detect ks s' ∧ s'.used = s.used ∧ s'.tracker = s.tracker

theorem filled_untouched {detect : Option (List Char → List Name)} {ks : List Kind} {s s' : ParserSt} (h : Untouched detect ks s s') :
    Untouched detect ks s (filled s') := by
  refine ⟨filled_inv h.1, ?_, ?_⟩
  · unfold filled; split <;> exact h.2.1
  · unfold filled; split <;> exact h.2.2

theorem search_untouched (E : Env) (c : PCfg) (detect : Option (List Char → List Name)) (ks : List Kind) (s : ParserSt) :
    Alike (E.searchParser c) fun a b => a = b ∧ Untouched detect ks s a := by
  rintro a b ⟨rfl, h⟩ t e
  refine ⟨rfl, rfl, ?_⟩
  show Untouched detect ks s (parse E.parts E.now a (some (entryCfg c t)) e []).1
  rw [parse_state h.1 E.now (entryCfg_forgets c t)]
  exact filled_untouched h

/-! ## The object -/

/-- What every call keeps true of an object made with this function and these types. -/
structure Kept (E : DetectEnv) (detect : Option (List Char → List Name)) (ks : List Kind) (p : ParserObj) : Prop where
  st : Inv detect ks p.st
  unique : CacheOf E p.unique

theorem world_parser (E : Env) (compose : List Char → List Char) (p : ParserObj) (c : PCfg) : (E.worldOf compose p).parser c = E.searchParser c := rfl

/-- A search keeps the parser's memory. -/
theorem searchInSt_untouched {E : Env} {compose : List Char → List Char} {p : ParserObj} {detect : Option (List Char → List Name)} {ks : List Kind}
    (h : Inv detect ks p.st) {c : Option PCfg} {lang : Name} {text : List Char} {x : ParserSt × Except SearchErr (List (ParsedSearch DateRes × List Char))}
    (hx : searchInSt (E.worldOf compose p) c lang text p.st = some x) : Untouched detect ks p.st x.1 := by
  have := searchInSt_sim (W := E.worldOf compose p) c (R := fun a b => a = b ∧ Untouched detect ks p.st a)
    (fun c' _ => search_untouched E c' detect ks p.st) lang text p.st p.st ⟨rfl, h, rfl, rfl⟩
  rw [hx] at this
  exact this.1.2

/-- The object after a call. -/
theorem call_kept {E : Env} {compose : List Char → List Char} {p p' : ParserObj} {detect : Option (List Char → List Name)} {ks : List Kind}
    {r : Request} {a : Answer} {D : DetectEnv} (hD : (E.searchWorld compose detect).toDetectEnv = D) (h : Kept D detect ks p)
    (hc : E.call compose p r = some (p', a)) : Kept D detect ks p' := by
  subst hD
  have hw : (E.worldOf compose p).toDetectEnv = (E.searchWorld compose detect).toDetectEnv := rfl
  cases r with
  | parse c str formats =>
    simp only [Env.call, Option.some.injEq, Prod.mk.injEq] at hc
    obtain ⟨rfl, _⟩ := hc
    exact ⟨parse_inv h.st _ _ _ _, h.unique⟩
  | searchWithLanguage c lang text =>
    simp only [Env.call, Option.bind_eq_bind, Option.bind_eq_some_iff, Option.pure_def, Option.some.injEq, Prod.mk.injEq] at hc
    obtain ⟨x, hx, rfl, _⟩ := hc
    exact ⟨(searchInSt_untouched h.st hx).1, h.unique⟩
  | search c text =>
    simp only [Env.call] at hc
    split at hc
    · simp only [Option.some.injEq, Prod.mk.injEq] at hc
      obtain ⟨rfl, _⟩ := hc
      exact h
    · split at hc
      · simp only [Option.some.injEq, Prod.mk.injEq] at hc
        obtain ⟨rfl, _⟩ := hc
        exact h
      · simp only [Option.bind_eq_bind, Option.bind_eq_some_iff] at hc
        obtain ⟨o, _, hc⟩ := hc
        split at hc
        · simp only [Option.some.injEq, Prod.mk.injEq] at hc
          obtain ⟨rfl, _⟩ := hc
          exact ⟨h.st, cacheOf_init h.unique⟩
        · simp only [Option.bind_eq_some_iff, Option.pure_def, Option.some.injEq, Prod.mk.injEq] at hc
          obtain ⟨x, hx, rfl, _⟩ := hc
          exact ⟨(searchInSt_untouched h.st hx).1, cacheOf_init h.unique⟩

theorem used_kept {E : Env} {compose : List Char → List Char} {detect : Option (List Char → List Name)} {kinds : List Kind}
    {l : List (Moment × Request)} {p : ParserObj} (h : Used E compose (newObject detect kinds) l p) :
    Kept (E.searchWorld compose detect).toDetectEnv detect kinds p := by
  induction h with
  | fresh => exact ⟨Inv.new detect kinds, Or.inl rfl⟩
  | call _ hc ih => exact call_kept (E := during E _) rfl ih hc

/-- Two objects made alike answer alike. -/
theorem call_same {E : Env} {compose : List Char → List Char} {p q : ParserObj} {detect : Option (List Char → List Name)} {ks : List Kind}
    {D : DetectEnv} (hD : (E.searchWorld compose detect).toDetectEnv = D) (hp : Kept D detect ks p) (hq : Kept D detect ks q) (r : Request)
    (hr : ¬ r.Remembering) (hn : ¬ r.Repeats detect) : (E.call compose p r).map (·.2) = (E.call compose q r).map (·.2) := by
  subst hD
  have hw : E.worldOf compose p = E.worldOf compose q := by unfold Env.worldOf; rw [hp.st.detect, hq.st.detect]
  have hS : ∀ c lang text, (searchInSt (E.worldOf compose p) c lang text p.st).map (·.2) = (searchInSt (E.worldOf compose p) c lang text q.st).map (·.2) := by
    intro c lang text
    have := searchInSt_sim (W := E.worldOf compose p) c (R := fun s s' => Inv detect ks s ∧ Inv detect ks s')
      (fun c' _ => search_alike E c' detect ks) lang text p.st q.st ⟨hp.st, hq.st⟩
    revert this
    cases searchInSt (E.worldOf compose p) c lang text p.st <;> cases searchInSt (E.worldOf compose p) c lang text q.st <;> intro this
    · rfl
    · exact this.elim
    · exact this.elim
    · simp [this.2]
  cases r with
  | parse c str formats =>
    have ht : (c.getD {}).tryPrevious = false := by
      cases h : (c.getD {}).tryPrevious with
      | false => rfl
      | true => exact absurd h hr
    show some _ = some _
    exact congrArg (fun x => some (Answer.date x)) (parse_same hp.st hq.st E.now ht str formats)
  | searchWithLanguage c lang text =>
    simp only [Env.call, ← hw, Option.bind_eq_bind, Option.map_bind, Option.pure_def]
    have := hS c lang text
    revert this
    cases searchInSt (E.worldOf compose p) c lang text p.st <;> cases searchInSt (E.worldOf compose p) c lang text q.st <;> intro this
    · rfl
    · simp at this
    · simp at this
    · simp only [Option.map_some, Option.some.injEq] at this
      simp [this]
  | search c text =>
    simp only [Env.call, ← hw]
    cases h1 : initSearchConfig E.now c with
    | error e => rfl
    | ok c' =>
      dsimp only
      cases h2 : searchLanguages (E.worldOf compose p) c' text with
      | error e => rfl
      | ok L =>
        dsimp only
        obtain ⟨f1, f2, f3, f4⟩ := initSearchConfig_fields h1
        have h3 := h2
        rw [searchLanguages_eq] at h3
        have hdet : (E.worldOf compose p).detect = detect := hp.st.detect
        have hg : givenLanguages (E.worldOf compose p).detect c' text = givenLanguages detect (c.getD {}) text := by
          unfold givenLanguages; rw [f2, hdet]
        rw [f1, hg, f3] at h3
        have hn' : (c.getD {}).locales ≠ [] ∨ (givenLanguages detect (c.getD {}) text).Nodup := by
          by_cases hl : (c.getD {}).locales = []
          · right
            by_cases hd : (givenLanguages detect (c.getD {}) text).Nodup
            · exact hd
            · exact absurd ⟨hl, hd⟩ hn
          · exact Or.inl hl
        have hnd := (getLanguages_ok _ _ _ _ h3).2.2 hn'
        have key : ∀ v, CacheOf (E.worldOf compose p).toDetectEnv v → detectFullTextLanguage (E.worldOf compose p).toDetectEnv c'.skipTokens
            c'.defaultLanguages text L (initUniqueCharsets (E.worldOf compose p).toDetectEnv L v) =
            detectFullTextLanguage (E.worldOf compose p).toDetectEnv c'.skipTokens c'.defaultLanguages text L
              (getUniqueCharsets (E.worldOf compose p).toDetectEnv L) :=
          fun v hv => detect_congr fun l hl => init_lookup hv hnd l hl
        rw [key _ hp.unique, key _ hq.unique]
        cases detectFullTextLanguage (E.worldOf compose p).toDetectEnv c'.skipTokens c'.defaultLanguages text L
            (getUniqueCharsets (E.worldOf compose p).toDetectEnv L) with
        | none => rfl
        | some o =>
          cases o with
          | none => rfl
          | some lang =>
            have := hS (some c') lang text
            simp only [Option.bind_eq_bind, Option.bind_some, Option.pure_def]
            revert this
            cases searchInSt (E.worldOf compose p) (some c') lang text p.st <;> cases searchInSt (E.worldOf compose p) (some c') lang text q.st <;> intro this
            · rfl
            · simp at this
            · simp at this
            · simp only [Option.map_some, Option.some.injEq] at this
              simp [this]

/-- **C57.** Any call of `Parse`, `Search` or `SearchWithLanguage` on a parser that was used for any calls before returns (or panics)
exactly as on a new one, unless it asks for the locales of earlier calls (`TryPreviousLocales`) or gives a language twice. -/
theorem C57_history (E : Env) (compose : List Char → List Char) (detect : Option (List Char → List Name)) (kinds : List Kind)
    (l : List (Moment × Request)) (p : ParserObj) (h : Used E compose (newObject detect kinds) l p) (m : Moment) (r : Request)
    (hr : ¬ r.Remembering) (hn : ¬ r.Repeats detect) :
    ((during E m).call compose p r).map (·.2) = ((during E m).call compose (newObject detect kinds) r).map (·.2) :=
  call_same (E := during E m) (D := (E.searchWorld compose detect).toDetectEnv) rfl (used_kept h) (used_kept .fresh) r hr hn

/-! ## Searches leave no trace -/

theorem state_ext {detect : Option (List Char → List Name)} {ks : List Kind} {s s' : ParserSt} (h : Inv detect ks s) (h' : Untouched detect ks s s') :
    filled s = filled s' := by
  obtain ⟨a1, a2, _⟩ := h.filled
  obtain ⟨b1, b2, _⟩ := h'.1.filled
  have c1 := a1.detect
  have c2 := b1.detect
  have hu : (filled s).used = s.used := by unfold filled; split <;> rfl
  have hu' : (filled s').used = s'.used := by unfold filled; split <;> rfl
  have ht : (filled s).tracker = s.tracker := by unfold filled; split <;> rfl
  have ht' : (filled s').tracker = s'.tracker := by unfold filled; split <;> rfl
  rw [h'.2.1] at hu'
  rw [h'.2.2] at ht'
  cases hx : filled s with
  | mk d t u k =>
    cases hy : filled s' with
    | mk d' t' u' k' =>
      rw [hx] at a2 c1 hu ht
      rw [hy] at b2 c2 hu' ht'
      dsimp only at *
      simp [a2, b2, c1, c2, hu, ht, hu', ht']

/-- The object's memory after a search is that before. -/
theorem search_call_untouched {E : Env} {compose : List Char → List Char} {p p' : ParserObj} {detect : Option (List Char → List Name)} {ks : List Kind}
    (h : Inv detect ks p.st) {r : Request} {a : Answer} (hr : r.isParse = false) (hc : E.call compose p r = some (p', a)) :
    Untouched detect ks p.st p'.st := by
  have hself : Untouched detect ks p.st p.st := ⟨h, rfl, rfl⟩
  cases r with
  | parse c str formats => simp [Request.isParse] at hr
  | searchWithLanguage c lang text =>
    simp only [Env.call, Option.bind_eq_bind, Option.bind_eq_some_iff, Option.pure_def, Option.some.injEq, Prod.mk.injEq] at hc
    obtain ⟨x, hx, rfl, _⟩ := hc
    exact searchInSt_untouched h hx
  | search c text =>
    simp only [Env.call] at hc
    split at hc
    · simp only [Option.some.injEq, Prod.mk.injEq] at hc
      obtain ⟨rfl, _⟩ := hc
      exact hself
    · split at hc
      · simp only [Option.some.injEq, Prod.mk.injEq] at hc
        obtain ⟨rfl, _⟩ := hc
        exact hself
      · simp only [Option.bind_eq_bind, Option.bind_eq_some_iff] at hc
        obtain ⟨o, _, hc⟩ := hc
        split at hc
        · simp only [Option.some.injEq, Prod.mk.injEq] at hc
          obtain ⟨rfl, _⟩ := hc
          exact hself
        · simp only [Option.bind_eq_some_iff, Option.pure_def, Option.some.injEq, Prod.mk.injEq] at hc
          obtain ⟨x, hx, rfl, _⟩ := hc
          exact searchInSt_untouched h hx

/-- The object after the calls of `Parse` among these only. -/
theorem without_searches {E : Env} {compose : List Char → List Char} {detect : Option (List Char → List Name)} {kinds : List Kind}
    {l : List (Moment × Request)} {p : ParserObj} (h : Used E compose (newObject detect kinds) l p) :
    ∀ q, Used E compose (newObject detect kinds) (l.filter fun x => x.2.isParse) q → filled p.st = filled q.st := by
  induction h with
  | fresh => intro q hq; generalize hl : List.filter _ _ = l' at hq; cases hq with
    | fresh => rfl
    | call => simp at hl
  | @call l p p' m r a h hc ih =>
    intro q hq
    rw [List.filter_append] at hq
    cases hp : r.isParse with
    | false =>
      rw [List.filter_cons_of_neg (by simp [hp]), List.filter_nil, List.append_nil] at hq
      rw [← ih q hq]
      exact (state_ext (used_kept h).st (search_call_untouched (E := during E m) (used_kept h).st hp hc)).symm
    | true =>
      rw [List.filter_cons_of_pos (by simp [hp]), List.filter_nil] at hq
      generalize hl : (l.filter fun x => x.2.isParse) ++ [(m, r)] = l' at hq
      cases hq with
      | fresh => simp at hl
      | @call l2 q0 _ m2 r2 a2 h2 hc2 =>
        obtain ⟨rfl, e⟩ := List.append_inj' hl rfl
        simp only [List.cons.injEq, Prod.mk.injEq, and_true] at e
        obtain ⟨rfl, rfl⟩ := e
        have := ih q0 h2
        cases r with
        | searchWithLanguage => simp [Request.isParse] at hp
        | search => simp [Request.isParse] at hp
        | parse c str formats =>
          simp only [Env.call, Option.some.injEq, Prod.mk.injEq] at hc hc2
          obtain ⟨rfl, _⟩ := hc
          obtain ⟨rfl, _⟩ := hc2
          show filled (parse _ _ p.st c str formats).1 = filled (parse _ _ q0.st c str formats).1
          rw [parse_eq (used_kept h).st.find_none, parse_eq (used_kept h2).st.find_none, this]

/-- **C57.** Searches leave no trace in what `Parse` answers, even with `TryPreviousLocales`: it answers as if only the earlier calls of
`Parse` had been made. -/
theorem C57_search_no_trace (E : Env) (compose : List Char → List Char) (detect : Option (List Char → List Name)) (kinds : List Kind)
    (l : List (Moment × Request)) (p q : ParserObj) (hp : Used E compose (newObject detect kinds) l p)
    (hq : Used E compose (newObject detect kinds) (l.filter fun x => x.2.isParse) q) (m : Moment) (c : Option PCfg) (str : List Char)
    (formats : List (List Char)) :
    ((during E m).call compose p (.parse c str formats)).map (·.2) = ((during E m).call compose q (.parse c str formats)).map (·.2) := by
  simp only [Env.call, Env.parse, Option.map_some]
  rw [parse_eq (used_kept hp).st.find_none, parse_eq (used_kept hq).st.find_none, without_searches hp q hq]

/-- Such a `q` exists: calls of `Parse` return. -/
theorem parses_return (E : Env) (compose : List Char → List Char) (new : ParserObj) : ∀ l : List (Moment × Request), ∃ q,
    Used E compose new (l.filter fun x => x.2.isParse) q := by
  intro l
  have : ∀ l : List (Moment × Request), ∃ q, Used E compose new (l.reverse.filter fun x => x.2.isParse) q := by
    intro l
    induction l with
    | nil => exact ⟨_, .fresh⟩
    | cons x l ih =>
      obtain ⟨q, hq⟩ := ih
      rw [List.reverse_cons, List.filter_append]
      cases hp : x.2.isParse with
      | false => rw [List.filter_cons_of_neg (by simp [hp]), List.filter_nil, List.append_nil]; exact ⟨q, hq⟩
      | true =>
        rw [List.filter_cons_of_pos (by simp [hp]), List.filter_nil]
        obtain ⟨m, r⟩ := x
        cases r with
        | parse c str formats => exact ⟨_, .call hq rfl⟩
        | searchWithLanguage => simp [Request.isParse] at hp
        | search => simp [Request.isParse] at hp
  obtain ⟨q, hq⟩ := this l.reverse
  rw [List.reverse_reverse] at hq
  exact ⟨q, hq⟩

/-! ## What a search reports -/

/-- `Search` on an object, in the terms of `Model.search`. -/
theorem call_search (E : Env) (compose : List Char → List Char) (p : ParserObj) (c : Option PCfg) (text : List Char) :
    (E.call compose p (.search c text)).map (·.2) =
      (search (E.worldOf compose p) ⟨p.st, p.unique⟩ c text).map fun x => .foundIn (x.2.map fun r => (r.1, searchResults r.1 r.2)) := by
  simp only [Env.call]
  unfold search
  rw [show (E.worldOf compose p).now = E.now from rfl]
  cases initSearchConfig E.now c with
  | error e => rfl
  | ok c' =>
    dsimp only
    cases searchLanguages (E.worldOf compose p) c' text with
    | error e => rfl
    | ok L =>
      dsimp only
      cases detectFullTextLanguage (E.worldOf compose p).toDetectEnv c'.skipTokens c'.defaultLanguages text L
          (initUniqueCharsets (E.worldOf compose p).toDetectEnv L p.unique) with
      | none => rfl
      | some o =>
        cases o with
        | none => rfl
        | some lang =>
          simp only [Option.bind_eq_bind, Option.bind_some, Option.pure_def]
          rw [← searchInSt_snd]
          cases searchInSt (E.worldOf compose p) (some c') lang text p.st with
          | none => rfl
          | some x => obtain ⟨s, r⟩ := x; cases r <;> rfl

theorem call_searchWithLanguage (E : Env) (compose : List Char → List Char) (p : ParserObj) (c : Option PCfg) (lang : Name) (text : List Char) :
    (E.call compose p (.searchWithLanguage c lang text)).map (·.2) =
      (searchIn (E.worldOf compose p) c lang text p.st).map fun r => .found (r.map (searchResults lang)) := by
  simp only [Env.call]
  rw [← searchInSt_snd]
  cases searchInSt (E.worldOf compose p) c lang text p.st with
  | none => rfl
  | some x => rfl

/-- **C57.** Whatever `SearchWithLanguage` reports carries the language as its locale; its time and period are those of a date that `Parse`
answered for some text with the caller's settings. -/
theorem C57_reported (E : Env) (compose : List Char → List Char) (p p' : ParserObj) (c : Option PCfg) (lang : Name) (text : List Char)
    (results : List SearchResult) (h : E.call compose p (.searchWithLanguage c lang text) = some (p', .found (.ok results))) :
    ∀ r ∈ results, r.date.locale = lang ∧ ∃ t entry d, SearchTime E (c.getD {}) t ∧ ReadWith E (c.getD {}) t entry d ∧
      r.date.time = d.time ∧ r.date.period = d.period := by
  have h1 := call_searchWithLanguage E compose p c lang text
  rw [h] at h1
  simp only [Option.map_some] at h1
  obtain ⟨out, h2, h3⟩ := Option.map_eq_some_iff.mp h1.symm
  cases out with
  | error e => simp [Except.map] at h3
  | ok out =>
    simp only [Except.map, Answer.found.injEq, Except.ok.injEq] at h3
    subst h3
    intro r hr
    unfold searchResults at hr
    obtain ⟨x, hx, rfl⟩ := List.mem_map.mp hr
    obtain ⟨t, entry, d, k1, k2, k3⟩ := C51_search_with_language E compose p.st.detect c lang text p.st out h2 x hx
    exact ⟨rfl, t, entry, d, k2, k3, by simp [k1], by simp [k1]⟩

/-- **C57.** `Search` reports what `SearchWithLanguage` reports for the language it names, which is one of those searched or the first of
`DefaultLanguages`. -/
theorem C57_search (E : Env) (compose : List Char → List Char) (p p' : ParserObj) (c : Option PCfg) (text : List Char) (lang : Name)
    (results : List SearchResult) (h : E.call compose p (.search c text) = some (p', .foundIn (.ok (lang, results)))) :
    (E.call compose p (.searchWithLanguage c lang text)).map (·.2) = some (.found (.ok results)) ∧
    (SearchedLanguage (c.getD {}).locales (givenLanguages p.st.detect (c.getD {}) text) lang ∨ (c.getD {}).defaultLanguages.head? = some lang) := by
  have h1 := call_search E compose p c text
  rw [h] at h1
  simp only [Option.map_some] at h1
  obtain ⟨⟨u, out⟩, h2, h3⟩ := Option.map_eq_some_iff.mp h1.symm
  cases out with
  | error e => simp [Except.map] at h3
  | ok out =>
    obtain ⟨lang', out⟩ := out
    simp only [Except.map, Answer.foundIn.injEq, Except.ok.injEq, Prod.mk.injEq] at h3
    obtain ⟨rfl, rfl⟩ := h3
    refine ⟨?_, C46_language _ _ _ _ _ _ _ h2⟩
    rw [call_searchWithLanguage, C46_same_as_with_language _ _ _ _ _ _ _ h2]
    rfl

theorem zip_results {l : List (DatePhrase × List Char)} {out : List (ParsedSearch DateRes × List Char)}
    (h : ∀ q ∈ l.zip out, FoundDate q.1.1 q.1.2 q.2) : ∀ q ∈ l.zip (searchResults ['e', 'n'] out), Reported q.1.1 q.1.2 q.2 := by
  intro q hq
  unfold searchResults at hq
  rw [List.zip_map_right] at hq
  obtain ⟨x, hx, rfl⟩ := List.mem_map.mp hq
  obtain ⟨d, h1, h2, h3⟩ := (h x hx).date
  exact ⟨(h x hx).text, rfl, by simp [h1, h2], by simpa [h1] using h3⟩

/-- **C49.** What `Search` with `Languages` = ["en"] returns for an English text, on a new parser or one used for other calls: English, and
one result for each date, in order, with its text, the locale en and Period Day. -/
theorem C49_results {E : Env} (hE : Sound E) {compose : List Char → List Char} (hcomp : ∀ s, (∀ c ∈ s, c.toNat < 128) → compose s = s)
    (l : List (Moment × Request)) (p : ParserObj) (hp : Used E compose (newObject none []) l p) {c : PCfg} (hc : SearchCfg c)
    (hl : c.locales = []) (hlang : c.languages = [['e', 'n']]) (closed : List (List Spec.Piece × Char)) (last : List Spec.Piece)
    (stop : List Char) (h : PlainText E.table closed last stop) (hz : SearchZones c ((datesInText closed last).map (·.1.midnight)))
    (hch : ∃ ch ∈ writeText closed last stop, toLowerC ch ∈ englishLetters) :
    ∃ p' results, E.call compose p (.search (some c) (writeText closed last stop)) = some (p', .foundIn (.ok (['e', 'n'], results))) ∧
      results.length = (datesInText closed last).length ∧ ∀ q ∈ (datesInText closed last).zip results, Reported q.1.1 q.1.2 q.2 := by
  have hk := used_kept hp
  have hf : FreshTypes p.st := by
    refine ⟨?_, hk.st.detect⟩
    rcases hk.st.types with e | ⟨_, e⟩
    · exact Or.inl e
    · exact Or.inr e
  obtain ⟨out, h1, h2, h3⟩ := C49_english_only hE hcomp p.st.detect hc hl hlang (st := ⟨p.st, p.unique⟩) hf closed last stop h hz hch
  have h4 := call_search E compose p (some c) (writeText closed last stop)
  obtain ⟨x, h5, h6⟩ := Option.map_eq_some_iff.mp h1
  rw [show search (E.worldOf compose p) ⟨p.st, p.unique⟩ (some c) (writeText closed last stop) = some x from h5] at h4
  simp only [Option.map_some, h6] at h4
  obtain ⟨y, h7, h8⟩ := Option.map_eq_some_iff.mp h4
  refine ⟨y.1, searchResults ['e', 'n'] out, ?_, by unfold searchResults; rw [List.length_map, h2], zip_results h3⟩
  rw [h7]
  obtain ⟨a, b⟩ := y
  dsimp only at h8
  rw [h8]
  rfl

/-! ## Concrete cases -/

/-- A parser that read a date with `TryPreviousLocales` and then made a search. -/
def usedMoment : Moment := ⟨demoEnv.now, demoEnv.monthFirst⟩

theorem demo_used : ∃ p, Used demoEnv id (newObject none [])
    [(usedMoment, .parse (some { tryPrevious := true }) "2015-03-05".toList []),
      (usedMoment, .search (some { languages := [['e', 'n']] }) "we met on March 5, 2015 then. nobody (really) came at 6/7/2016!".toList)] p := by
  have h1 : Used demoEnv id (newObject none []) [(usedMoment, .parse (some { tryPrevious := true }) "2015-03-05".toList [])] _ := .call .fresh rfl
  obtain ⟨p', r, h2, _⟩ := C49_results demo_sound (compose := id) (fun _ _ => rfl) _ _ h1 (c := { languages := [['e', 'n']] }) ⟨rfl, Or.inl rfl⟩ rfl rfl
    [(demoSentence, '.')] demoLast ['!'] demo_text_ok (demo_search_zones _ rfl rfl _) ⟨'w', by rw [demo_text]; decide, by decide⟩
  rw [demo_text] at h2
  exact ⟨p', .call h1 h2⟩

example : ∃ l p, Used demoEnv id (newObject none []) l p ∧ l ≠ [] ∧ ¬ (Request.parse none "5/6/2016".toList []).Remembering ∧
    ¬ (Request.search none "5/6/2016".toList).Repeats none := by
  obtain ⟨p, hp⟩ := demo_used
  exact ⟨_, p, hp, by simp, by simp [Request.Remembering], by simp [Request.Repeats, givenLanguages]⟩

/-- The hypotheses of `C49_results`, `C57_search` and `C57_reported` are met. -/
example : ∃ p p' results, demoEnv.call id p (.search (some { languages := [['e', 'n']] })
    "we met on March 5, 2015 then. nobody (really) came at 6/7/2016!".toList) = some (p', .foundIn (.ok (['e', 'n'], results))) ∧ results.length = 2 := by
  obtain ⟨p, hp⟩ := demo_used
  obtain ⟨p', r, h2, h3, _⟩ := C49_results demo_sound (compose := id) (fun _ _ => rfl) _ _ hp (c := { languages := [['e', 'n']] }) ⟨rfl, Or.inl rfl⟩ rfl rfl
    [(demoSentence, '.')] demoLast ['!'] demo_text_ok (demo_search_zones _ rfl rfl _) ⟨'w', by rw [demo_text]; decide, by decide⟩
  rw [demo_text] at h2
  have := congrArg List.length demo_dates
  rw [List.length_map] at this
  exact ⟨p, p', r, h2, by rw [h3, this]; rfl⟩

end Verif.Props
