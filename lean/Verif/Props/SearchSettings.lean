import Verif.Spec.SearchSettings
import Verif.Spec.Demo
import Verif.Props.Search
import Verif.Props.Detect
import Verif.Props.SearchEnglishCases
/-! # C51: every date a search reports was read by `Parse` with the caller's settings -/
set_option autoImplicit false
namespace Verif.Props
open Verif.Go Verif.Model Verif.Lemmas Verif.Spec Verif.Data

section
variable {σ τ D : Type}

/-- The date of a result was answered at a time `A` allows. -/
def ReadAt (env : SearchEnv σ τ D) (A : Option τ → Prop) (p : ParsedSearch D) : Prop :=
  ∀ d, p.date = some d → ∃ s t e, A t ∧ (env.parse s t e).2 = some d

theorem relBase_read {env : SearchEnv σ τ D} {A : Option τ → Prop}
    (hA : ∀ s t e d b, A t → (env.parse s t e).2 = some d → env.time d = some b → A (some b)) (l : List (ParsedSearch D))
    (hl : ∀ p ∈ l, ReadAt env A p) {b : τ} (h : getRelativeBase env l = some b) : A (some b) := by
  unfold getRelativeBase at h
  have hl' : ∀ p ∈ l.reverse, ReadAt env A p := fun p hp => hl p (List.mem_reverse.mp hp)
  generalize l.reverse = r at h hl'
  induction r with
  | nil => simp [relativeBaseLoop] at h
  | cons p r ih =>
    rw [relativeBaseLoop] at h
    split at h
    · exact ih h fun q hq => hl' q (by simp [hq])
    · cases hd : p.date with
      | none => rw [hd] at h; simp at h
      | some d =>
        rw [hd] at h
        obtain ⟨s, t, e, h1, h2⟩ := hl' p (by simp) d hd
        exact hA s t e d b h1 h2 h

theorem parseEntry_read {env : SearchEnv σ τ D} {A : Option τ → Prop} {need : Bool}
    (hA : need = true → ∀ s t e d b, A t → (env.parse s t e).2 = some d → env.time d = some b → A (some b))
    {st : σ × Option τ} (hs : A st.2) (entry tr : List Char) {l : List (ParsedSearch D)} (hl : ∀ p ∈ l, ReadAt env A p) :
    A (parseEntry env st entry tr l need).1.2 ∧ ReadAt env A (parseEntry env st entry tr l need).2 := by
  unfold parseEntry
  cases hb : (if need then getRelativeBase env l else none) with
  | none => exact ⟨hs, fun d hd => ⟨_, _, _, hs, hd⟩⟩
  | some b =>
    have hn : need = true := by cases need with
      | true => rfl
      | false => simp at hb
    rw [if_pos hn] at hb
    have := relBase_read (hA hn) l hl hb
    exact ⟨this, fun d hd => ⟨_, _, _, this, hd⟩⟩

theorem parseParts_read {env : SearchEnv σ τ D} {A : Option τ → Prop} {need : Bool}
    (hA : need = true → ∀ s t e d b, A t → (env.parse s t e).2 = some d → env.time d = some b → A (some b)) (split : SplitResult) :
    ∀ (es : List (List Char)) (j : Nat) (st : σ × Option τ) (res : List (ParsedSearch D)) (subs : List (List Char)),
    A st.2 → (∀ p ∈ res, ReadAt env A p) → ∀ st' res' subs', parseParts env need split j es st res subs = some (st', res', subs') →
    A st'.2 ∧ ∀ p ∈ res', ReadAt env A p := by
  intro es
  induction es with
  | nil =>
    intro j st res subs hs hr st' res' subs' h
    simp only [parseParts, Option.some.injEq, Prod.mk.injEq] at h
    obtain ⟨rfl, rfl, rfl⟩ := h
    exact ⟨hs, hr⟩
  | cons e es ih =>
    intro j st res subs hs hr st' res' subs' h
    rw [parseParts] at h
    split at h
    · exact ih _ _ _ _ hs hr _ _ _ h
    · simp only [Option.bind_eq_bind, Option.bind_eq_some_iff] at h
      obtain ⟨ep, _, op, _, h⟩ := h
      obtain ⟨k1, k2⟩ := parseEntry_read hA hs e ep hr
      refine ih _ _ _ _ k1 ?_ _ _ _ h
      intro p hp
      rcases List.mem_append.mp hp with hp | hp
      · exact hr p hp
      · rw [List.mem_singleton.mp hp]; exact k2

theorem parseSplits_read {env : SearchEnv σ τ D} {A : Option τ → Prop} {need : Bool}
    (hA : need = true → ∀ s t e d b, A t → (env.parse s t e).2 = some d → env.time d = some b → A (some b)) :
    ∀ (splits : List SplitResult) (st : σ × Option τ), A st.2 → ∀ st' out, parseSplits env need splits st = some (st', out) →
    A st'.2 ∧ ∀ x ∈ out, ∀ p ∈ x.1, ReadAt env A p := by
  intro splits
  induction splits with
  | nil =>
    intro st hs st' out h
    simp only [parseSplits, Option.some.injEq, Prod.mk.injEq] at h
    obtain ⟨rfl, rfl⟩ := h
    exact ⟨hs, by simp⟩
  | cons sp r ih =>
    intro st hs st' out h
    rw [parseSplits] at h
    simp only [Option.bind_eq_bind, Option.bind_eq_some_iff] at h
    obtain ⟨⟨st1, res, subs⟩, h1, ⟨st2, more⟩, h2, h3⟩ := h
    obtain ⟨k1, k2⟩ := parseParts_read hA sp _ _ _ _ _ hs (by simp) _ _ _ h1
    obtain ⟨k3, k4⟩ := ih _ k1 _ _ h2
    simp only [Option.pure_def, Option.some.injEq, Prod.mk.injEq] at h3
    obtain ⟨rfl, rfl⟩ := h3
    refine ⟨k3, fun x hx => ?_⟩
    rcases List.mem_cons.mp hx with rfl | hx
    · exact k2
    · exact k4 x hx

theorem choose_mem (isDigit : Char → Bool) (l : List (List (ParsedSearch D) × List (List Char))) {s : List (ParsedSearch D) × List (List Char)}
    (h : chooseBestSplit isDigit l = some s) : s ∈ l ∨ s = ([], []) := by
  unfold chooseBestSplit at h
  split at h
  · simp only [Option.some.injEq] at h; exact Or.inr h.symm
  · simp only [Option.bind_eq_bind, Option.bind_eq_some_iff, Option.map_eq_some_iff] at h
    obtain ⟨rated, h1, x, h2, rfl⟩ := h
    left
    have hm : ∀ (l : List (List (ParsedSearch D) × List (List Char))) rated, (l.mapM fun s => do
        let r ← rateSplit isDigit s.1 s.2
        pure (r, s)) = some rated → ∀ x ∈ rated, x.2 ∈ l := by
      intro l
      induction l with
      | nil => intro rated h; simp at h; subst h; simp
      | cons a l ih =>
        intro rated h x hx
        rw [List.mapM_cons] at h
        simp only [Option.bind_eq_bind, Option.bind_eq_some_iff, Option.pure_def, Option.some.injEq] at h
        obtain ⟨y, ⟨r, _, rfl⟩, ys, h3, rfl⟩ := h
        rcases List.mem_cons.mp hx with rfl | hx
        · simp
        · exact List.mem_cons_of_mem _ (ih ys h3 x hx)
    have hne : rated ≠ [] := by intro e; rw [e] at h2; simp [firstBest] at h2
    obtain ⟨y, hy, e⟩ := firstBest_mem rated hne
    rw [h2] at e; injection e with e; subst e
    exact hm l rated h1 x hy

theorem foundLoop_read {env : SearchEnv σ τ D} {A : Option τ → Prop} {need : Bool}
    (hA : need = true → ∀ s t e d b, A t → (env.parse s t e).2 = some d → env.time d = some b → A (some b))
    (translation original : List (List Char)) :
    ∀ (es : List (List Char)) (i : Nat) (st : σ × Option τ) (res : List (ParsedSearch D)) (subs : List (List Char)),
    A st.2 → (∀ p ∈ res, p.date.isSome = true ∧ ReadAt env A p) → ∀ st' res' subs',
    foundLoop env need translation original i es st res subs = some (st', res', subs') → ∀ p ∈ res', p.date.isSome = true ∧ ReadAt env A p := by
  intro es
  induction es with
  | nil =>
    intro i st res subs _ hr st' res' subs' h
    simp only [foundLoop, Option.some.injEq, Prod.mk.injEq] at h
    obtain ⟨rfl, rfl, rfl⟩ := h
    exact hr
  | cons e es ih =>
    intro i st res subs hs hr st' res' subs' h
    rw [foundLoop] at h
    split at h
    · exact ih _ _ _ _ hs hr _ _ _ h
    · simp only [Option.bind_eq_bind, Option.bind_eq_some_iff] at h
      obtain ⟨tr, _, op, _, h⟩ := h
      obtain ⟨k1, k2⟩ := parseEntry_read hA hs e tr (fun p hp => (hr p hp).2)
      split at h
      · rename_i hsome
        refine ih _ _ _ _ k1 ?_ _ _ _ h
        intro p hp
        rcases List.mem_append.mp hp with hp | hp
        · exact hr p hp
        · rw [List.mem_singleton.mp hp]; exact ⟨hsome, k2⟩
      · rw [Option.bind_eq_some_iff] at h
        obtain ⟨splits, _, h⟩ := h
        split at h
        · exact ih _ _ _ _ k1 hr _ _ _ h
        · simp only [Option.bind_eq_some_iff] at h
          obtain ⟨⟨st1, poss⟩, h1, ⟨b, bs⟩, h2, h⟩ := h
          obtain ⟨k3, k4⟩ := parseSplits_read hA _ _ k1 _ _ h1
          split at h
          · refine ih _ _ _ _ k3 ?_ _ _ _ h
            intro p hp
            rcases List.mem_append.mp hp with hp | hp
            · exact hr p hp
            · obtain ⟨x, hx, rfl⟩ := List.mem_map.mp hp
              obtain ⟨hx1, hx2⟩ := List.mem_filter.mp hx
              refine ⟨hx2, ?_⟩
              have hb : x.1 ∈ b := (List.of_mem_zip (show (x.1, x.2) ∈ b.zip bs from hx1)).1
              rcases choose_mem _ _ h2 with hm | hm
              · exact k4 _ hm _ hb
              · injection hm with hm _; rw [hm] at hb; simp at hb
          · simp at h

end

theorem codes_back {c : PCfg} (h : c.validate = .ok ()) : (DayOfMonth.ofCode c.dayOfMonth).code = c.dayOfMonth ∧
    (MonthOfYear.ofCode c.monthOfYear).code = c.monthOfYear ∧ (DateSource.ofCode c.dateSource).code = c.dateSource := by
  have h1 : ∀ n, n ≤ 2 → (DayOfMonth.ofCode n).code = n ∧ (MonthOfYear.ofCode n).code = n ∧ (DateSource.ofCode n).code = n := by
    intro n hn
    match n, hn with
    | 0, _ => exact ⟨rfl, rfl, rfl⟩
    | 1, _ => exact ⟨rfl, rfl, rfl⟩
    | 2, _ => exact ⟨rfl, rfl, rfl⟩
  unfold PCfg.validate at h
  split at h
  · simp at h
  · split at h
    · simp at h
    · split at h
      · simp at h
      · exact ⟨(h1 _ (by omega)).1, (h1 _ (by omega)).2.1, (h1 _ (by omega)).2.2⟩

theorem entry_settings {c : PCfg} (h : c.validate = .ok ()) (t : Option Time) : SameSettings c (entryCfg (searchCfg c) t) := by
  obtain ⟨h1, h2, h3⟩ := codes_back h
  refine ⟨rfl, h1, h2, h3, rfl, rfl, ?_, rfl, rfl, rfl⟩
  show (if c.skipTokens.isEmpty then [['t']] else c.skipTokens) = _
  cases c.skipTokens <;> rfl

/-- **C51.** Every date `SearchWithLanguage` reports, in any text and language, is a date that `Parse` answered for some text
with the caller's settings and the caller's current time, or, if the caller gave none, without one or with the time of a date
read before in this search. -/
theorem C51_search_with_language (E : Env) (compose : List Char → List Char) (detect : Option (List Char → List Name)) (c : Option PCfg)
    (lang : Name) (text : List Char) (s : ParserSt) (out : List (ParsedSearch DateRes × List Char))
    (h : searchIn (E.searchWorld compose detect) c lang text s = some (.ok out)) :
    ∀ r ∈ out, ∃ t entry d, r.1.date = some d ∧ SearchTime E (c.getD {}) t ∧ ReadWith E (c.getD {}) t entry d := by
  unfold searchIn at h
  rw [initSearchConfig_eq] at h
  cases hv : (c.getD {}).validate with
  | error e => rw [hv] at h; simp at h
  | ok u =>
    rw [hv] at h
    generalize c.getD {} = c at h hv ⊢
    dsimp only at h
    split at h
    · simp at h
    · rename_i d _
      simp only [Option.bind_eq_bind, Option.bind_eq_some_iff, Option.pure_def, Option.some.injEq, Except.ok.injEq] at h
      obtain ⟨r, h, rfl⟩ := h
      unfold searchWithLanguage at h
      simp only [Option.bind_eq_bind, Option.bind_eq_some_iff] at h
      obtain ⟨⟨tr, op⟩, _, ⟨st', res, subs⟩, h1, h2⟩ := h
      have hread : ∀ s t e d, ((E.searchParser (searchCfg c)).parse s t e).2 = some d → ReadWith E c t e d := by
        intro s t e d hd
        unfold Env.searchParser at hd
        dsimp only at hd
        cases hp : (E.parse s (some (entryCfg (searchCfg c) t)) e []).2 with
        | error x => rw [hp] at hd; simp at hd
        | ok d' =>
          rw [hp] at hd
          dsimp only at hd
          split at hd
          · simp at hd
          · rename_i hz
            injection hd with hd; subst hd
            exact ⟨s, _, entry_settings hv t, rfl, hp, by simpa using hz⟩
      have hzero : (searchCfg c).currentTime.isZero = c.currentTime.isZero := by
        unfold searchCfg
        dsimp only
        split
        · rename_i hz; rw [hz]; rfl
        · rfl
      have hread' := foundLoop_read (env := E.searchParser (searchCfg c)) (A := SearchTime E c)
        (need := (if (searchCfg c).currentTime.isZero then none else some (searchCfg c).currentTime : Option Time).isNone) (by
          intro hn s t e d b ht hd hb
          have hz : c.currentTime.isZero = true := by
            rw [hzero] at hn
            cases hc : c.currentTime.isZero with
            | true => rfl
            | false => rw [hc] at hn; simp at hn
          have hb' : (if d.time.isZero then none else some d.time) = some b := hb
          split at hb'
          · simp at hb'
          · injection hb' with hb'
            rw [← hb']
            exact .found hz ht (hread s t e d hd)) tr op _ 0 _ [] [] (by
          dsimp only
          rw [hzero]
          cases hc : c.currentTime.isZero with
          | true => exact .none hc
          | false =>
            have : (searchCfg c).currentTime = c.currentTime := by unfold searchCfg; simp [hc]
            rw [this]
            exact .given hc) (by simp) _ _ _ h1
      dsimp only at h2
      split at h2
      · injection h2 with h2; subst h2
        intro x hx
        have hp := List.of_mem_zip (show (x.1, x.2) ∈ res.zip subs from hx)
        obtain ⟨k1, k2⟩ := hread' x.1 hp.1
        obtain ⟨d, hd⟩ := Option.isSome_iff_exists.mp k1
        obtain ⟨s, t, e, k3, k4⟩ := k2 d hd
        exact ⟨t, e, d, hd, k3, hread s t e d k4⟩
      · simp at h2

/-- **C51.** The same for `Search`. -/
theorem C51_search (E : Env) (compose : List Char → List Char) (detect : Option (List Char → List Name)) (st : SearchSt ParserSt) (c : Option PCfg)
    (text : List Char) (u : List (Name × List Char)) (lang : Name) (out : List (ParsedSearch DateRes × List Char))
    (h : search (E.searchWorld compose detect) st c text = some (u, .ok (lang, out))) :
    ∀ r ∈ out, ∃ t entry d, r.1.date = some d ∧ SearchTime E (c.getD {}) t ∧ ReadWith E (c.getD {}) t entry d :=
  C51_search_with_language E compose detect c lang text st.parser out (C46_same_as_with_language _ st c text u lang out h)

/-- With a current time given, it is the one used. -/
theorem searchTime_given {E : Env} {c : PCfg} {t : Option Time} (h : SearchTime E c t) (hc : c.currentTime.isZero = false) : t = some c.currentTime := by
  cases h with
  | given _ => rfl
  | none h => rw [h] at hc; cases hc
  | found h _ _ => rw [h] at hc; cases hc

/-- **C51.** With a current time given, every date reported was answered by `Parse` with the caller's settings and exactly
this time. -/
theorem C51_given_time (E : Env) (compose : List Char → List Char) (detect : Option (List Char → List Name)) (c : PCfg)
    (hc : c.currentTime.isZero = false) (lang : Name) (text : List Char) (s : ParserSt) (out : List (ParsedSearch DateRes × List Char))
    (h : searchIn (E.searchWorld compose detect) (some c) lang text s = some (.ok out)) :
    ∀ r ∈ out, ∃ s' c' entry d, r.1.date = some d ∧ d.isZero = false ∧ SameSettings c c' ∧ c'.currentTime = c.currentTime ∧
      (E.parse s' (some c') entry []).2 = .ok d := by
  intro r hr
  obtain ⟨t, entry, d, h1, h2, s', c', h3, h4, h5, h6⟩ := C51_search_with_language E compose detect (some c) lang text s out h r hr
  rw [searchTime_given h2 hc] at h4
  exact ⟨s', c', entry, d, h1, h6, h3, h4, h5⟩

/-- There are such searches: one which finds a date. -/
example : ∃ out, searchIn (demoEnv.searchWorld id none) (some { dateOrder := some fun _ => "DMY".toList }) ['e', 'n'] "on 3/5/2015".toList {} = some (.ok out) ∧
    out ≠ [] := by
  obtain ⟨⟨p, h, _⟩, _⟩ := C49_order_ignored demo_sound id none (fun _ => "DMY".toList) rfl
  exact ⟨_, h, by simp⟩
/-- Settings that are the same, and some that are not. -/
example : SameSettings { strict := true, monthOfYear := 2 } { strict := true, monthOfYear := 2, skipTokens := [['t']], currentTime := demoEnv.now } ∧
    ¬ SameSettings { strict := true } { skipTokens := [['t']] } :=
  ⟨⟨rfl, rfl, rfl, rfl, rfl, rfl, rfl, rfl, rfl, rfl⟩, fun h => by have := h.strict; simp at this⟩

end Verif.Props
