import Verif.Model.Api
/-! # Two searches with parsers in different states that answer alike -/
set_option autoImplicit false
namespace Verif.Lemmas
open Verif.Go Verif.Model

section
variable {σ τ D : Type}

/-- The same outcome, but for the state of the parser. -/
def SameOut {β : Type} (R : σ → σ → Prop) : Option ((σ × Option τ) × β) → Option ((σ × Option τ) × β) → Prop
  | none, none => True
  | some a, some b => R a.1.1 b.1.1 ∧ a.1.2 = b.1.2 ∧ a.2 = b.2
  | _, _ => False

/-- Parsers in related states answer alike and stay related. -/
def Alike (env : SearchEnv σ τ D) (R : σ → σ → Prop) : Prop :=
  ∀ s s', R s s' → ∀ t e, (env.parse s t e).2 = (env.parse s' t e).2 ∧ R (env.parse s t e).1 (env.parse s' t e).1

theorem SameOut.bind {β γ : Type} {R : σ → σ → Prop} {o o' : Option ((σ × Option τ) × β)} (h : SameOut R o o')
    {f f' : (σ × Option τ) × β → Option ((σ × Option τ) × γ)}
    (hf : ∀ a a', R a.1.1 a'.1.1 → a.1.2 = a'.1.2 → a.2 = a'.2 → SameOut R (f a) (f' a')) : SameOut R (o.bind f) (o'.bind f') := by
  cases o with
  | none => cases o' with
    | none => trivial
    | some _ => exact h.elim
  | some a => cases o' with
    | none => exact h.elim
    | some b => exact hf a b h.1 h.2.1 h.2.2

/-- The same step in both. -/
theorem SameOut.bindSame {α γ : Type} {R : σ → σ → Prop} (o : Option α) {f f' : α → Option ((σ × Option τ) × γ)}
    (hf : ∀ a, SameOut R (f a) (f' a)) : SameOut R (o.bind f) (o.bind f') := by
  cases o with
  | none => trivial
  | some a => exact hf a

theorem parseEntry_sim {env : SearchEnv σ τ D} {R : σ → σ → Prop} (h : Alike env R) {s s' : σ} (hs : R s s') (t : Option τ)
    (entry tr : List Char) (l : List (ParsedSearch D)) (need : Bool) :
    R (parseEntry env (s, t) entry tr l need).1.1 (parseEntry env (s', t) entry tr l need).1.1 ∧
    (parseEntry env (s, t) entry tr l need).1.2 = (parseEntry env (s', t) entry tr l need).1.2 ∧
    (parseEntry env (s, t) entry tr l need).2 = (parseEntry env (s', t) entry tr l need).2 := by
  unfold parseEntry
  obtain ⟨h1, h2⟩ := h s s' hs t (cleanEntry entry)
  cases hb : (if need then getRelativeBase env l else none) with
  | none => simp only [hb]; exact ⟨h2, trivial, by rw [h1]⟩
  | some b =>
    simp only [hb]
    obtain ⟨h3, h4⟩ := h _ _ h2 (some b) (cleanEntry entry)
    exact ⟨h4, trivial, by rw [h3]⟩

theorem parseParts_sim {env : SearchEnv σ τ D} {R : σ → σ → Prop} (h : Alike env R) (need : Bool) (split : SplitResult) :
    ∀ (es : List (List Char)) (j : Nat) (s s' : σ) (t : Option τ) (res : List (ParsedSearch D)) (subs : List (List Char)), R s s' →
    SameOut R (parseParts env need split j es (s, t) res subs) (parseParts env need split j es (s', t) res subs) := by
  intro es
  induction es with
  | nil => intro j s s' t res subs hs; exact ⟨hs, rfl, rfl⟩
  | cons e es ih =>
    intro j s s' t res subs hs
    simp only [parseParts]
    split
    · exact ih _ _ _ _ _ _ hs
    · refine SameOut.bindSame _ fun ep => ?_
      obtain ⟨h1, h2, h3⟩ := parseEntry_sim h hs t e ep res need
      refine SameOut.bindSame _ fun op => ?_
      rw [h3]
      have := ih (j + 1) _ _ (parseEntry env (s, t) e ep res need).1.2 (res ++ [(parseEntry env (s', t) e ep res need).2])
        (subs ++ [trimChars op " .,:()[]-".toList]) h1
      rw [show ((parseEntry env (s', t) e ep res need).1) = ((parseEntry env (s', t) e ep res need).1.1, (parseEntry env (s, t) e ep res need).1.2)
        from by rw [h2]]
      exact this

theorem parseSplits_sim {env : SearchEnv σ τ D} {R : σ → σ → Prop} (h : Alike env R) (need : Bool) :
    ∀ (splits : List SplitResult) (s s' : σ) (t : Option τ), R s s' →
    SameOut R (parseSplits env need splits (s, t)) (parseSplits env need splits (s', t)) := by
  intro splits
  induction splits with
  | nil => intro s s' t hs; exact ⟨hs, rfl, rfl⟩
  | cons sp r ih =>
    intro s s' t hs
    simp only [parseSplits]
    refine SameOut.bind (parseParts_sim h need sp _ _ _ _ _ _ _ hs) ?_
    rintro ⟨⟨s1, t1⟩, res, subs⟩ ⟨⟨s2, t2⟩, res', subs'⟩ h1 h2 h3
    dsimp only at h1 h2 h3
    obtain ⟨rfl, rfl⟩ := Prod.mk.inj h3
    subst h2
    refine SameOut.bind (ih _ _ _ h1) ?_
    rintro ⟨⟨s3, t3⟩, more⟩ ⟨⟨s4, t4⟩, more'⟩ h4 h5 h6
    dsimp only at h4 h5 h6
    subst h5; subst h6
    exact ⟨h4, rfl, rfl⟩

theorem foundLoop_sim {env : SearchEnv σ τ D} {R : σ → σ → Prop} (h : Alike env R) (need : Bool) (translation original : List (List Char)) :
    ∀ (es : List (List Char)) (i : Nat) (s s' : σ) (t : Option τ) (res : List (ParsedSearch D)) (subs : List (List Char)), R s s' →
    SameOut R (foundLoop env need translation original i es (s, t) res subs)
      (foundLoop env need translation original i es (s', t) res subs) := by
  intro es
  induction es with
  | nil => intro j s s' t res subs hs; exact ⟨hs, rfl, rfl⟩
  | cons e es ih =>
    intro i s s' t res subs hs
    simp only [foundLoop]
    split
    · exact ih _ _ _ _ _ _ hs
    · refine SameOut.bindSame _ fun tr => ?_
      obtain ⟨h1, h2, h3⟩ := parseEntry_sim h hs t e tr res need
      rw [show ((parseEntry env (s', t) e tr res need).1) = ((parseEntry env (s', t) e tr res need).1.1, (parseEntry env (s, t) e tr res need).1.2)
        from by rw [h2]]
      rw [h3]
      refine SameOut.bindSame _ fun op => ?_
      split
      · exact ih _ _ _ (parseEntry env (s, t) e tr res need).1.2 _ _ h1
      · refine SameOut.bindSame _ fun splits => ?_
        split
        · exact ih _ _ _ (parseEntry env (s, t) e tr res need).1.2 _ _ h1
        · refine SameOut.bind (parseSplits_sim h need splits _ _ (parseEntry env (s, t) e tr res need).1.2 h1) ?_
          rintro ⟨⟨s1, t1⟩, poss⟩ ⟨⟨s2, t2⟩, poss'⟩ h4 h5 h6
          dsimp only at h4 h5 h6
          subst h5; subst h6
          refine SameOut.bindSame _ fun best => ?_
          split
          · exact ih _ _ _ _ _ _ h4
          · trivial

theorem searchSt_sim {env : SearchEnv σ τ D} {R : σ → σ → Prop} (h : Alike env R) (U : Uni) (L : Lang) (isTz : List Char → Bool)
    (skip : List (List Char)) (lang str : List Char) (s s' : σ) (t : Option τ) (hs : R s s') :
    match searchWithLanguageSt U env L isTz skip lang str (s, t), searchWithLanguageSt U env L isTz skip lang str (s', t) with
    | none, none => True
    | some a, some b => R a.1 b.1 ∧ a.2 = b.2
    | _, _ => False := by
  unfold searchWithLanguageSt
  cases translateSearch U L isTz skip str with
  | none => trivial
  | some x =>
    simp only [Option.bind_eq_bind, Option.bind_some]
    have := foundLoop_sim h t.isNone x.1 x.2
      (if (!(lang == ['v', 'i'] || lang == ['h', 'u'])) then x.1 else x.2) 0 s s' t [] [] hs
    unfold parseFoundObjects
    dsimp only
    revert this
    generalize foundLoop env t.isNone x.1 x.2 0 (if (!(lang == ['v', 'i'] || lang == ['h', 'u'])) = true then x.1 else x.2) (s, t) [] [] = o
    generalize foundLoop env t.isNone x.1 x.2 0 (if (!(lang == ['v', 'i'] || lang == ['h', 'u'])) = true then x.1 else x.2) (s', t) [] [] = o'
    intro this
    cases o with
    | none => cases o' with
      | none => trivial
      | some _ => exact this.elim
    | some a => cases o' with
      | none => exact this.elim
      | some b =>
        obtain ⟨⟨s1, t1⟩, p1, q1⟩ := a
        obtain ⟨⟨s2, t2⟩, p2, q2⟩ := b
        obtain ⟨h1, _, h3⟩ := this
        obtain ⟨rfl, rfl⟩ := Prod.mk.inj h3
        dsimp only [Option.bind_some]
        by_cases hc : p1.length ≤ q1.length
        · rw [if_pos hc, if_pos hc]; exact ⟨h1, rfl⟩
        · rw [if_neg hc, if_neg hc]; trivial

theorem searchInSt_sim {W : SearchWorld σ D} {R : σ → σ → Prop} (c : Option PCfg)
    (h : ∀ c', initSearchConfig W.now c = .ok c' → Alike (W.parser c') R) (lang : Name) (text : List Char) (s s' : σ) (hs : R s s') :
    match searchInSt W c lang text s, searchInSt W c lang text s' with
    | none, none => True
    | some a, some b => R a.1 b.1 ∧ a.2 = b.2
    | _, _ => False := by
  unfold searchInSt
  cases hc : initSearchConfig W.now c with
  | error e => exact ⟨hs, rfl⟩
  | ok c' =>
    dsimp only
    cases W.data lang with
    | none => exact ⟨hs, rfl⟩
    | some d =>
      have := searchSt_sim (h c' hc) W.uni d.1 W.isTz c'.skipTokens lang text s s' (if c'.currentTime.isZero then none else some c'.currentTime) hs
      dsimp only
      revert this
      generalize searchWithLanguageSt W.uni (W.parser c') d.1 W.isTz c'.skipTokens lang text (s, if c'.currentTime.isZero then none else some c'.currentTime) = o
      generalize searchWithLanguageSt W.uni (W.parser c') d.1 W.isTz c'.skipTokens lang text (s', if c'.currentTime.isZero then none else some c'.currentTime) = o'
      intro this
      cases o with
      | none => cases o' with
        | none => trivial
        | some _ => exact this.elim
      | some a => cases o' with
        | none => exact this.elim
        | some b => exact ⟨this.1, by show Except.ok a.2 = Except.ok b.2; rw [this.2]⟩

/-- The state aside, this is `searchIn`. -/
theorem searchInSt_snd (W : SearchWorld σ D) (c : Option PCfg) (lang : Name) (text : List Char) (s : σ) :
    (searchInSt W c lang text s).map (·.2) = searchIn W c lang text s := by
  unfold searchInSt searchIn
  cases initSearchConfig W.now c with
  | error e => rfl
  | ok c' =>
    dsimp only
    cases W.data lang with
    | none => rfl
    | some d =>
      dsimp only
      unfold searchWithLanguageSt searchWithLanguage
      cases translateSearch W.uni d.1 W.isTz c'.skipTokens text with
      | none => rfl
      | some x =>
        simp only [Option.bind_eq_bind, Option.bind_some]
        cases parseFoundObjects (W.parser c') (!(lang == ['v', 'i'] || lang == ['h', 'u'])) x.1 x.2
            (s, if c'.currentTime.isZero then none else some c'.currentTime) with
        | none => rfl
        | some y =>
          simp only [Option.bind_some]
          split <;> rfl

end

end Verif.Lemmas
