import Verif.Lemmas.Steps
/-! Helper lemmas: invariants of `Init` for every string. -/
set_option autoImplicit false
namespace Verif.Lemmas
open Verif.Go Verif.Model Verif.Spec

/-- How a value can come from a token. -/
inductive Reads (f : Fns) : Comp → Tok → Int → Prop
  | direct {c : Comp} {t : Tok} {v : Int} (d : Dir) : f.partValue c t.text d = some v → Reads f c t v
  | swapped {t : Tok} {v : Int} (d : Dir) : f.partValue .month t.text d = some v → Reads f .day t v
  | leftover {c : Comp} {t : Tok} : t.typ = .digit →
      Reads f c t (if t.text.all Char.isDigit then natOfDigits t.text else 0)

/-- The part was not found, or a token of the string gives its value. -/
def PartOK (f : Fns) (F : List Tok) (s : ASt) (c : Comp) : Prop :=
  (s.vals.get c = none ∧ s.ctoks.get c = none) ∨
  ∃ v t, s.vals.get c = some v ∧ s.ctoks.get c = some t ∧ t ∈ F ∧ Reads f c t v

structure Inv (f : Fns) (F : List Tok) (s : ASt) : Prop where
  parts : ∀ c, PartOK f F s c
  month : ∀ t v, s.ctoks.month = some t → s.vals.month = some v → ∃ d, f.partValue .month t.text d = some v
  unset : ∀ t ∈ s.unset, t ∈ F

theorem Vals.get_set (v : Vals) (c c' : Comp) (x : Int) :
    (v.set c x).get c' = if c = c' then some x else v.get c' := by
  cases c <;> cases c' <;> simp [Vals.set, Vals.get]

theorem CToks.get_set (v : CToks) (c c' : Comp) (x : Tok) :
    (v.set c x).get c' = if c = c' then some x else v.get c' := by
  cases c <;> cases c' <;> simp [CToks.set, CToks.get]

theorem Inv.empty (f : Fns) (F : List Tok) : Inv f F {} :=
  ⟨fun c => Or.inl (by cases c <;> exact ⟨rfl, rfl⟩), (by intro t v h; cases h), by simp⟩

/-- Changing only the bookkeeping of indexes and times keeps the invariant. -/
theorem Inv.congr {f : Fns} {F : List Tok} {s s' : ASt} (h : Inv f F s) (hv : s'.vals = s.vals)
    (hc : ∀ c, s'.ctoks.get c = s.ctoks.get c) (hu : s'.unset = s.unset) : Inv f F s' := by
  refine ⟨?_, ?_, by rw [hu]; exact h.unset⟩
  · intro c
    have := h.parts c
    unfold PartOK at this ⊢
    rw [hv, hc]; exact this
  · intro t v h1 h2
    have h1' : s.ctoks.month = some t := by
      have := hc .month; simp only [CToks.get] at this; rw [← this]; exact h1
    exact h.month t v h1' (by rw [← hv]; exact h2)

/-- Recording one value with its token. -/
theorem Inv.record {f : Fns} {F : List Tok} {s : ASt} (h : Inv f F s) (c : Comp) (t : Tok) (v : Int)
    (ht : t ∈ F) (d : Dir) (hr : f.partValue c t.text d = some v) (ao : List Comp) (un : List Tok)
    (hun : ∀ u ∈ un, u ∈ F) (sc : Option Comp) :
    Inv f F { s with autoOrder := ao, unset := un, skippedComp := sc, ctoks := s.ctoks.set c t,
                     vals := s.vals.set c v } := by
  refine ⟨?_, ?_, hun⟩
  · intro c'
    unfold PartOK
    dsimp only
    rw [Vals.get_set, CToks.get_set]
    by_cases hc : c = c'
    · subst hc
      right
      exact ⟨v, t, by simp, by simp, ht, .direct d hr⟩
    · simp only [hc, if_false]
      exact h.parts c'
  · intro t' v' h1 h2
    dsimp only at h1 h2
    by_cases hc : c = .month
    · subst hc
      simp only [CToks.set, Vals.set, Option.some.injEq] at h1 h2
      rw [← h1, ← h2]; exact ⟨d, hr⟩
    · have e1 : (s.ctoks.set c t).month = s.ctoks.month := by cases c <;> simp_all [CToks.set]
      have e2 : (s.vals.set c v).month = s.vals.month := by cases c <;> simp_all [Vals.set]
      rw [e1] at h1; rw [e2] at h2
      exact h.month t' v' h1 h2

/-- The digit token result has one of two shapes. -/
theorem digitDirLoop_shape (e : AEnv) (s : ASt) (c : Comp) (text : List Char) :
    ∀ (ds : List Dir) (p : ASt × List (Comp × Int)), digitDirLoop e s c text ds = some p →
      ∃ d v un, e.fns.partValue c text d = some v ∧ p.2 = [(c, v)] ∧
        (∀ u ∈ un, u ∈ s.unset ∨ s.ctoks.get c = some u) ∧
        p.1 = { s with unset := un, autoOrder := s.autoOrder ++ [c], ctoks := s.ctoks.set c ⟨text, .digit⟩ } := by
  intro ds
  induction ds with
  | nil => intro p h; simp [digitDirLoop] at h
  | cons d ds ih =>
    intro p h
    rw [digitDirLoop] at h
    split at h
    · exact ih p h
    · rename_i v hv
      split at h
      · simp only [Option.some.injEq] at h
        exact ⟨d, v, s.unset, hv, by rw [← h], fun u hu => Or.inl hu, by rw [← h]; rfl⟩
      · split at h
        · rename_i prev hprev
          split at h
          · split at h
            · simp only [Option.some.injEq] at h
              refine ⟨d, v, s.unset ++ [prev], hv, by rw [← h], ?_, by rw [← h]; rfl⟩
              intro u hu
              rcases List.mem_append.mp hu with h1 | h1
              · exact Or.inl h1
              · right; rw [List.mem_singleton.mp h1]; exact hprev
            · exact ih p h
          · exact ih p h
        · exact ih p h

theorem parseDigitToken_shape (e : AEnv) (s : ASt) (text : List Char) :
    ∀ (cs : List (Comp × List Dir)) (p : ASt × List (Comp × Int)), parseDigitToken e s text cs = some p →
      ∃ c d v un, e.fns.partValue c text d = some v ∧ p.2 = [(c, v)] ∧
        (∀ u ∈ un, u ∈ s.unset ∨ s.ctoks.get c = some u) ∧
        p.1 = { s with unset := un, autoOrder := s.autoOrder ++ [c], ctoks := s.ctoks.set c ⟨text, .digit⟩ } := by
  intro cs
  induction cs with
  | nil => intro p h; simp [parseDigitToken] at h
  | cons c cs ih =>
    intro p h
    rw [parseDigitToken] at h
    split at h
    · exact ih p h
    · split at h
      · rename_i x hx
        simp only [Option.some.injEq] at h
        subst h
        exact ⟨c.1, digitDirLoop_shape _ _ _ _ _ _ hx⟩
      · exact ih p h

/-- The letter token result: a plain value, or a month name that moves a number to the day. -/
theorem letterDirLoop_shape (e : AEnv) (s : ASt) (c : Comp) (text : List Char) :
    ∀ (ds : List Dir) (p : ASt × List (Comp × Int)), letterDirLoop e s c text ds = some p →
      ∃ d v, e.fns.partValue c text d = some v ∧
        ((p.2 = [(c, v)] ∧ p.1 = { s with ctoks := s.ctoks.set c ⟨text, .letter⟩ }) ∨
         (c = .month ∧ s.vals.get0 .month ≠ 0 ∧ p.2 = [(.month, v), (.day, s.vals.get0 .month)] ∧ ∃ ao,
          p.1 = { s with autoOrder := ao,
                         ctoks := (s.ctoks.set .day ((s.ctoks.get .month).getD ⟨[], .null⟩)).set .month ⟨text, .letter⟩ })) := by
  intro ds
  induction ds with
  | nil => intro p h; simp [letterDirLoop] at h
  | cons d ds ih =>
    intro p h
    rw [letterDirLoop] at h
    split at h
    · exact ih p h
    · rename_i v hv
      split at h
      · simp only [Option.some.injEq] at h
        exact ⟨d, v, hv, Or.inl ⟨by rw [← h], by rw [← h]; rfl⟩⟩
      · rename_i h0
        split at h
        · rename_i hc
          split at h
          · exact ih p h
          · rename_i ao hao
            simp only [Option.some.injEq] at h
            subst hc
            exact ⟨d, v, hv, Or.inr ⟨rfl, h0, by rw [← h], ao, by rw [← h]⟩⟩
        · exact ih p h

theorem parseLetterToken_shape (e : AEnv) (s : ASt) (text : List Char) :
    ∀ (cs : List (Comp × List Dir)) (p : ASt × List (Comp × Int)), parseLetterToken e s text cs = some p →
      ∃ c d v, e.fns.partValue c text d = some v ∧
        ((p.2 = [(c, v)] ∧ p.1 = { s with ctoks := s.ctoks.set c ⟨text, .letter⟩ }) ∨
         (c = .month ∧ s.vals.get0 .month ≠ 0 ∧ p.2 = [(.month, v), (.day, s.vals.get0 .month)] ∧ ∃ ao,
          p.1 = { s with autoOrder := ao,
                         ctoks := (s.ctoks.set .day ((s.ctoks.get .month).getD ⟨[], .null⟩)).set .month ⟨text, .letter⟩ })) := by
  intro cs
  induction cs with
  | nil => intro p h; simp [parseLetterToken] at h
  | cons c cs ih =>
    intro p h
    rw [parseLetterToken] at h
    split at h
    · exact ih p h
    · split at h
      · rename_i x hx
        simp only [Option.some.injEq] at h
        subst h
        exact ⟨c.1, letterDirLoop_shape _ _ _ _ _ _ hx⟩
      · exact ih p h

theorem saveResults_one (s : ASt) (len : Nat) (c : Comp) (v : Int) :
    ∃ sc, saveResults s len [(c, v)] = { s with skippedComp := sc, vals := s.vals.set c v } := by
  unfold saveResults saveResults
  split
  · exact ⟨_, rfl⟩
  · exact ⟨s.skippedComp, rfl⟩

theorem saveResults_two (s : ASt) (len : Nat) (v w : Int) :
    saveResults s len [(.month, v), (.day, w)] = { s with vals := (s.vals.set .month v).set .day w } := by
  simp [saveResults]

theorem initStep_inv {e : AEnv} {toks : List Tok} {fl : List FTok} {i : Nat} {ft : FTok} {s s' : ASt}
    {F : List Tok} (hF : ft.tok ∈ F) (h : Inv e.fns F s) (hs : initStep e toks fl i ft s = .ok s') :
    Inv e.fns F s' := by
  unfold initStep at hs
  split at hs
  · cases hs; exact h
  · split at hs
    · cases hs; exact h
    · split at hs
      · rename_i strTime sk hcap
        cases hs
        exact h.congr rfl (fun c => by cases c <;> rfl) rfl
      · rename_i sk hcap
        dsimp only at hs
        have h2 : Inv e.fns F { s with skippedIdx := sk } := h.congr rfl (fun _ => rfl) rfl
        generalize ({ s with skippedIdx := sk } : ASt) = s2 at hs h2
        split at hs
        · cases hs
        · rename_i s3 results hr
          cases hs
          split at hr
          · rename_i hd
            obtain ⟨c, d, v, un, hv, e2, hun, e1⟩ := parseDigitToken_shape _ _ _ _ _ hr
            dsimp only at e1 e2
            subst e1 e2
            have htok : (⟨ft.tok.text, .digit⟩ : Tok) = ft.tok := by rw [← hd]
            obtain ⟨sc, hsc⟩ := saveResults_one { s2 with unset := un, autoOrder := s2.autoOrder ++ [c], ctoks := s2.ctoks.set c ⟨ft.tok.text, .digit⟩ } ft.tok.text.length c v
            rw [hsc]
            refine h2.record c ⟨ft.tok.text, .digit⟩ v (by rw [htok]; exact hF) d hv _ un ?_ sc
            intro u hu
            rcases hun u hu with h3 | h3
            · exact h2.unset u h3
            · rcases h2.parts c with h4 | ⟨v4, t4, _, h5, h6, _⟩
              · rw [h4.2] at h3; cases h3
              · rw [h5] at h3; cases h3; exact h6
          · split at hr
            · rename_i hd
              obtain ⟨c, d, v, hv, hsh⟩ := parseLetterToken_shape _ _ _ _ _ hr
              have htok : (⟨ft.tok.text, .letter⟩ : Tok) = ft.tok := by rw [← hd]
              rcases hsh with ⟨e2, e1⟩ | ⟨rfl, h0, e2, ao, e1⟩
              · dsimp only at e1 e2
                subst e1 e2
                obtain ⟨sc, hsc⟩ := saveResults_one { s2 with ctoks := s2.ctoks.set c ⟨ft.tok.text, .letter⟩ } ft.tok.text.length c v
                rw [hsc]
                exact h2.record c ⟨ft.tok.text, .letter⟩ v (by rw [htok]; exact hF) d hv s2.autoOrder s2.unset h2.unset sc
              · dsimp only at e1 e2
                subst e1 e2
                rw [saveResults_two]
                rcases h2.parts .month with ⟨h4, _⟩ | ⟨v4, t4, h5, h6, h7, _⟩
                · exfalso; apply h0; simp [Vals.get0, h4]
                · have hv4 : s2.vals.get0 .month = v4 := by simp [Vals.get0, h5]
                  obtain ⟨d4, hd4⟩ := h2.month t4 v4 h6 h5
                  refine ⟨?_, ?_, h2.unset⟩
                  · intro c'
                    unfold PartOK
                    dsimp only
                    rw [Vals.get_set, Vals.get_set, CToks.get_set, CToks.get_set, h6]
                    cases c' with
                    | day =>
                      right
                      exact ⟨v4, t4, by simp [hv4], by simp, h7, .swapped d4 hd4⟩
                    | month =>
                      right
                      exact ⟨v, ⟨ft.tok.text, .letter⟩, by simp, by simp, by rw [htok]; exact hF, .direct d hv⟩
                    | year => exact h2.parts .year
                    | weekday => exact h2.parts .weekday
                  · intro t' v' a b
                    simp only [CToks.set, Vals.set, Option.some.injEq] at a b
                    rw [← a, ← b]; exact ⟨d, hv⟩
            · simp only [Option.some.injEq, Prod.mk.injEq] at hr
              obtain ⟨e1, e2⟩ := hr
              subst e1 e2
              exact h2

theorem initLoop_inv {e : AEnv} {toks : List Tok} {fl : List FTok} {F : List Tok} :
    ∀ (r : List FTok) (i : Nat) (s s' : ASt), (∀ ft ∈ r, ft.tok ∈ F) → Inv e.fns F s →
      initLoop e toks fl i r s = .ok s' → Inv e.fns F s' := by
  intro r
  induction r with
  | nil => intro i s s' _ h hs; cases hs; exact h
  | cons ft r ih =>
    intro i s s' hF h hs
    rw [initLoop] at hs
    split at hs
    · cases hs
    · rename_i s2 h2
      exact ih (i + 1) s2 s' (fun x hx => hF x (by simp [hx])) (initStep_inv (hF ft (by simp)) h h2) hs

/-- The part of the invariant that survives the fallback on left-over tokens. -/
structure Found (f : Fns) (F : List Tok) (s : ASt) : Prop where
  parts : ∀ c, PartOK f F s c
  unset : ∀ t ∈ s.unset, t ∈ F

theorem fallback1_found {f : Fns} {F : List Tok} {s : ASt} (h : Found f F s) (c : Comp) :
    Found f F (fallback1 s c) := by
  unfold fallback1
  split
  · exact h
  · have gen : ∀ (l : List Tok) (s : ASt), (∀ t ∈ l, t ∈ F) → Found f F s →
        Found f F (l.foldl (fun s ut =>
          if ut.typ = .digit then
            { s with ctoks := s.ctoks.set c ut,
                     vals := s.vals.set c (if ut.text.all Char.isDigit then natOfDigits ut.text else 0) }
          else s) s) := by
      intro l
      induction l with
      | nil => intro s _ h; exact h
      | cons u l ih =>
        intro s hl h
        rw [List.foldl_cons]
        refine ih _ (fun t ht => hl t (by simp [ht])) ?_
        split
        · rename_i hu
          refine ⟨?_, h.unset⟩
          intro c'
          unfold PartOK
          dsimp only
          rw [Vals.get_set, CToks.get_set]
          by_cases hc : c = c'
          · subst hc
            right
            exact ⟨_, u, by simp, by simp, hl u (by simp), .leftover hu⟩
          · simp only [hc, if_false]
            exact h.parts c'
        · exact h
    exact gen s.unset s h.unset h

theorem mem_filterToks : ∀ (l : List Tok) (i : Nat), ∀ ft ∈ filterToks i l, ft.tok ∈ l ∧ ft.tok.typ ≠ .other := by
  intro l
  induction l with
  | nil => intro i ft h; simp [filterToks] at h
  | cons t r ih =>
    intro i ft h
    rw [filterToks] at h
    split at h
    · have := ih _ ft h; exact ⟨by simp [this.1], this.2⟩
    · rename_i hn
      rcases List.mem_cons.mp h with rfl | h
      · exact ⟨by simp, hn⟩
      · have := ih _ ft h; exact ⟨by simp [this.1], this.2⟩

/-- The words of a string: the digit and letter tokens. -/
def wordsOf (str : List Char) : List Tok :=
  (filterToks 0 (trimToks (tokenize (sanitizeSpaces str)))).map (·.tok)

/-- Every part `Init` reports comes from a word of the string. -/
theorem absInit_found {e : AEnv} {str : List Char} {s : ASt} (h : absInit e str = .ok s) :
    Found e.fns (wordsOf str) s := by
  unfold absInit at h
  dsimp only at h
  split at h
  · cases h
  · split at h
    · cases h
    · rename_i s1 h1
      cases h
      have inv := initLoop_inv (F := wordsOf str) _ 0 {} s1 (by
        intro ft hft
        unfold wordsOf
        exact List.mem_map_of_mem hft) (Inv.empty _ _) h1
      have f0 : Found e.fns (wordsOf str) s1 := ⟨inv.parts, inv.unset⟩
      exact fallback1_found (fallback1_found (fallback1_found f0 .day) .month) .year

theorem Found.isSome {f : Fns} {F : List Tok} {s : ASt} (h : Found f F s) (c : Comp) :
    (s.ctoks.get c).isSome = (s.vals.get c).isSome := by
  rcases h.parts c with ⟨h1, h2⟩ | ⟨v, t, h1, h2, _⟩ <;> rw [h1, h2] <;> rfl

end Verif.Lemmas
