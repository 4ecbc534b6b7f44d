import Verif.Lemmas.Text
/-! Helper lemmas: `Init` on strings without a time of day. -/
set_option autoImplicit false
namespace Verif.Lemmas
open Verif.Go Verif.Model Verif.Spec

/-- One token that does not start a time. -/
def valueStep (e : AEnv) (i : Nat) (t : Tok) (s : ASt) : Option ASt :=
  (if t.typ = .digit then parseDigitToken e s t.text (numberDirectives e.cfg.dateOrder)
   else if t.typ = .letter then parseLetterToken e s t.text (alphaDirectives (e.monthFirst i))
   else some (s, [])).map fun p => saveResults p.1 t.text.length p.2

def valueSteps (e : AEnv) : Nat → List Tok → ASt → Option ASt
  | _, [], s => some s
  | i, t :: r, s => (valueStep e i t s).bind (valueSteps e (i + 1) r)

theorem digitDirLoop_skipped (e : AEnv) (s : ASt) (c : Comp) (text : List Char) :
    ∀ (ds : List Dir) (p : ASt × List (Comp × Int)), digitDirLoop e s c text ds = some p →
      p.1.skippedIdx = s.skippedIdx := by
  intro ds
  induction ds with
  | nil => intro p h; simp [digitDirLoop] at h
  | cons d ds ih =>
    intro p h
    rw [digitDirLoop] at h
    split at h
    · exact ih p h
    · split at h
      · simp only [Option.some.injEq] at h; rw [← h]; rfl
      · split at h
        · split at h
          · split at h
            · simp only [Option.some.injEq] at h; rw [← h]; rfl
            · exact ih p h
          · exact ih p h
        · exact ih p h

theorem parseDigitToken_skipped (e : AEnv) (s : ASt) (text : List Char) :
    ∀ (cs : List (Comp × List Dir)) (p : ASt × List (Comp × Int)),
      parseDigitToken e s text cs = some p → p.1.skippedIdx = s.skippedIdx := by
  intro cs
  induction cs with
  | nil => intro p h; simp [parseDigitToken] at h
  | cons c cs ih =>
    intro p h
    rw [parseDigitToken] at h
    split at h
    · exact ih p h
    · split at h
      · rename_i x hx
        simp only [Option.some.injEq] at h
        rw [← h]; exact digitDirLoop_skipped _ _ _ _ _ _ hx
      · exact ih p h

theorem letterDirLoop_skipped (e : AEnv) (s : ASt) (c : Comp) (text : List Char) :
    ∀ (ds : List Dir) (p : ASt × List (Comp × Int)), letterDirLoop e s c text ds = some p →
      p.1.skippedIdx = s.skippedIdx := by
  intro ds
  induction ds with
  | nil => intro p h; simp [letterDirLoop] at h
  | cons d ds ih =>
    intro p h
    rw [letterDirLoop] at h
    split at h
    · exact ih p h
    · split at h
      · simp only [Option.some.injEq] at h; rw [← h]; rfl
      · split at h
        · split at h
          · exact ih p h
          · simp only [Option.some.injEq] at h; rw [← h]
        · exact ih p h

theorem parseLetterToken_skipped (e : AEnv) (s : ASt) (text : List Char) :
    ∀ (cs : List (Comp × List Dir)) (p : ASt × List (Comp × Int)),
      parseLetterToken e s text cs = some p → p.1.skippedIdx = s.skippedIdx := by
  intro cs
  induction cs with
  | nil => intro p h; simp [parseLetterToken] at h
  | cons c cs ih =>
    intro p h
    rw [parseLetterToken] at h
    split at h
    · exact ih p h
    · split at h
      · rename_i x hx
        simp only [Option.some.injEq] at h
        rw [← h]; exact letterDirLoop_skipped _ _ _ _ _ _ hx
      · exact ih p h

theorem saveResults_skipped (len : Nat) : ∀ (r : List (Comp × Int)) (s : ASt),
    (saveResults s len r).skippedIdx = s.skippedIdx := by
  intro r
  induction r with
  | nil => intro s; rfl
  | cons p r ih =>
    intro s
    obtain ⟨c, v⟩ := p
    rw [saveResults, ih]
    dsimp only
    split <;> rfl

theorem valueStep_skipped {e : AEnv} {i : Nat} {t : Tok} {s s' : ASt} (h : valueStep e i t s = some s') :
    s'.skippedIdx = s.skippedIdx := by
  unfold valueStep at h
  rw [Option.map_eq_some_iff] at h
  obtain ⟨p, hp, rfl⟩ := h
  rw [saveResults_skipped]
  split at hp
  · exact parseDigitToken_skipped _ _ _ _ _ hp
  · split at hp
    · exact parseLetterToken_skipped _ _ _ _ _ hp
    · simp only [Option.some.injEq] at hp; rw [← hp]

theorem initLoop_values (e : AEnv) (toks : List Tok) (fl : List FTok)
    (hcap : ∀ i ft, fl[i]? = some ft → captureTime toks fl i ft [] = (none, []))
    (hsk : ∀ ft ∈ fl, skippedTokens.contains ft.tok.text = false) :
    ∀ (r : List FTok) (i : Nat) (s : ASt), s.skippedIdx = [] → fl.drop i = r →
      initLoop e toks fl i r s =
        (match valueSteps e i (r.map (·.tok)) s with
         | none => .error .error
         | some s' => .ok s') := by
  intro r
  induction r with
  | nil => intro i s _ _; rfl
  | cons ft r ih =>
    intro i s hs hd
    have hget : fl[i]? = some ft := by
      have := congrArg (fun l => l[0]?) hd
      simpa using this
    have hmem : ft ∈ fl := List.mem_of_getElem? hget
    have hstep : initStep e toks fl i ft s =
        match valueStep e i ft.tok s with
        | none => .error .error
        | some s' => .ok s' := by
      unfold initStep valueStep
      rw [hs]
      have : ([] : List Nat).contains i = false := rfl
      rw [this, hsk ft hmem, hcap i ft hget]
      have hse : ({ s with skippedIdx := [] } : ASt) = s := by rw [← hs]
      simp only [Bool.false_eq_true, if_false, hse]
      generalize (if ft.tok.typ = TokType.digit then
        parseDigitToken e s ft.tok.text (numberDirectives e.cfg.dateOrder)
        else if ft.tok.typ = TokType.letter then
          parseLetterToken e s ft.tok.text (alphaDirectives (e.monthFirst i))
        else some (s, [])) = o
      cases o <;> rfl
    rw [initLoop, hstep, List.map_cons, valueSteps]
    cases hv : valueStep e i ft.tok s with
    | none => rfl
    | some s' =>
      simp only [Option.bind_some]
      refine ih (i + 1) s' (by rw [valueStep_skipped hv, hs]) ?_
      rw [← List.drop_drop, hd]; rfl

/-- `Init` on three words none of which belongs to a time. -/
theorem absInit_three (e : AEnv) (a b c : Wd) (s1 s2 : List Char) (ha : a.OK) (hb : b.OK) (hc : c.OK)
    (h1 : SepOK s1) (h2 : SepOK s2)
    (hcap : ∀ t1 t2, SepRel s1 t1 → SepRel s2 t2 →
      let toks := mkToks a [(t1, b), (t2, c)]
      let fl : List FTok := [⟨⟨a.text, a.typ⟩, 0⟩, ⟨⟨b.text, b.typ⟩, 2⟩, ⟨⟨c.text, c.typ⟩, 4⟩]
      ∀ i (ft : FTok), fl[i]? = some ft → captureTime toks fl i ft [] = (none, []))
    (hsk : skippedTokens.contains a.text = false ∧ skippedTokens.contains b.text = false ∧
      skippedTokens.contains c.text = false) (str : List Char)
    (hstr : str = a.text ++ s1 ++ b.text ++ s2 ++ c.text) :
    absInit e str =
      match valueSteps e 0 [⟨a.text, a.typ⟩, ⟨b.text, b.typ⟩, ⟨c.text, c.typ⟩] {} with
      | none => .error .error
      | some s => .ok (fallbacks s) := by
  have hp : Parts [(s1, b), (s2, c)] := by
    intro p hp
    simp only [List.mem_cons, List.not_mem_nil, or_false] at hp
    rcases hp with rfl | rfl
    · exact ⟨h1, hb⟩
    · exact ⟨h2, hc⟩
  obtain ⟨r', e1, em, ef, ene⟩ := toks_phrase a ha _ hp
  have hphrase : phrase a [(s1, b), (s2, c)] = str := by rw [hstr]; simp [phrase]
  rw [hphrase] at e1 ene
  cases ef with
  | cons hr1 ef =>
    cases ef with
    | cons hr2 ef =>
      cases ef
      rename_i p1 p2
      obtain ⟨t1, b'⟩ := p1
      obtain ⟨t2, c'⟩ := p2
      simp only [List.map_cons, List.map_nil, List.cons.injEq, and_true] at em
      obtain ⟨rfl, rfl⟩ := em
      unfold absInit
      simp only [ene, e1, Bool.false_eq_true, if_false]
      rw [mkToks_filter3 _ _ _ _ _ ha.typ hb.typ hc.typ]
      rw [initLoop_values e _ _ (hcap t1 t2 hr1 hr2) ?_ _ 0 {} rfl List.drop_zero]
      · simp only [List.map_cons, List.map_nil]
        cases valueSteps e 0 [⟨a.text, a.typ⟩, ⟨b'.text, b'.typ⟩, ⟨c'.text, c'.typ⟩] {} <;> rfl
      · intro ft hft
        simp only [List.mem_cons, List.not_mem_nil, or_false] at hft
        rcases hft with rfl | rfl | rfl
        · exact hsk.1
        · exact hsk.2.1
        · exact hsk.2.2

/-- `Init` on two words none of which belongs to a time. -/
theorem absInit_two (e : AEnv) (a b : Wd) (s1 : List Char) (ha : a.OK) (hb : b.OK)
    (h1 : SepOK s1)
    (hcap : ∀ t1, SepRel s1 t1 →
      let toks := mkToks a [(t1, b)]
      let fl : List FTok := [⟨⟨a.text, a.typ⟩, 0⟩, ⟨⟨b.text, b.typ⟩, 2⟩]
      ∀ i (ft : FTok), fl[i]? = some ft → captureTime toks fl i ft [] = (none, []))
    (hsk : skippedTokens.contains a.text = false ∧ skippedTokens.contains b.text = false) (str : List Char)
    (hstr : str = a.text ++ s1 ++ b.text) :
    absInit e str =
      match valueSteps e 0 [⟨a.text, a.typ⟩, ⟨b.text, b.typ⟩] {} with
      | none => .error .error
      | some s => .ok (fallbacks s) := by
  have hp : Parts [(s1, b)] := by
    intro p hp
    simp only [List.mem_cons, List.not_mem_nil, or_false] at hp
    rcases hp with rfl
    exact ⟨h1, hb⟩
  obtain ⟨r', e1, em, ef, ene⟩ := toks_phrase a ha _ hp
  have hphrase : phrase a [(s1, b)] = str := by rw [hstr]; simp [phrase]
  rw [hphrase] at e1 ene
  cases ef with
  | cons hr1 ef =>
    cases ef
    rename_i p1
    obtain ⟨t1, b'⟩ := p1
    simp only [List.map_cons, List.map_nil, List.cons.injEq, and_true] at em
    subst em
    unfold absInit
    simp only [ene, e1, Bool.false_eq_true, if_false]
    have hfl : filterToks 0 (mkToks a [(t1, b')]) = [⟨⟨a.text, a.typ⟩, 0⟩, ⟨⟨b'.text, b'.typ⟩, 2⟩] := by
      simp [mkToks, filterToks, ha.typ, hb.typ]
    rw [hfl]
    rw [initLoop_values e _ _ (hcap t1 hr1) ?_ _ 0 {} rfl List.drop_zero]
    · simp only [List.map_cons, List.map_nil]
      cases valueSteps e 0 [⟨a.text, a.typ⟩, ⟨b'.text, b'.typ⟩] {} <;> rfl
    · intro ft hft
      simp only [List.mem_cons, List.not_mem_nil, or_false] at hft
      rcases hft with rfl | rfl
      · exact hsk.1
      · exact hsk.2

/-- `Init` on one word. -/
theorem absInit_one (e : AEnv) (a : Wd) (ha : a.OK) (hcol : a.text.contains ':' = false)
    (hsk : skippedTokens.contains a.text = false) :
    absInit e a.text =
      match valueStep e 0 ⟨a.text, a.typ⟩ {} with
      | none => .error .error
      | some s => .ok (fallbacks s) := by
  obtain ⟨r', e1, em, ef, ene⟩ := toks_phrase a ha [] (by intro p hp; simp at hp)
  cases ef
  simp only [phrase] at e1 ene
  unfold absInit
  have hf : filterToks 0 (mkToks a []) = [⟨⟨a.text, a.typ⟩, 0⟩] := by
    simp [mkToks, filterToks, ha.typ]
  simp only [ene, e1, Bool.false_eq_true, if_false, hf]
  rw [initLoop_values e _ _ ?_ ?_ _ 0 {} rfl List.drop_zero]
  · simp only [List.map_cons, List.map_nil, valueSteps]
    cases valueStep e 0 ⟨a.text, a.typ⟩ {} <;> rfl
  · intro i ft hft
    cases i with
    | zero =>
      simp only [List.getElem?_cons_zero, Option.some.injEq] at hft
      subst hft
      apply captureTime_none
      · exact hcol
      · right; left; intro n hn; simp at hn
      · intro n hn; simp at hn
    | succ i => simp at hft
  · intro ft hft
    simp only [List.mem_cons, List.not_mem_nil, or_false] at hft
    rw [hft]; exact hsk

end Verif.Lemmas
