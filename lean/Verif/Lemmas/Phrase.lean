import Verif.Lemmas.PartValue
/-! Helper lemmas: the tokens of `word sep word sep …`. -/
set_option autoImplicit false
namespace Verif.Lemmas
open Verif.Go Verif.Model

/-- Two lists related element by element. -/
inductive All2 {α β : Type} (R : α → β → Prop) : List α → List β → Prop
  | nil : All2 R [] []
  | cons {a b l m} : R a b → All2 R l m → All2 R (a :: l) (b :: m)

/-- A word of one class. -/
structure Wd where
  text : List Char
  typ : TokType

/-- The word with separators and further words after it. -/
def phrase (a : Wd) : List (List Char × Wd) → List Char
  | [] => a.text
  | (s, b) :: r => a.text ++ (s ++ phrase b r)

/-- The tokens of a phrase. -/
def mkToks (a : Wd) : List (List Char × Wd) → List Tok
  | [] => [⟨a.text, a.typ⟩]
  | (s, b) :: r => ⟨a.text, a.typ⟩ :: ⟨s, .other⟩ :: mkToks b r

structure Wd.OK (a : Wd) : Prop where
  ne : a.text ≠ []
  run : Run a.typ a.text
  typ : a.typ ≠ .other

/-- A separator: class `other` throughout, not only non-breaking spaces. -/
structure SepOK (s : List Char) : Prop where
  run : Run .other s
  vis : ∃ c ∈ s, c ≠ '\u00a0'

theorem space_class {c : Char} (h : isSpace c = true) : classOf c = .other := by
  unfold isSpace at h
  simp only [Bool.or_eq_true, beq_iff_eq, Bool.and_eq_true, decide_eq_true_eq] at h
  rcases h with (((((((((((((((h|h)|h)|h)|h)|h)|h)|h)|h)|h)|h)|h)|h)|h)|h))
  all_goals first
    | (subst h; decide)
    | skip
  obtain ⟨h1, _⟩ := h
  have z : 8192 ≤ c.toNat := h1
  unfold classOf isDigitTok isLetterTok
  have n1 : ¬ c ≤ '9' := fun h => by have h' : c.toNat ≤ 57 := h; omega
  have n2 : ¬ c ≤ 'z' := fun h => by have h' : c.toNat ≤ 122 := h; omega
  have n3 : ¬ c ≤ 'Z' := fun h => by have h' : c.toNat ≤ 90 := h; omega
  have n4 : c ≠ ':' := by rintro rfl; exact absurd z (by decide)
  simp [n1, n2, n3, n4]

theorem Wd.OK.noSpace {a : Wd} (h : a.OK) : ∀ c ∈ a.text, isSpace c = false := by
  intro c hc
  cases hs : isSpace c with
  | false => rfl
  | true =>
    have := space_class hs
    rw [h.run c hc] at this
    exact absurd this h.typ

theorem Wd.OK.noNbsp {a : Wd} (h : a.OK) : a.text.filter (fun c => c != '\u00a0') = a.text := by
  rw [List.filter_eq_self]
  intro c hc
  have := h.noSpace c hc
  simp only [bne_iff_ne, ne_eq]
  rintro rfl
  exact absurd this (by decide)

/-- How a separator relates to the separator token. -/
structure SepRel (s t : List Char) : Prop where
  mem : ∀ c ∈ t, c ∈ s ∨ c = ' '
  dot : s = ['.'] → t = ['.']

/-- All words and separators of a phrase are fine. -/
def Parts (r : List (List Char × Wd)) : Prop := ∀ p ∈ r, SepOK p.1 ∧ p.2.OK

theorem phrase_cons (a : Wd) (ha : a.OK) (r) : ∃ c t, a.text = c :: t ∧ isSpace c = false ∧
    ∃ t', phrase a r = c :: t' := by
  cases h : a.text with
  | nil => exact absurd h ha.ne
  | cons c t =>
    refine ⟨c, t, rfl, ha.noSpace c (by simp [h]), ?_⟩
    cases r with
    | nil => exact ⟨t, by simp [phrase, h]⟩
    | cons p r => obtain ⟨s, b⟩ := p; exact ⟨_, by rw [phrase, h]; rfl⟩

/-- Remove the non-breaking spaces from the separators. -/
def nbspFree (r : List (List Char × Wd)) : List (List Char × Wd) :=
  r.map fun p => (p.1.filter (fun c => c != '\u00a0'), p.2)

theorem phrase_filter (r : List (List Char × Wd)) : ∀ (a : Wd), a.OK → Parts r →
    (phrase a r).filter (fun c => c != '\u00a0') = phrase a (nbspFree r) := by
  induction r with
  | nil => intro a ha _; exact ha.noNbsp
  | cons p r ih =>
    intro a ha hr
    obtain ⟨s, b⟩ := p
    have hb := (hr (s, b) (by simp)).2
    have := ih b hb (fun q hq => hr q (by simp [hq]))
    simp only [phrase, nbspFree, List.map_cons, List.filter_append, ha.noNbsp]
    rw [this]; rfl

/-- The white space normal form of a phrase is a phrase with the same words. -/
theorem phrase_inWord (r : List (List Char × Wd)) : ∀ (a : Wd), a.OK →
    (∀ p ∈ r, p.1 ≠ [] ∧ p.2.OK) →
    ∃ r', inWord (phrase a r) = phrase a r' ∧ r'.map (·.2) = r.map (·.2) ∧
      All2 (fun x y => SepRel x.1 y.1 ∧ y.1 ≠ []) r r' := by
  induction r with
  | nil => intro a ha _; exact ⟨[], inWord_self _ ha.noSpace, rfl, .nil⟩
  | cons p r ih =>
    intro a ha hr
    obtain ⟨s, b⟩ := p
    obtain ⟨hs, hb⟩ := hr (s, b) (by simp)
    obtain ⟨r', e, em, ef⟩ := ih b hb (fun q hq => hr q (by simp [hq]))
    obtain ⟨c, t, ec, hc, t', ept⟩ := phrase_cons b hb r
    have ein : c :: inWord t' = phrase b r' := by rw [← e, ept, inWord]; simp [hc]
    obtain ⟨⟨s', e1, m1, n1⟩, _⟩ := sep_aux c t' hc s
    by_cases hd : s = ['.']
    · refine ⟨(['.'], b) :: r', ?_, by simp [em], .cons ⟨⟨?_, fun _ => rfl⟩, by simp⟩ ef⟩
      · subst hd
        simp only [phrase, inWord_append _ _ ha.noSpace]
        rw [← ein, ept]
        simp [inWord, hc, show isSpace '.' = false by decide]
      · intro x hx; left; rw [hd]; exact hx
    · refine ⟨(s', b) :: r', ?_, by simp [em], .cons ⟨⟨m1, fun h => absurd h hd⟩, n1 hs⟩ ef⟩
      simp only [phrase, inWord_append _ _ ha.noSpace]
      rw [← ein, ept, e1]

theorem tokenize_phrase (r : List (List Char × Wd)) : ∀ (a : Wd), a.OK →
    (∀ p ∈ r, p.1 ≠ [] ∧ Run .other p.1 ∧ p.2.OK) → tokenize (phrase a r) = mkToks a r := by
  induction r with
  | nil => intro a ha _; exact tokenize_single _ _ ha.ne ha.run
  | cons p r ih =>
    intro a ha hr
    obtain ⟨s, b⟩ := p
    obtain ⟨hs, hsr, hb⟩ := hr (s, b) (by simp)
    have hs0 := hs
    dsimp only at hs hsr hb
    rw [phrase, mkToks]
    obtain ⟨c, t, ec, hc, t', ept⟩ := phrase_cons b hb r
    rw [tokenize_run a.typ a.text _ ha.ne ha.run, tokenize_run .other s _ hs hsr,
      ih b hb (fun q hq => hr q (by simp [hq]))]
    · right
      exact ⟨c, t', ept, by rw [hb.run c (by simp [ec])]; exact hb.typ⟩
    · right
      cases s with
      | nil => exact absurd rfl hs
      | cons x xs => exact ⟨x, xs ++ phrase b r, rfl, by rw [hsr x (by simp)]; exact ha.typ.symm⟩

theorem trimToks_mkToks (r : List (List Char × Wd)) : ∀ (a : Wd), a.OK → (∀ p ∈ r, p.2.OK) →
    trimToks (mkToks a r) = mkToks a (r.map fun p => (trimSpace p.1, p.2)) := by
  induction r with
  | nil => intro a ha _; simp [trimToks, mkToks, trimSpace_noSpace _ ha.noSpace]
  | cons p r ih =>
    intro a ha hr
    obtain ⟨s, b⟩ := p
    have := ih b (hr (s, b) (by simp)) (fun q hq => hr q (by simp [hq]))
    unfold trimToks at this ⊢
    simp [mkToks, trimSpace_noSpace _ ha.noSpace, this]

/-- The tokens the absolute parser works on. -/
theorem toks_phrase (a : Wd) (ha : a.OK) (r : List (List Char × Wd)) (hr : Parts r) :
    ∃ r', trimToks (tokenize (sanitizeSpaces (phrase a r))) = mkToks a r' ∧
      r'.map (·.2) = r.map (·.2) ∧ All2 (fun x y => SepRel x.1 y.1) r r' ∧
      (sanitizeSpaces (phrase a r)).isEmpty = false := by
  unfold sanitizeSpaces
  rw [phrase_filter r a ha hr]
  have hne : ∀ p ∈ nbspFree r, p.1 ≠ [] ∧ p.2.OK := by
    intro p hp
    obtain ⟨q, hq, rfl⟩ := List.mem_map.mp hp
    obtain ⟨⟨_, c, hc, hcn⟩, hok⟩ := hr q hq
    refine ⟨?_, hok⟩
    intro h0
    have : c ∈ q.1.filter (fun c => c != '\u00a0') := by simp [hc, hcn]
    dsimp only at h0
    rw [h0] at this
    simp at this
  obtain ⟨c, t, ec, hc, t', ept⟩ := phrase_cons a ha (nbspFree r)
  obtain ⟨r1, e1, em1, ef1⟩ := phrase_inWord (nbspFree r) a ha hne
  have ej : joinWith [' '] (fields (phrase a (nbspFree r))) = phrase a r1 := by
    rw [← e1, ept, join_fields_word c t' hc, inWord]; simp [hc]
  rw [ej]
  -- relation between r and r1
  have hrel : All2 (fun x y => SepRel x.1 y.1 ∧ y.1 ≠ [] ∧ Run .other y.1 ∧ y.2.OK) r r1 := by
    have gen : ∀ (r r1 : List (List Char × Wd)), Parts r → r1.map (·.2) = (nbspFree r).map (·.2) →
        All2 (fun x y => SepRel x.1 y.1 ∧ y.1 ≠ []) (nbspFree r) r1 →
        All2 (fun x y => SepRel x.1 y.1 ∧ y.1 ≠ [] ∧ Run .other y.1 ∧ y.2.OK) r r1 := by
      intro r
      induction r with
      | nil => intro r1 _ _ hf; cases hf; exact .nil
      | cons p r ih =>
        intro r1 hr hm hf
        cases hf with
        | cons h ht =>
          rename_i y r1
          simp only [nbspFree, List.map_cons, List.map_map, List.cons.injEq] at hm
          obtain ⟨hm1, hm2⟩ := hm
          have hp := hr p (by simp)
          refine .cons ⟨⟨?_, ?_⟩, h.2, ?_, ?_⟩ (ih r1 (fun q hq => hr q (by simp [hq])) ?_ ht)
          · intro x hx
            rcases h.1.mem x hx with h1 | h1
            · left; exact (List.mem_filter.mp h1).1
            · right; exact h1
          · intro hdot
            exact h.1.dot (by dsimp only; rw [hdot]; rfl)
          · intro x hx
            rcases h.1.mem x hx with h1 | h1
            · exact hp.1.run x (List.mem_filter.mp h1).1
            · rw [h1]; decide
          · rw [hm1]; exact hp.2
          · simpa [nbspFree] using hm2
    exact gen r r1 hr em1 ef1
  have hall : ∀ p ∈ r1, p.1 ≠ [] ∧ Run .other p.1 ∧ p.2.OK := by
    have gen : ∀ (r r1 : List (List Char × Wd)),
        All2 (fun x y => SepRel x.1 y.1 ∧ y.1 ≠ [] ∧ Run .other y.1 ∧ y.2.OK) r r1 →
        ∀ p ∈ r1, p.1 ≠ [] ∧ Run .other p.1 ∧ p.2.OK := by
      intro r r1 hf
      induction hf with
      | nil => simp
      | cons h _ ih =>
        intro p hp
        rcases List.mem_cons.mp hp with h1 | h1
        · rw [h1]; exact h.2
        · exact ih p h1
    exact gen r r1 hrel
  refine ⟨r1.map fun p => (trimSpace p.1, p.2), ?_, ?_, ?_, ?_⟩
  · rw [tokenize_phrase r1 a ha hall, trimToks_mkToks r1 a ha (fun p hp => (hall p hp).2.2)]
  · rw [List.map_map]
    have : r1.map (·.2) = (nbspFree r).map (·.2) := em1
    simp only [nbspFree, List.map_map] at this
    exact this
  · have gen : ∀ (r r1 : List (List Char × Wd)),
        All2 (fun x y => SepRel x.1 y.1 ∧ y.1 ≠ [] ∧ Run .other y.1 ∧ y.2.OK) r r1 →
        All2 (fun x y => SepRel x.1 y.1) r (r1.map fun p => (trimSpace p.1, p.2)) := by
      intro r r1 hf
      induction hf with
      | nil => exact .nil
      | cons h _ ih =>
        refine .cons ⟨fun c hc => h.1.mem c (mem_trimSpace hc), ?_⟩ ih
        intro hd; dsimp only; rw [h.1.dot hd]; decide
    exact gen r r1 hrel
  · obtain ⟨c, t, _, _, t', ept⟩ := phrase_cons a ha r1
    rw [ept]; rfl

end Verif.Lemmas
