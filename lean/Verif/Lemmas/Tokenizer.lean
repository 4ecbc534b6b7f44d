import Verif.Model.Absolute
/-! Helper lemmas on the tokenizer. -/
set_option autoImplicit false
namespace Verif.Lemmas
open Verif.Go Verif.Model

/-- Class of a character, as used by the specification of the tokenizer. -/
def classOf (c : Char) : TokType :=
  if isDigitTok c then .digit else if isLetterTok c then .letter else .other

theorem compareChars_fst (a b : Char) : (compareChars a b).1 = classOf a := by
  unfold compareChars classOf; split
  · rfl
  · split <;> rfl

theorem not_digit_and_letter (c : Char) : ¬ (isDigitTok c = true ∧ isLetterTok c = true) := by
  unfold isDigitTok isLetterTok
  simp only [Bool.or_eq_true, Bool.and_eq_true, decide_eq_true_eq, beq_iff_eq, not_and]
  intro h h2
  have h0 : c ≤ ':' := by
    rcases h with ⟨_, h⟩ | h
    · exact Char.le_trans h (by decide)
    · rw [h]; exact Char.le_refl _
  rcases h2 with ⟨h2, _⟩ | ⟨h2, _⟩
  · exact absurd (Char.le_trans h2 h0) (by decide)
  · exact absurd (Char.le_trans h2 h0) (by decide)

theorem compareChars_snd (a b : Char) : (compareChars a b).2 = true ↔ classOf a ≠ classOf b := by
  have ha := not_digit_and_letter a
  have hb := not_digit_and_letter b
  unfold compareChars classOf
  cases h1 : isDigitTok a <;> cases h2 : isLetterTok a <;> cases h3 : isDigitTok b <;>
    cases h4 : isLetterTok b <;> simp_all

/-- A run of one class. -/
def Run (k : TokType) (s : List Char) : Prop := ∀ c ∈ s, classOf c = k

theorem tokLoop_run (k : TokType) : ∀ (s : List Char) (first prev : Char) (text rest : List Char),
    classOf first = k → classOf prev = k → Run k s →
    (rest = [] ∨ ∃ c r, rest = c :: r ∧ classOf c ≠ k) →
    tokLoop first prev text (s ++ rest) = ⟨text.reverse ++ s, k⟩ :: tokenize rest := by
  intro s
  induction s with
  | nil =>
    intro first prev text rest h1 h2 _ h3
    rcases h3 with h3 | ⟨c, r, h3, h4⟩
    · subst h3; simp [tokLoop, tokenize, compareChars_fst, h1]
    · subst h3
      have : (compareChars prev c).2 = true := by
        rw [compareChars_snd, h2]; exact fun e => h4 e.symm
      simp [tokLoop, tokenize, this, compareChars_fst, h2]
  | cons c cs ih =>
    intro first prev text rest h1 h2 hr h3
    have hc : classOf c = k := hr c (by simp)
    have : ¬ (compareChars prev c).2 = true := by
      rw [compareChars_snd, h2, hc]; simp
    rw [List.cons_append, tokLoop]
    simp only [this]
    rw [ih first c (c :: text) rest h1 hc (fun d hd => hr d (by simp [hd])) h3]
    simp

/-- A maximal run at the start of a string becomes the first token. -/
theorem tokenize_run (k : TokType) (s rest : List Char) (hs : s ≠ []) (hr : Run k s)
    (h3 : rest = [] ∨ ∃ c r, rest = c :: r ∧ classOf c ≠ k) :
    tokenize (s ++ rest) = ⟨s, k⟩ :: tokenize rest := by
  cases s with
  | nil => exact absurd rfl hs
  | cons c cs =>
    have hc : classOf c = k := hr c (by simp)
    rw [List.cons_append, tokenize,
      tokLoop_run k cs c c [c] rest hc hc (fun d hd => hr d (by simp [hd])) h3]
    simp

theorem tokenize_single (k : TokType) (s : List Char) (hs : s ≠ []) (hr : Run k s) :
    tokenize s = [⟨s, k⟩] := by
  have := tokenize_run k s [] hs hr (Or.inl rfl)
  simpa [tokenize] using this

/-! ### The general description of `tokenize` -/

/-- What a correct token list for a string is: non-empty runs of one class, neighbouring tokens of
different classes. -/
def GoodToks : List Tok → Prop
  | [] => True
  | [t] => t.text ≠ [] ∧ Run t.typ t.text
  | t :: u :: r => t.text ≠ [] ∧ Run t.typ t.text ∧ t.typ ≠ u.typ ∧ GoodToks (u :: r)

/-- Every string starts with a maximal run. -/
theorem exists_run (c : Char) (cs : List Char) :
    ∃ s rest, c :: cs = s ++ rest ∧ s ≠ [] ∧ Run (classOf c) s ∧
      (rest = [] ∨ ∃ d r, rest = d :: r ∧ classOf d ≠ classOf c) ∧ rest.length < (c :: cs).length := by
  induction cs generalizing c with
  | nil => exact ⟨[c], [], by simp, by simp, by intro d hd; simp at hd; rw [hd], Or.inl rfl, by simp⟩
  | cons d ds ih =>
    by_cases h : classOf d = classOf c
    · obtain ⟨s, rest, e, h1, h2, h3, h4⟩ := ih d
      refine ⟨c :: s, rest, by rw [List.cons_append, ← e], by simp, ?_, ?_, ?_⟩
      · intro x hx
        rcases List.mem_cons.mp hx with hx | hx
        · rw [hx]
        · rw [h2 x hx, h]
      · rw [← h]; exact h3
      · simp only [List.length_cons] at h4 ⊢; omega
    · exact ⟨[c], d :: ds, by simp, by simp, by intro x hx; simp at hx; rw [hx],
        Or.inr ⟨d, ds, rfl, h⟩, by simp⟩

theorem tokenize_head_typ (c : Char) (cs : List Char) :
    ∃ t r, tokenize (c :: cs) = t :: r ∧ t.typ = classOf c := by
  obtain ⟨s, rest, e, h1, h2, h3, _⟩ := exists_run c cs
  rw [e, tokenize_run _ s rest h1 h2 h3]
  exact ⟨_, _, rfl, rfl⟩

theorem tokenize_good_aux : ∀ (n : Nat) (s : List Char), s.length ≤ n →
    GoodToks (tokenize s) ∧ ((tokenize s).map (·.text)).flatten = s := by
  intro n
  induction n with
  | zero =>
    intro s h
    have : s = [] := List.length_eq_zero_iff.mp (by omega)
    subst this; simp [tokenize, GoodToks]
  | succ n ih =>
    intro s h
    cases s with
    | nil => simp [tokenize, GoodToks]
    | cons c cs =>
      obtain ⟨s, rest, e, h1, h2, h3, h4⟩ := exists_run c cs
      rw [e, tokenize_run _ s rest h1 h2 h3]
      have hl : rest.length ≤ n := by simp only [List.length_cons] at h4 h; omega
      obtain ⟨g1, g2⟩ := ih rest hl
      refine ⟨?_, by simp [g2]⟩
      rcases h3 with h3 | ⟨d, r, h3, h5⟩
      · subst h3; exact ⟨h1, h2⟩
      · subst h3
        obtain ⟨t, r', e', ht⟩ := tokenize_head_typ d r
        rw [e'] at g1 ⊢
        exact ⟨h1, h2, by rw [ht]; exact fun x => h5 x.symm, g1⟩

end Verif.Lemmas
