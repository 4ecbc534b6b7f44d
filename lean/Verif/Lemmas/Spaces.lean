import Verif.Model.Strutil
/-! Helper lemmas on `fields`, `joinWith`, `sanitizeSpaces`, `trimSpace`. -/
set_option autoImplicit false
namespace Verif.Lemmas
open Verif.Go Verif.Model

mutual
/-- Normal form of the text that continues a word. -/
def inWord : List Char → List Char
  | [] => []
  | c :: cs => if isSpace c then afterSpace cs else c :: inWord cs
/-- Normal form of the text that follows a space after a word. -/
def afterSpace : List Char → List Char
  | [] => []
  | c :: cs => if isSpace c then afterSpace cs else ' ' :: c :: inWord cs
end

theorem fieldsAux_join : ∀ (s cur : List Char), cur ≠ [] →
    joinWith [' '] (fieldsAux s cur) = cur.reverse ++ inWord s ∧
    ∀ w, w ≠ [] → joinWith [' '] (w :: fieldsAux s []) = w ++ afterSpace s := by
  intro s
  induction s with
  | nil => intro cur h; simp [fieldsAux, h, joinWith, inWord, afterSpace]
  | cons c cs ih =>
    intro cur h
    constructor
    · rw [fieldsAux, inWord]
      split
      · have : cur.isEmpty = false := by cases cur <;> simp_all
        simp only [this, Bool.false_eq_true, if_false]
        exact (ih cur h).2 cur.reverse (by simpa using h)
      · rw [(ih (c :: cur) (by simp)).1]; simp
    · intro w hw
      rw [fieldsAux, afterSpace]
      split
      · simpa using (ih [c] (by simp)).2 w hw
      · have key := (ih [c] (by simp)).1
        cases hf : fieldsAux cs [c] with
        | nil =>
          exfalso
          have : ∀ (l cur : List Char), cur ≠ [] → fieldsAux l cur ≠ [] := by
            intro l
            induction l with
            | nil => intro cur h; cases cur <;> simp_all [fieldsAux]
            | cons x xs ihx =>
              intro cur h
              rw [fieldsAux]
              split
              · cases cur <;> simp_all
              · exact ihx _ (by simp)
          exact this cs [c] (by simp) hf
        | cons x xs =>
          rw [hf] at key
          rw [joinWith, key]
          simp

/-- A word at the start of a string. -/
theorem join_fields_word (c : Char) (s : List Char) (hc : isSpace c = false) :
    joinWith [' '] (fields (c :: s)) = c :: inWord s := by
  unfold fields
  rw [fieldsAux]
  simp only [hc, Bool.false_eq_true, if_false]
  rw [(fieldsAux_join s [c] (by simp)).1]; simp

theorem inWord_append (a s : List Char) (h : ∀ c ∈ a, isSpace c = false) :
    inWord (a ++ s) = a ++ inWord s := by
  induction a with
  | nil => rfl
  | cons c cs ih =>
    rw [List.cons_append, inWord, h c (by simp)]
    simp [ih (fun d hd => h d (by simp [hd]))]

/-- A separator between a word and a non-space character: what remains of it. -/
theorem sep_aux (d : Char) (r : List Char) (hd : isSpace d = false) : ∀ sep : List Char,
    (∃ sep', inWord (sep ++ d :: r) = sep' ++ d :: inWord r ∧ (∀ c ∈ sep', c ∈ sep ∨ c = ' ') ∧
      (sep ≠ [] → sep' ≠ [])) ∧
    (∃ sep', afterSpace (sep ++ d :: r) = sep' ++ d :: inWord r ∧ (∀ c ∈ sep', c ∈ sep ∨ c = ' ') ∧
      sep' ≠ []) := by
  intro sep
  induction sep with
  | nil =>
    constructor
    · exact ⟨[], by simp [inWord, hd], by simp, by simp⟩
    · exact ⟨[' '], by simp [afterSpace, hd], by simp, by simp⟩
  | cons c cs ih =>
    obtain ⟨⟨s1, e1, m1, n1⟩, ⟨s2, e2, m2, n2⟩⟩ := ih
    cases hc : isSpace c
    · constructor
      · refine ⟨c :: s1, by simp [inWord, hc, e1], ?_, by simp⟩
        intro x hx
        rcases List.mem_cons.mp hx with h | h
        · left; simp [h]
        · rcases m1 x h with h | h
          · left; simp [h]
          · right; exact h
      · refine ⟨' ' :: c :: s1, by simp [afterSpace, hc, e1], ?_, by simp⟩
        intro x hx
        rcases List.mem_cons.mp hx with h | h
        · right; exact h
        · rcases List.mem_cons.mp h with h | h
          · left; simp [h]
          · rcases m1 x h with h | h
            · left; simp [h]
            · right; exact h
    · constructor
      · refine ⟨s2, by simp [inWord, hc, e2], ?_, fun _ => n2⟩
        intro x hx
        rcases m2 x hx with h | h
        · left; simp [h]
        · right; exact h
      · refine ⟨s2, by simp [afterSpace, hc, e2], ?_, n2⟩
        intro x hx
        rcases m2 x hx with h | h
        · left; simp [h]
        · right; exact h

/-- Trailing characters that are not spaces are kept. -/
theorem inWord_self (a : List Char) (h : ∀ c ∈ a, isSpace c = false) : inWord a = a := by
  have := inWord_append a [] h
  simpa [inWord] using this

/-! ### Words -/

/-- A word: non-empty without white space. -/
def Word (w : List Char) : Prop := w ≠ [] ∧ ∀ c ∈ w, isSpace c = false

theorem fieldsAux_words : ∀ (s cur : List Char), (∀ c ∈ cur, isSpace c = false) →
    ∀ w ∈ fieldsAux s cur, Word w := by
  intro s
  induction s with
  | nil =>
    intro cur h w hw
    cases cur with
    | nil => simp [fieldsAux] at hw
    | cons c cs =>
      simp only [fieldsAux, List.isEmpty_cons, Bool.false_eq_true, if_false, List.mem_singleton] at hw
      subst hw
      exact ⟨by simp, by intro d hd; exact h d (List.mem_reverse.mp hd)⟩
  | cons c cs ih =>
    intro cur h w hw
    rw [fieldsAux] at hw
    split at hw
    · cases cur with
      | nil => simp only [List.isEmpty_nil, if_true] at hw; exact ih [] (by simp) w hw
      | cons x xs =>
        simp only [List.isEmpty_cons, Bool.false_eq_true, if_false, List.mem_cons] at hw
        rcases hw with hw | hw
        · subst hw
          exact ⟨by simp, by intro d hd; exact h d (List.mem_reverse.mp hd)⟩
        · exact ih [] (by simp) w hw
    · rename_i hc
      refine ih (c :: cur) ?_ w hw
      intro d hd
      rcases List.mem_cons.mp hd with hd | hd
      · rw [hd]; simpa using hc
      · exact h d hd

theorem fields_words (s : List Char) : ∀ w ∈ fields s, Word w := fieldsAux_words s [] (by simp)

theorem fieldsAux_word_append (w : List Char) : ∀ (rest cur : List Char),
    (∀ c ∈ w, isSpace c = false) → fieldsAux (w ++ rest) cur = fieldsAux rest (w.reverse ++ cur) := by
  induction w with
  | nil => intro rest cur _; rfl
  | cons c cs ih =>
    intro rest cur h
    rw [List.cons_append, fieldsAux, h c (by simp)]
    simp only [Bool.false_eq_true, if_false]
    rw [ih rest (c :: cur) (fun d hd => h d (by simp [hd]))]
    simp

/-- Splitting joined words gives the words. -/
theorem fields_join (ws : List (List Char)) (h : ∀ w ∈ ws, Word w) :
    fields (joinWith [' '] ws) = ws := by
  induction ws with
  | nil => rfl
  | cons w r ih =>
    have hw := h w (by simp)
    cases r with
    | nil =>
      unfold joinWith fields
      have := fieldsAux_word_append w [] [] hw.2
      rw [List.append_nil] at this
      rw [this]
      simp [fieldsAux, hw.1]
    | cons x xs =>
      unfold joinWith fields
      rw [List.append_assoc, fieldsAux_word_append w _ [] hw.2]
      have hs : isSpace ' ' = true := by decide
      simp only [List.append_nil, List.singleton_append, fieldsAux, hs, if_true]
      have he : w.reverse.isEmpty = false := by
        have := hw.1; cases w <;> simp_all
      rw [he]
      simp only [Bool.false_eq_true, if_false, List.reverse_reverse]
      have := ih (fun v hv => h v (by simp [hv]))
      unfold fields at this
      rw [this]

theorem dropWhile_noSpace (s : List Char) (h : ∀ c ∈ s, isSpace c = false) :
    s.dropWhile isSpace = s := by
  cases s with
  | nil => rfl
  | cons c cs => simp [h c (by simp)]

theorem trimSpace_noSpace (s : List Char) (h : ∀ c ∈ s, isSpace c = false) : trimSpace s = s := by
  unfold trimSpace
  rw [dropWhile_noSpace s h, dropWhile_noSpace s.reverse (fun c hc => h c (List.mem_reverse.mp hc)),
    List.reverse_reverse]

theorem mem_trimSpace {c : Char} {s : List Char} (h : c ∈ trimSpace s) : c ∈ s := by
  unfold trimSpace at h
  have h1 := List.mem_reverse.mp h
  have h2 := (List.dropWhile_sublist _).subset h1
  exact (List.dropWhile_sublist _).subset (List.mem_reverse.mp h2)

end Verif.Lemmas
