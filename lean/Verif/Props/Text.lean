import Verif.Lemmas.Text
/-! # C12, C30: tokenizer and white space -/
set_option autoImplicit false
namespace Verif.Props
open Verif.Go Verif.Model Verif.Lemmas Verif.Spec

/-- The class a token type stands for. -/
def typeClass : TokType → CharClass
  | .digit => .digitOrColon
  | .letter => .asciiLetter
  | _ => .other

/-- **C12** the token texts joined together are the string. -/
theorem C12_lossless (s : List Char) : ((tokenize s).map (·.text)).flatten = s :=
  (tokenize_good_aux s.length s (Nat.le_refl _)).2

/-- Token `i` is a non-empty run of its class … -/
theorem goodToks_run : ∀ (l : List Tok), GoodToks l → ∀ t ∈ l, t.text ≠ [] ∧ Run t.typ t.text := by
  intro l
  induction l with
  | nil => intro _ t ht; simp at ht
  | cons a r ih =>
    intro h t ht
    cases r with
    | nil =>
      simp only [List.mem_cons, List.not_mem_nil, or_false] at ht
      rw [ht]; exact h
    | cons b r =>
      rcases List.mem_cons.mp ht with rfl | h'
      · exact ⟨h.1, h.2.1⟩
      · exact ih h.2.2.2 t h'

theorem typeClass_eq {c : Char} {k : TokType} (h : classOf c = k) : charClass c = typeClass k := by
  rw [charClass_eq, h]; cases k <;> rfl

/-- **C12** every token is a non-empty run of characters of the class its type names. -/
theorem C12_runs (s : List Char) (t : Tok) (ht : t ∈ tokenize s) :
    t.text ≠ [] ∧ t.typ ≠ .null ∧ ∀ c ∈ t.text, charClass c = typeClass t.typ := by
  have h := goodToks_run _ (tokenize_good_aux s.length s (Nat.le_refl _)).1 t ht
  refine ⟨h.1, ?_, fun c hc => typeClass_eq (h.2 c hc)⟩
  cases hx : t.text with
  | nil => exact absurd hx h.1
  | cons c cs =>
    have : classOf c = t.typ := h.2 c (by simp [hx])
    rw [← this]; unfold classOf; split
    · simp
    · split <;> simp

theorem goodToks_adj : ∀ (l : List Tok), GoodToks l → ∀ (pre post : List Tok) (a b : Tok),
    l = pre ++ a :: b :: post → a.typ ≠ b.typ := by
  intro l
  induction l with
  | nil => intro _ pre post a b h; simp at h
  | cons x r ih =>
    intro h pre post a b e
    cases pre with
    | nil =>
      simp only [List.nil_append, List.cons.injEq] at e
      obtain ⟨rfl, rfl⟩ := e
      exact h.2.2.1
    | cons p pre =>
      simp only [List.cons_append, List.cons.injEq] at e
      obtain ⟨rfl, e⟩ := e
      cases r with
      | nil => simp at e
      | cons y r => exact ih h.2.2.2 pre post a b e

/-- **C12** the runs are maximal: neighbouring tokens have different classes. -/
theorem C12_maximal (s : List Char) (pre post : List Tok) (a b : Tok)
    (h : tokenize s = pre ++ a :: b :: post) : typeClass a.typ ≠ typeClass b.typ := by
  have hne := goodToks_adj _ (tokenize_good_aux s.length s (Nat.le_refl _)).1 pre post a b h
  have ha := (C12_runs s a (by rw [h]; simp)).2.1
  have hb := (C12_runs s b (by rw [h]; simp)).2.1
  revert hne ha hb
  cases a.typ <;> cases b.typ <;> simp [typeClass]

example : tokenize "10:30PM, 5".toList =
    [⟨"10:30".toList, .digit⟩, ⟨"PM".toList, .letter⟩, ⟨", ".toList, .other⟩, ⟨"5".toList, .digit⟩] := by
  decide

/-- The words of a text: maximal runs of non-space characters, defined by what they are. -/
def IsWords (ws : List (List Char)) (s : List Char) : Prop :=
  (∀ w ∈ ws, w ≠ [] ∧ ∀ c ∈ w, isSpace c = false) ∧
  ∃ (gaps : List (List Char)) (last : List Char), gaps.length = ws.length ∧
    (∀ g ∈ gaps, ∀ c ∈ g, isSpace c = true) ∧ (∀ c ∈ last, isSpace c = true) ∧
    (∀ g ∈ gaps.tail, g ≠ []) ∧
    s = ((gaps.zip ws).map (fun p => p.1 ++ p.2)).flatten ++ last

theorem fieldsAux_isWords (s : List Char) : ∀ (cur : List Char), (∀ c ∈ cur, isSpace c = false) →
    ∃ (gaps : List (List Char)) (last : List Char), gaps.length = (fieldsAux s cur).length ∧
      (∀ g ∈ gaps, ∀ c ∈ g, isSpace c = true) ∧ (∀ c ∈ last, isSpace c = true) ∧
      (∀ g ∈ gaps.tail, g ≠ []) ∧ (cur ≠ [] → gaps.head? = some []) ∧
      cur.reverse ++ s = ((gaps.zip (fieldsAux s cur)).map (fun p => p.1 ++ p.2)).flatten ++ last := by
  induction s with
  | nil =>
    intro cur hcur
    cases cur with
    | nil => exact ⟨[], [], rfl, by simp, by simp, by simp, by simp, by simp [fieldsAux]⟩
    | cons c cs =>
      exact ⟨[[]], [], by simp [fieldsAux], by simp, by simp, by simp, by simp, by simp [fieldsAux]⟩
  | cons x xs ih =>
    intro cur hcur
    cases hx : isSpace x with
    | false =>
      obtain ⟨g, l, h1, h2, h3, h4, h5, h6⟩ := ih (x :: cur) (by
        intro c hc
        rcases List.mem_cons.mp hc with rfl | h
        · exact hx
        · exact hcur c h)
      have e : fieldsAux (x :: xs) cur = fieldsAux xs (x :: cur) := by rw [fieldsAux]; simp [hx]
      rw [e]
      exact ⟨g, l, h1, h2, h3, h4, fun _ => h5 (by simp), by rw [← h6]; simp⟩
    | true =>
      obtain ⟨g, l, h1, h2, h3, h4, _, h6⟩ := ih [] (by simp)
      -- put `x` in front of the first gap, or of the trailing space
      have key : ∃ (g' : List (List Char)) (l' : List Char), g'.length = (fieldsAux xs []).length ∧
          (∀ g ∈ g', ∀ c ∈ g, isSpace c = true) ∧ (∀ c ∈ l', isSpace c = true) ∧
          (∀ g ∈ g', g ≠ []) ∧
          x :: xs = ((g'.zip (fieldsAux xs [])).map (fun p => p.1 ++ p.2)).flatten ++ l' := by
        cases g with
        | nil =>
          refine ⟨[], x :: l, h1, by simp, ?_, by simp, ?_⟩
          · intro c hc
            rcases List.mem_cons.mp hc with rfl | h
            · exact hx
            · exact h3 c h
          · have : xs = _ := h6
            simp only [List.zip_nil_left, List.map_nil, List.flatten_nil, List.nil_append] at this ⊢
            rw [this]
        | cons g0 gs =>
          refine ⟨(x :: g0) :: gs, l, by simpa using h1, ?_, h3, ?_, ?_⟩
          · intro g hg c hc
            rcases List.mem_cons.mp hg with rfl | h
            · rcases List.mem_cons.mp hc with rfl | h
              · exact hx
              · exact h2 g0 (by simp) c h
            · exact h2 g (by simp [h]) c hc
          · intro g hg
            rcases List.mem_cons.mp hg with rfl | h
            · simp
            · exact h4 g h
          · have : xs = _ := h6
            cases hf : fieldsAux xs [] with
            | nil => rw [hf] at h1; simp at h1
            | cons w ws =>
              rw [hf] at this
              simp only [List.zip_cons_cons, List.map_cons, List.flatten_cons, List.cons_append] at this ⊢
              rw [this]
      obtain ⟨g', l', k1, k2, k3, k4, k5⟩ := key
      cases cur with
      | nil =>
        have e : fieldsAux (x :: xs) [] = fieldsAux xs [] := by rw [fieldsAux]; simp [hx]
        rw [e]
        exact ⟨g', l', k1, k2, k3, fun g hg => k4 g (List.mem_of_mem_tail hg), by simp, by simpa using k5⟩
      | cons c cs =>
        have e : fieldsAux (x :: xs) (c :: cs) = (c :: cs).reverse :: fieldsAux xs [] := by
          rw [fieldsAux]; simp [hx]
        rw [e]
        refine ⟨[] :: g', l', by simp [k1], ?_, k3, by simpa using k4, by simp, ?_⟩
        · intro g hg
          rcases List.mem_cons.mp hg with rfl | h
          · simp
          · exact k2 g h
        · simp only [List.zip_cons_cons, List.map_cons, List.flatten_cons, List.nil_append, List.append_assoc]
          rw [k5]

/-- **C30** sanitising: the result is the words of the text (without its non-breaking spaces) with
single spaces between, none at the ends. -/
theorem C30_words (s : List Char) :
    ∃ ws, IsWords ws (s.filter (fun c => c != '\u00a0')) ∧ sanitizeSpaces s = joinWith [' '] ws := by
  refine ⟨fields (s.filter (fun c => c != '\u00a0')), ⟨fields_words _, ?_⟩, rfl⟩
  obtain ⟨g, l, h1, h2, h3, h4, _, h6⟩ := fieldsAux_isWords (s.filter (fun c => c != '\u00a0')) [] (by simp)
  exact ⟨g, l, h1, h2, h3, h4, h6⟩

/-- **C30** words and their order are not changed by sanitising. -/
theorem C30_words_kept (s : List Char) :
    fields (sanitizeSpaces s) = fields (s.filter (fun c => c != '\u00a0')) :=
  fields_join _ (fields_words _)

theorem sanitize_no_nbsp (s : List Char) :
    (sanitizeSpaces s).filter (fun c => c != '\u00a0') = sanitizeSpaces s := by
  rw [List.filter_eq_self]
  intro c hc
  have gen : ∀ (ws : List (List Char)), (∀ w ∈ ws, ∀ x ∈ w, isSpace x = false) →
      c ∈ joinWith [' '] ws → c ≠ '\u00a0' := by
    intro ws
    induction ws with
    | nil => intro _ h; simp [joinWith] at h
    | cons w r ih =>
      intro hw h
      cases r with
      | nil =>
        rw [joinWith] at h
        rintro rfl
        exact absurd (hw w (by simp) _ h) (by decide)
      | cons w2 r =>
        rw [joinWith] at h
        simp only [List.append_assoc, List.mem_append, List.mem_cons, List.not_mem_nil, or_false] at h
        rcases h with h | h | h
        · rintro rfl
          exact absurd (hw w (by simp) _ h) (by decide)
        · rw [h]; decide
        · exact ih (fun v hv => hw v (by simp [hv])) h
  have := gen _ (fun w hw => (fields_words _ w hw).2) hc
  simpa using this

/-- **C30** doing it twice changes nothing more. -/
theorem C30_idempotent (s : List Char) : sanitizeSpaces (sanitizeSpaces s) = sanitizeSpaces s := by
  have h : sanitizeSpaces (sanitizeSpaces s) =
      joinWith [' '] (fields ((sanitizeSpaces s).filter (fun c => c != '\u00a0'))) := rfl
  rw [h, sanitize_no_nbsp, C30_words_kept]
  rfl

example : sanitizeSpaces " 12 \t May\n 2015 ".toList = "12 May 2015".toList := by decide

/-- Finding: non-breaking spaces are deleted, not replaced by a space as the code's comment says, so
the words on both sides are glued together. -/
theorem C30_nbsp_glues : sanitizeSpaces "1\u00a012\u00a02015".toList = "1122015".toList := by decide

end Verif.Props
