import Verif.Lemmas.Spaces
import Verif.Model.Language
/-! # Words of a text -/
set_option autoImplicit false
namespace Verif.Lemmas
open Verif.Go Verif.Model

/-- Whether a text begins with a character that is not white space. -/
def startsWord : List Char → Bool
  | [] => false
  | c :: _ => !isSpace c

/-- A word continued by a text. -/
def glueWith (p : List Char) : Bool → List (List Char) → List (List Char)
  | true, w :: r => (p ++ w) :: r
  | true, [] => [p]
  | false, l => p :: l
def glue (p s : List Char) : List (List Char) := glueWith p (startsWord s) (fields s)

theorem fields_space {c : Char} (s : List Char) (h : isSpace c = true) : fields (c :: s) = fields s := by
  simp [fields, fieldsAux, h]

theorem fieldsAux_glue : ∀ (s cur : List Char), cur ≠ [] → fieldsAux s cur = glue cur.reverse s := by
  intro s
  induction s with
  | nil =>
    intro cur h
    have he : cur.isEmpty = false := by simpa using h
    simp [fieldsAux, glue, glueWith, startsWord, fields, he]
  | cons c cs ih =>
    intro cur h
    have he : cur.isEmpty = false := by simpa using h
    cases hc : isSpace c with
    | true =>
      have hf := fields_space cs hc
      rw [glue, hf]
      simp [fieldsAux, hc, he, glueWith, startsWord, fields]
    | false =>
      have hf : fields (c :: cs) = glue [c] cs := by
        have := ih [c] (by simp)
        simpa [fields, fieldsAux, hc] using this
      have h1 : fieldsAux (c :: cs) cur = glue (cur.reverse ++ [c]) cs := by
        have := ih (c :: cur) (by simp)
        simpa [fieldsAux, hc] using this
      rw [h1]
      unfold glue
      rw [hf]
      have : startsWord (c :: cs) = true := by simp [startsWord, hc]
      rw [this]
      unfold glue
      cases startsWord cs <;> cases fields cs <;> simp [glueWith]

theorem fields_cons {c : Char} (s : List Char) (h : isSpace c = false) : fields (c :: s) = glue [c] s := by
  have := fieldsAux_glue s [c] (by simp)
  simpa [fields, fieldsAux, h] using this

theorem startsWord_ne {s : List Char} (h : startsWord s = true) : fields s ≠ [] := by
  cases s with
  | nil => simp [startsWord] at h
  | cons c s =>
    have hc : isSpace c = false := by simpa [startsWord] using h
    rw [fields_cons s hc]
    unfold glue
    cases startsWord s <;> cases fields s <;> simp [glueWith]

theorem fieldsAux_append {b : List Char} (hb : startsWord b = false) : ∀ (a cur : List Char),
    fieldsAux (a ++ b) cur = fieldsAux a cur ++ fields b := by
  intro a
  induction a with
  | nil =>
    intro cur
    by_cases hc : cur = []
    · subst hc; rfl
    · rw [List.nil_append, fieldsAux_glue b cur hc, fieldsAux_glue [] cur hc]
      rw [glue, hb]
      rfl
  | cons c cs ih =>
    intro cur
    rw [List.cons_append, fieldsAux, fieldsAux]
    split
    · split
      · exact ih _
      · rw [ih]; rfl
    · exact ih _

theorem fields_append {a b : List Char} (hb : startsWord b = false) : fields (a ++ b) = fields a ++ fields b :=
  fieldsAux_append hb a []

theorem fields_allSpace {a : List Char} (h : ∀ c ∈ a, isSpace c = true) : fields a = [] := by
  induction a with
  | nil => rfl
  | cons c s ih => rw [fields_space s (h c (by simp))]; exact ih fun d hd => h d (by simp [hd])

theorem fields_dropSpaces {a : List Char} (h : ∀ c ∈ a, isSpace c = true) (s : List Char) : fields (a ++ s) = fields s := by
  induction a with
  | nil => rfl
  | cons c a ih => rw [List.cons_append, fields_space _ (h c (by simp))]; exact ih fun d hd => h d (by simp [hd])

theorem startsWord_allSpace {a : List Char} (h : ∀ c ∈ a, isSpace c = true) : startsWord a = false := by
  cases a with
  | nil => rfl
  | cons c s => simp [startsWord, h c (by simp)]

theorem fields_trimmed {a s b : List Char} (ha : ∀ c ∈ a, isSpace c = true) (hb : ∀ c ∈ b, isSpace c = true) :
    fields (a ++ s ++ b) = fields s := by
  rw [fields_append (startsWord_allSpace hb), fields_dropSpaces ha, fields_allSpace hb, List.append_nil]

theorem fields_joinSpace : ∀ xs : List (List Char), fields (joinWith [' '] xs) = xs.flatMap fields
  | [] => rfl
  | [x] => by simp [joinWith]
  | x :: y :: r => by
    have hs : isSpace ' ' = true := by decide
    rw [joinWith, List.append_assoc, fields_append (by simp [startsWord, hs]), List.singleton_append, fields_space _ hs,
      fields_joinSpace (y :: r), List.flatMap_cons (x := x)]

theorem fields_cons_congr {c : Char} {x y : List Char} (h : fields x = fields y) (hs : startsWord x = startsWord y) :
    fields (c :: x) = fields (c :: y) := by
  cases hc : isSpace c with
  | true => rw [fields_space _ hc, fields_space _ hc, h]
  | false => rw [fields_cons _ hc, fields_cons _ hc]; unfold glue; rw [h, hs]

theorem isSpace_of_rx {c : Char} (h : isRxSpace c = true) : isSpace c = true := by
  unfold isRxSpace at h
  unfold isSpace
  simp only [Bool.or_eq_true] at h ⊢
  rcases h with (((h | h) | h) | h) | h <;> simp [h]

theorem collapseLoop_spec : ∀ (s run : List Char), (∀ c ∈ run, isRxSpace c = true) →
    fields (collapseLoop run s) = fields (run.reverse ++ s) ∧ startsWord (collapseLoop run s) = startsWord (run.reverse ++ s) := by
  intro s
  have hs : isSpace ' ' = true := by decide
  induction s with
  | nil =>
    intro run h
    have hsp : ∀ c ∈ run.reverse, isSpace c = true := fun c hc => isSpace_of_rx (h c (by simpa using hc))
    unfold collapseLoop
    rw [List.append_nil]
    split
    · exact ⟨by rw [fields_allSpace hsp, fields_space _ hs]; rfl, by rw [startsWord_allSpace hsp]; simp [startsWord, hs]⟩
    · exact ⟨rfl, rfl⟩
  | cons c s ih =>
    intro run h
    have hsp : ∀ c ∈ run.reverse, isSpace c = true := fun c hc => isSpace_of_rx (h c (by simpa using hc))
    unfold collapseLoop
    split
    · rename_i hc
      have := ih (c :: run) (by intro d hd; exact (List.mem_cons.mp hd).elim (fun e => e ▸ hc) (h d))
      simpa using this
    · obtain ⟨i1, i2⟩ := ih [] (by simp)
      have e : fields (c :: collapseLoop [] s) = fields (c :: s) := fields_cons_congr (by simpa using i1) (by simpa using i2)
      rw [fields_dropSpaces hsp, ← e]
      split
      · rename_i hl
        constructor
        · rw [List.singleton_append, fields_space _ hs]
        · cases hr : run.reverse with
          | nil => rw [List.reverse_eq_nil_iff] at hr; subst hr; simp at hl
          | cons d r => rw [hr] at hsp; simp [startsWord, hs, hsp d (by simp)]
      · constructor
        · rw [fields_dropSpaces hsp]
        · cases hr : run.reverse with
          | nil => rfl
          | cons d r => rfl

theorem fields_collapse (s : List Char) : fields (collapseSpaces s) = fields s := by
  have := (collapseLoop_spec s [] (by simp)).1
  exact this

/-- Two texts with the same words: where one is cut, the other can be cut. -/
theorem cut_words : ∀ (n : Nat) (u v v1 v2 : List Char), u.length + v.length ≤ n → fields u = fields v → v = v1 ++ v2 →
    ∃ u1 u2, u = u1 ++ u2 ∧ fields u1 = fields v1 ∧ fields u2 = fields v2 ∧
      (startsWord u = startsWord v → startsWord u1 = startsWord v1) := by
  intro n
  induction n with
  | zero =>
    intro u v v1 v2 hn h hv
    have hu : u = [] := List.eq_nil_of_length_eq_zero (by omega)
    have hv' : v = [] := List.eq_nil_of_length_eq_zero (by omega)
    subst hu hv'
    have := List.append_eq_nil_iff.mp hv.symm
    exact ⟨[], [], rfl, by rw [this.1], by rw [this.2], fun _ => by rw [this.1]⟩
  | succ n ih =>
    intro u v v1 v2 hn h hv
    cases v1 with
    | nil => exact ⟨[], u, rfl, rfl, by rw [h, hv]; rfl, fun _ => rfl⟩
    | cons d v1 =>
      subst hv
      by_cases hu : ∃ c u', u = c :: u' ∧ isSpace c = true
      · obtain ⟨c, u', rfl, hc⟩ := hu
        rw [fields_space _ hc] at h
        obtain ⟨u1, u2, e1, e2, e3, e4⟩ := ih u' (d :: v1 ++ v2) (d :: v1) v2 (by simp at hn ⊢; omega) h rfl
        exact ⟨c :: u1, u2, by rw [e1]; rfl, by rw [fields_space _ hc, e2], e3, fun hs => by
          simp [startsWord, hc] at hs; simp [startsWord, hc, hs]⟩
      · cases hd : isSpace d with
        | true =>
          rw [List.cons_append, fields_space _ hd] at h
          obtain ⟨u1, u2, e1, e2, e3, e4⟩ := ih u (v1 ++ v2) v1 v2 (by simp at hn ⊢; omega) h rfl
          refine ⟨u1, u2, e1, by rw [fields_space _ hd, e2], e3, fun hs => ?_⟩
          have hsu : startsWord u = false := by rw [hs]; simp [startsWord, hd]
          have : startsWord u1 = false := by
            cases u1 with
            | nil => rfl
            | cons x u1 => rw [e1] at hsu; simpa [startsWord] using hsu
          rw [this]; simp [startsWord, hd]
        | false =>
          cases u with
          | nil =>
            rw [List.cons_append, fields_cons _ hd] at h
            unfold glue at h
            revert h
            cases startsWord (v1 ++ v2) <;> cases fields (v1 ++ v2) <;> simp [glueWith, fields, fieldsAux]
          | cons c u =>
            have hc : isSpace c = false := by
              cases hc : isSpace c with
              | false => rfl
              | true => exact absurd ⟨c, u, rfl, hc⟩ hu
            rw [List.cons_append, fields_cons _ hd, fields_cons _ hc] at h
            have hsame : c = d ∧ fields u = fields (v1 ++ v2) ∧ startsWord u = startsWord (v1 ++ v2) := by
              unfold glue at h
              cases su : startsWord u with
              | true =>
                have nu := startsWord_ne su
                cases fu : fields u with
                | nil => exact absurd fu nu
                | cons w r =>
                  have hw := fields_words u w (by rw [fu]; simp)
                  cases sv : startsWord (v1 ++ v2) with
                  | true =>
                    have nv := startsWord_ne sv
                    cases fv : fields (v1 ++ v2) with
                    | nil => exact absurd fv nv
                    | cons w' r' =>
                      simp only [su, fu, sv, fv, glueWith, List.cons.injEq, List.singleton_append] at h
                      exact ⟨h.1.1, by rw [h.1.2, h.2], rfl⟩
                  | false =>
                    simp only [su, fu, sv, glueWith, List.cons.injEq, List.singleton_append] at h
                    exact absurd h.1.2 hw.1
              | false =>
                cases sv : startsWord (v1 ++ v2) with
                | true =>
                  have nv := startsWord_ne sv
                  cases fv : fields (v1 ++ v2) with
                  | nil => exact absurd fv nv
                  | cons w' r' =>
                    have hw := fields_words (v1 ++ v2) w' (by rw [fv]; simp)
                    simp only [su, sv, fv, glueWith, List.cons.injEq, List.singleton_append] at h
                    exact absurd h.1.2.symm hw.1
                | false =>
                  simp only [su, sv, glueWith, List.cons.injEq] at h
                  exact ⟨h.1.1, h.2, rfl⟩
            obtain ⟨rfl, h2, h3⟩ := hsame
            obtain ⟨u1, u2, e1, e2, e3, e4⟩ := ih u (v1 ++ v2) v1 v2 (by simp at hn ⊢; omega) h2 rfl
            exact ⟨c :: u1, u2, by rw [e1]; rfl, fields_cons_congr e2 (e4 h3), e3, fun _ => rfl⟩

/-- Two texts with the same words: a piece of one has a piece of the other with the same words. -/
theorem piece_words {u v v' : List Char} (h : fields u = fields v) (hv : v' <:+: v) : ∃ u', u' <:+: u ∧ fields u' = fields v' := by
  obtain ⟨a, b, e⟩ := hv
  obtain ⟨u1, u2, e1, e2, e3, _⟩ := cut_words _ u v (a ++ v') b (Nat.le_refl _) h e.symm
  obtain ⟨w1, w2, f1, f2, f3, _⟩ := cut_words _ u1 (a ++ v') a v' (Nat.le_refl _) e2 rfl
  exact ⟨w2, ⟨w1, u2, by rw [e1, f1]⟩, f3⟩

theorem words_fields {x : List Char} (h : x = [] ∨ Word x) : fields x = if x = [] then [] else [x] := by
  rcases h with rfl | h
  · rfl
  · rw [if_neg h.1]
    have := fields_join [x] (by simpa using h)
    simpa [joinWith] using this

/-- Some consecutive words of a text are the words of a piece of it. -/
theorem infix_words {s : List Char} {l : List (List Char)} (h : l <:+: fields s) : ∃ u, u <:+: s ∧ fields u = l := by
  obtain ⟨A, B, e⟩ := h
  have hw : ∀ w ∈ A ++ l ++ B, Word w := fun w hw => fields_words s w (e ▸ hw)
  have hj : ∀ X : List (List Char), (∀ w ∈ X, Word w) → fields (joinWith [' '] X) = X := fields_join
  have hs : isSpace ' ' = true := by decide
  have key : fields (joinWith [' '] A ++ (' ' :: joinWith [' '] l) ++ (' ' :: joinWith [' '] B)) = A ++ l ++ B := by
    rw [fields_append (by simp [startsWord, hs]), fields_append (by simp [startsWord, hs]), fields_space _ hs, fields_space _ hs,
      hj A fun w h => hw w (by simp [h]), hj l fun w h => hw w (by simp [h]), hj B fun w h => hw w (by simp [h])]
  obtain ⟨u, hu, hf⟩ := piece_words (u := s) (v := joinWith [' '] A ++ (' ' :: joinWith [' '] l) ++ (' ' :: joinWith [' '] B))
    (v' := ' ' :: joinWith [' '] l) (by rw [key, e]) ⟨joinWith [' '] A, ' ' :: joinWith [' '] B, rfl⟩
  exact ⟨u, hu, by rw [hf, fields_space _ hs, hj l fun w h => hw w (by simp [h])]⟩

end Verif.Lemmas
