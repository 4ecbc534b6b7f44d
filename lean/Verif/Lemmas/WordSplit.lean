import Verif.Lemmas.WordFrame
import Verif.Lemmas.Whole
/-!
Helper lemmas: cutting a text with one word among digits, spaces, commas, dots and colons.
-/
set_option autoImplicit false
namespace Verif.Lemmas
open Verif.Go Verif.Model Verif.Data Verif.Spec

/-! ## What cannot occur -/

/-- Letters beside characters other than letters and spaces. -/
def pairs : List Char → Bool
  | c :: d :: r => (lett c && !lett d && d.toNat != 32) || (lett d && !lett c && c.toNat != 32) || pairs (d :: r)
  | _ => false
/-- Two runs of letters; none yet, in the first, after it. -/
def wordRuns : Nat → List Char → Bool
  | _, [] => false
  | 0, c :: r => if lett c then wordRuns 1 r else wordRuns 0 r
  | 1, c :: r => if lett c then wordRuns 1 r else wordRuns 2 r
  | _, c :: r => if lett c then true else wordRuns 2 r
/-- Cannot occur in a text with one word. -/
def never (k : List Char) : Bool := k.any (fun c => !lett c && !dateChar c) || pairs k || wordRuns 0 k

theorem runs0 (c : Char) (r : List Char) : wordRuns 0 (c :: r) = if lett c then wordRuns 1 r else wordRuns 0 r := by simp [wordRuns]
theorem runs1 (c : Char) (r : List Char) : wordRuns 1 (c :: r) = if lett c then wordRuns 1 r else wordRuns 2 r := by simp [wordRuns]
theorem runs2 (c : Char) (r : List Char) : wordRuns 2 (c :: r) = if lett c then true else wordRuns 2 r := by simp [wordRuns]

theorem runs_mono : ∀ (l : List Char), (wordRuns 0 l = true → wordRuns 1 l = true) ∧ (wordRuns 1 l = true → wordRuns 2 l = true) := by
  intro l
  induction l with
  | nil => simp [wordRuns]
  | cons c l ih =>
    cases h : lett c with
    | true => simp [wordRuns, h]
    | false =>
      simp only [wordRuns, h, Bool.false_eq_true, if_false]
      exact ⟨fun h' => ih.2 (ih.1 h'), id⟩

theorem runs_tail {c : Char} {l : List Char} (h : wordRuns 0 (c :: l) = false) : wordRuns 0 l = false := by
  have hm := (runs_mono l).1
  unfold wordRuns at h
  cases hl : lett c <;> simp only [hl, if_true, Bool.false_eq_true, if_false] at h
  · exact h
  · cases h' : wordRuns 0 l with
    | false => rfl
    | true => rw [hm h'] at h; cases h

theorem wordRuns_prefix : ∀ (k b : List Char) (n : Nat), wordRuns n (k ++ b) = false → wordRuns n k = false := by
  intro k
  induction k with
  | nil => intro b n _; unfold wordRuns; rfl
  | cons c k ih =>
    intro b n h
    match n with
    | 0 => simp only [List.cons_append, wordRuns] at h ⊢; split <;> rename_i hc <;> simp only [hc, if_true, Bool.false_eq_true, if_false] at h <;> exact ih _ _ h
    | 1 => simp only [List.cons_append, wordRuns] at h ⊢; split <;> rename_i hc <;> simp only [hc, if_true, Bool.false_eq_true, if_false] at h <;> exact ih _ _ h
    | n + 2 =>
      simp only [List.cons_append, wordRuns] at h ⊢
      split <;> rename_i hc
      · simp [hc] at h
      · simp only [hc, Bool.false_eq_true, if_false] at h
        exact ih _ _ h

theorem pairs_tail {c : Char} {l : List Char} (h : pairs (c :: l) = false) : pairs l = false := by
  cases l with
  | nil => rfl
  | cons d l => unfold pairs at h; rw [Bool.or_eq_false_iff] at h; exact h.2

theorem pairs_prefix : ∀ (k b : List Char), pairs (k ++ b) = false → pairs k = false := by
  intro k
  induction k with
  | nil => intro b _; rfl
  | cons c k ih =>
    intro b h
    cases k with
    | nil => rfl
    | cons d k =>
      simp only [List.cons_append, pairs, Bool.or_eq_false_iff] at h ⊢
      exact ⟨h.1, ih b h.2⟩

/-- A text with one word between spaces, or at an end. -/
structure OneWord (T : List Char) : Prop where
  chars : ∀ c ∈ T, dateChar c = true ∨ lett c = true
  pairs : pairs T = false
  wordRuns : wordRuns 0 T = false

theorem never_infix {T k a b : List Char} (h : OneWord T) (hk : never k = true) : T ≠ a ++ k ++ b := by
  rintro rfl
  obtain ⟨h1, h2, h3⟩ := h
  have h2' : pairs (k ++ b) = false := by
    clear h1 h3
    induction a with
    | nil => simpa using h2
    | cons c a ih => exact ih (pairs_tail h2)
  have h3' : wordRuns 0 (k ++ b) = false := by
    clear h1 h2
    induction a with
    | nil => simpa using h3
    | cons c a ih => exact ih (runs_tail h3)
  simp only [never, Bool.or_eq_true, List.any_eq_true, Bool.and_eq_true, Bool.not_eq_true'] at hk
  rcases hk with (⟨c, hc, hk⟩ | hk) | hk
  · rcases h1 c (by simp [hc]) with h | h
    · rw [hk.2] at h; cases h
    · rw [hk.1] at h; cases h
  · rw [pairs_prefix k b h2'] at hk; cases hk
  · rw [wordRuns_prefix k b 0 h3'] at hk; cases hk

theorem one_plain {T : List Char} (h : ∀ c ∈ T, dateChar c = true) : OneWord T := by
  refine ⟨fun c hc => Or.inl (h c hc), ?_, ?_⟩
  · induction T with
    | nil => rfl
    | cons c T ih =>
      cases T with
      | nil => rfl
      | cons d T =>
        unfold Verif.Lemmas.pairs
        rw [date_not_lett (h c (by simp)), date_not_lett (h d (by simp)), ih fun x hx => h x (by simp [hx])]
        rfl
  · induction T with
    | nil => rfl
    | cons c T ih =>
      rw [runs0, date_not_lett (h c (by simp)), if_neg (by simp)]
      exact ih fun x hx => h x (by simp [hx])

theorem runs2_plain {B : List Char} (hB : ∀ c ∈ B, dateChar c = true) : wordRuns 2 B = false := by
  induction B with
  | nil => rfl
  | cons c B ih =>
    rw [runs2, date_not_lett (hB c (by simp)), if_neg (by simp)]
    exact ih fun x hx => hB x (by simp [hx])

theorem one_word {w A B : List Char} (hw : ∀ c ∈ w, lett c = true) (hA : ∀ c ∈ A, dateChar c = true) (hB : ∀ c ∈ B, dateChar c = true)
    (hAl : ∀ c, A.getLast? = some c → c = ' ') (hBh : ∀ c, B.head? = some c → c = ' ') : OneWord (A ++ w ++ B) := by
  refine ⟨fun c hc => ?_, ?_, ?_⟩
  · simp only [List.mem_append] at hc
    rcases hc with (hc | hc) | hc
    · exact Or.inl (hA c hc)
    · exact Or.inr (hw c hc)
    · exact Or.inl (hB c hc)
  · have h1 : ∀ w : List Char, (∀ c ∈ w, lett c = true) → pairs (w ++ B) = false := by
      intro w hw
      induction w with
      | nil => exact (one_plain hB).pairs
      | cons c w ih =>
        cases w with
        | nil =>
          cases B with
          | nil => rfl
          | cons d B =>
            have : d = ' ' := hBh d rfl
            subst this
            have h0 := (one_plain hB).pairs
            simp only [List.cons_append, List.nil_append]
            unfold Verif.Lemmas.pairs
            rw [h0, hw c (by simp), show lett ' ' = false by decide]
            rfl
        | cons d w =>
          have := ih fun x hx => hw x (by simp [hx])
          simp only [List.cons_append] at this ⊢
          unfold Verif.Lemmas.pairs
          rw [this, hw c (by simp), hw d (by simp)]
          rfl
    have h2 : ∀ A : List Char, (∀ c ∈ A, dateChar c = true) → (∀ c, A.getLast? = some c → c = ' ') → pairs (A ++ (w ++ B)) = false := by
      intro A hA hAl
      induction A with
      | nil => exact h1 w hw
      | cons c A ih =>
        cases A with
        | nil =>
          have : c = ' ' := hAl c rfl
          subst this
          simp only [List.cons_append, List.nil_append]
          have h0 := h1 w hw
          cases hwB : w ++ B with
          | nil => rfl
          | cons d R =>
            rw [hwB] at h0
            unfold Verif.Lemmas.pairs
            rw [h0, show lett ' ' = false by decide]
            simp
        | cons d A =>
          have := ih (fun x hx => hA x (by simp [hx])) (fun x hx => hAl x (by rw [List.getLast?_cons_cons]; exact hx))
          simp only [List.cons_append] at this ⊢
          unfold Verif.Lemmas.pairs
          rw [this, date_not_lett (hA c (by simp)), date_not_lett (hA d (by simp))]
          rfl
    rw [List.append_assoc]
    exact h2 A hA hAl
  · have h1 : ∀ w : List Char, (∀ c ∈ w, lett c = true) → wordRuns 1 (w ++ B) = false := by
      intro w hw
      induction w with
      | nil =>
        cases B with
        | nil => rfl
        | cons c B =>
          show wordRuns 1 (c :: B) = false
          rw [runs1, date_not_lett (hB c (by simp)), if_neg (by simp)]
          exact runs2_plain fun x hx => hB x (by simp [hx])
      | cons c w ih =>
        simp only [List.cons_append]
        rw [runs1, hw c (by simp), if_pos rfl]
        exact ih fun x hx => hw x (by simp [hx])
    rw [List.append_assoc]
    induction A with
    | nil =>
      cases h : wordRuns 0 (w ++ B) with
      | false => simpa using h
      | true =>
        have := (runs_mono _).1 h
        rw [h1 w hw] at this
        cases this
    | cons c A ih =>
      simp only [List.cons_append]
      rw [runs0, date_not_lett (hA c (by simp)), if_neg (by simp)]
      refine ih (fun x hx => hA x (by simp [hx])) fun x hx => hAl x ?_
      cases A with
      | nil => cases hx
      | cons d A => rw [List.getLast?_cons_cons]; exact hx

/-! ## The known words -/

/-- A known word that is plain, one of the four separators, or cannot occur. -/
def knownOk (k : List Char) : Bool := (!k.isEmpty && k.all lett) || k == [' '] || k == [','] || k == ['.'] || k == [':'] || never k

/-- Letters and marks, and nothing else. -/
def PlainWord (U : Uni) (w : List Char) : Prop := ∀ c ∈ w, (U.isLetter c = true ∨ U.isMark c = true) ∧ U.isNumber c = false ∧ U.isDigit c = false

theorem index_sound {k : List Char} : ∀ {T : List Char} {pos : Nat}, indexStr k T = some pos → ∃ a b, T = a ++ k ++ b ∧ a.length = pos := by
  intro T
  induction T with
  | nil =>
    intro pos h
    unfold indexStr at h
    split at h
    · rename_i he
      rw [List.isEmpty_iff] at he
      subst he
      simp at h
      exact ⟨[], [], rfl, h⟩
    · cases h
  | cons c T ih =>
    intro pos h
    unfold indexStr at h
    split at h
    · rename_i hp
      rw [List.isPrefixOf_iff_prefix] at hp
      obtain ⟨b, hb⟩ := hp
      simp at h
      exact ⟨[], b, by simpa using hb.symm, h⟩
    · rw [Option.map_eq_some_iff] at h
      obtain ⟨p, hp, rfl⟩ := h
      obtain ⟨a, b, h1, h2⟩ := ih hp
      exact ⟨c :: a, b, by rw [h1]; rfl, by simp [h2]⟩

theorem index_at {c : Char} {k : List Char} (B : List Char) : ∀ (A : List Char), c ∉ A → indexStr (c :: k) (A ++ (c :: k ++ B)) = some A.length := by
  intro A
  induction A with
  | nil =>
    intro _
    simp only [List.nil_append, List.cons_append]
    unfold indexStr
    rw [if_pos]
    · rfl
    · rw [List.isPrefixOf_iff_prefix]; exact ⟨B, rfl⟩
  | cons d A ih =>
    intro h
    simp only [List.mem_cons, not_or] at h
    simp only [List.cons_append] at ih ⊢
    unfold indexStr
    rw [if_neg, ih h.2]
    · rfl
    · rw [List.isPrefixOf_iff_prefix]
      rintro ⟨b, hb⟩
      simp only [List.cons_append, List.cons.injEq] at hb
      exact h.1 hb.1

/-- The word found is accepted where it is. -/
def okAt (U : Uni) (T : List Char) (pos : Nat) (k : List Char) : Bool := neighborOk U (T.take pos).getLast? && neighborOk U (T.drop (pos + k.length)).head?

/-- The candidate that is before all others wins. -/
theorem known_loop {U : Uni} {T : List Char} {p0 : Nat} {k0 : List Char} (hat : indexStr k0 T = some p0) (hok : okAt U T p0 k0 = true) :
    ∀ (ks : List (List Char)) (cand : Option (Nat × List Char)),
      (∀ k ∈ ks, ∀ pos, indexStr k T = some pos → okAt U T pos k = true → p0 < pos ∨ (pos = p0 ∧ k = k0)) →
      (∀ q, cand = some q → p0 < q.1 ∨ q = (p0, k0)) → (k0 ∈ ks ∨ cand = some (p0, k0)) →
      knownLoop U false T ks cand = some (p0, k0) := by
  intro ks
  induction ks with
  | nil =>
    intro cand _ _ h
    rcases h with h | h
    · cases h
    · exact h
  | cons k ks ih =>
    intro cand hks hcand h
    have hks' : ∀ k ∈ ks, ∀ pos, indexStr k T = some pos → okAt U T pos k = true → p0 < pos ∨ (pos = p0 ∧ k = k0) := fun k hk => hks k (by simp [hk])
    unfold knownLoop
    cases hi : indexStr k T with
    | none =>
      refine ih cand hks' hcand ?_
      rcases h with h | h
      · rcases List.mem_cons.mp h with rfl | h
        · rw [hat] at hi; cases hi
        · exact Or.inl h
      · exact Or.inr h
    | some pos =>
      simp only [Bool.false_or]
      cases ho : okAt U T pos k with
      | false =>
        unfold okAt at ho
        rw [ho, if_neg (by simp)]
        refine ih cand hks' hcand ?_
        rcases h with h | h
        · rcases List.mem_cons.mp h with rfl | h
          · rw [hat] at hi; cases hi; unfold okAt at hok; rw [ho] at hok; cases hok
          · exact Or.inl h
        · exact Or.inr h
      | true =>
        have hpk := hks k (by simp) pos hi ho
        unfold okAt at ho
        rw [ho, if_pos rfl]
        -- the candidate afterwards
        have hcand' : ∀ q, (match (generalizing := false) cand with
            | none => some (pos, k)
            | some (p, v) => if pos < p then some (pos, k) else some (p, v)) = some q → p0 < q.1 ∨ q = (p0, k0) := by
          intro q hq
          cases cand with
          | none =>
            simp only [Option.some.injEq] at hq
            subst hq
            rcases hpk with h | ⟨h1, h2⟩
            · exact Or.inl h
            · exact Or.inr (by rw [h1, h2])
          | some c =>
            obtain ⟨p, v⟩ := c
            simp only at hq
            split at hq
            · simp only [Option.some.injEq] at hq
              subst hq
              rcases hpk with h | ⟨h1, h2⟩
              · exact Or.inl h
              · exact Or.inr (by rw [h1, h2])
            · exact hcand q (by rw [← hq])
        have hdone : k = k0 ∨ cand = some (p0, k0) → (match (generalizing := false) cand with
            | none => some (pos, k)
            | some (p, v) => if pos < p then some (pos, k) else some (p, v)) = some (p0, k0) := by
          rintro (rfl | rfl)
          · have e : pos = p0 := by rw [hat] at hi; exact (Option.some.inj hi).symm
            subst e
            cases cand with
            | none => rfl
            | some c =>
              obtain ⟨p, v⟩ := c
              simp only
              split
              · rfl
              · rename_i hlt
                rcases hcand _ rfl with h | h
                · exact absurd h hlt
                · rw [h]
          · simp only
            rw [if_neg]
            rcases hpk with h | ⟨h1, _⟩ <;> omega
        by_cases hz : pos = 0
        · rw [if_pos hz]
          have : k = k0 := by
            rcases hpk with h | ⟨_, h⟩
            · omega
            · exact h
          exact hdone (Or.inl this)
        · rw [if_neg hz]
          refine ih _ hks' hcand' ?_
          rcases h with h | h
          · rcases List.mem_cons.mp h with h | h
            · exact Or.inr (hdone (Or.inl h.symm))
            · exact Or.inl h
          · exact Or.inr (hdone (Or.inr h))

theorem known_none {U : Uni} {T : List Char} : ∀ (ks : List (List Char)), (∀ k ∈ ks, ∀ pos, indexStr k T = some pos → okAt U T pos k = false) →
    knownLoop U false T ks none = none := by
  intro ks
  induction ks with
  | nil => intro _; rfl
  | cons k ks ih =>
    intro h
    unfold knownLoop
    cases hi : indexStr k T with
    | none => exact ih fun k hk => h k (by simp [hk])
    | some pos =>
      have := h k (by simp) pos hi
      unfold okAt at this
      simp only [this, Bool.or_self, Bool.false_eq_true, if_false]
      exact ih fun k hk => h k (by simp [hk])

theorem trim_nonempty {T : List Char} {c : Char} (hc : c ∈ T) (h : isSpace c = false) : (trimSpace T).isEmpty = false := by
  have key : ∀ {l : List Char}, c ∈ l → c ∈ l.dropWhile isSpace := by
    intro l
    induction l with
    | nil => intro h; cases h
    | cons d l ih =>
      intro hm
      rw [List.dropWhile_cons]
      split
      · rename_i hd
        rcases List.mem_cons.mp hm with rfl | hm
        · rw [h] at hd; cases hd
        · exact ih hm
      · exact hm
  have : c ∈ trimSpace T := by
    unfold trimSpace
    rw [List.mem_reverse]
    exact key (List.mem_reverse.mpr (key hc))
  cases ht : trimSpace T with
  | nil => rw [ht] at this; cases this
  | cons d l => rfl

end Verif.Lemmas
