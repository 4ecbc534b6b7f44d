import Verif.Lemmas.Rx
import Verif.Lemmas.Reduce
/-!
Helper lemmas: texts with at most one word among digits, spaces, commas, dots and colons; patterns that cannot match in them.
-/
set_option autoImplicit false
namespace Verif.Lemmas
open Verif.Go Verif.Model Verif.Data Verif.Spec

/-- A lower-case ASCII letter, or a character beyond ASCII (but for the two that equal an ASCII letter but for case). -/
def lett (c : Char) : Bool := (decide (97 ≤ c.toNat) && decide (c.toNat ≤ 122)) || (decide (128 ≤ c.toNat) && c.toNat != 0x212a && c.toNat != 0x17f)
/-- The other characters of these texts. -/
def dateChar (c : Char) : Bool := (decide (48 ≤ c.toNat) && decide (c.toNat ≤ 58)) || c.toNat == 32 || c.toNat == 44 || c.toNat == 46

theorem date_not_lett {c : Char} (h : dateChar c = true) : lett c = false := by
  simp only [dateChar, lett, Bool.or_eq_true, Bool.and_eq_true, decide_eq_true_eq, beq_iff_eq] at *
  rw [Bool.or_eq_false_iff, Bool.and_eq_false_iff, Bool.and_eq_false_iff, Bool.and_eq_false_iff]
  simp only [decide_eq_false_iff_not]
  omega

theorem toNat_inj {c d : Char} (h : c.toNat = d.toNat) : c = d := by
  rw [← Char.ofNat_toNat c, ← Char.ofNat_toNat d, h]

/-- A text in which the word is the only one. -/
structure Framed (w T : List Char) : Prop where
  chars : ∀ c ∈ T, dateChar c = true ∨ lett c = true
  wordRuns : ∀ a r b, T = a ++ r ++ b → r ≠ [] → (∀ c ∈ r, lett c = true) → ∃ u v, w = u ++ r ++ v ∧
    ((∀ x, a.getLast? = some x → lett x = false) → u = []) ∧ ((∀ x, b.head? = some x → lett x = false) → v = [])

theorem Framed.mem {w T : List Char} (h : Framed w T) {c : Char} (hc : c ∈ T) (hl : lett c = true) : c ∈ w := by
  obtain ⟨a, b, e⟩ := List.append_of_mem hc
  obtain ⟨u, v, hw, _⟩ := h.wordRuns a [c] b (by simp [e]) (by simp) (by simpa using hl)
  rw [hw]; simp

/-- Texts without a word. -/
theorem framed_plain {w T : List Char} (h : ∀ c ∈ T, dateChar c = true) : Framed w T := by
  refine ⟨fun c hc => Or.inl (h c hc), fun a r b e hr hl => ?_⟩
  cases r with
  | nil => exact absurd rfl hr
  | cons c r =>
    have := date_not_lett (h c (by rw [e]; simp))
    rw [hl c (by simp)] at this
    cases this

/-- Texts with the word. -/
theorem framed_word {w A B : List Char} (hw : ∀ c ∈ w, lett c = true) (hA : ∀ c ∈ A, dateChar c = true) (hB : ∀ c ∈ B, dateChar c = true) : Framed w (A ++ w ++ B) := by
  refine ⟨fun c hc => ?_, fun a r b e hr hl => ?_⟩
  · simp only [List.mem_append] at hc
    rcases hc with (hc | hc) | hc
    · exact Or.inl (hA c hc)
    · exact Or.inr (hw c hc)
    · exact Or.inl (hB c hc)
  · -- `a` has at least the length of `A`
    have h1 : ∃ a', a = A ++ a' := by
      rw [List.append_assoc, List.append_assoc, List.append_eq_append_iff] at e
      rcases e with ⟨a', h1, _⟩ | ⟨c', h1, h2⟩
      · exact ⟨a', h1⟩
      · cases c' with
        | nil => exact ⟨[], by simpa using h1.symm⟩
        | cons x c' =>
          exfalso
          cases r with
          | nil => exact hr rfl
          | cons y r =>
            simp only [List.cons_append, List.cons.injEq] at h2
            have := date_not_lett (hA x (by rw [h1]; simp))
            rw [← h2.1, hl y (by simp)] at this
            cases this
    obtain ⟨a', rfl⟩ := h1
    have e2 : w ++ B = a' ++ r ++ b := by
      have : A ++ (w ++ B) = A ++ (a' ++ r ++ b) := by simpa [List.append_assoc] using e
      exact List.append_cancel_left this
    have h2 : ∃ b', b = b' ++ B ∧ w = a' ++ r ++ b' := by
      rw [List.append_eq_append_iff] at e2
      rcases e2 with ⟨c', h1, h2⟩ | ⟨c', h1, h2⟩
      · cases c' with
        | nil => exact ⟨[], by simpa using h2.symm, by simpa using h1.symm⟩
        | cons x c' =>
          exfalso
          -- the last of `a' ++ r` is in `B`
          have hx : (a' ++ r).getLast? = (x :: c').getLast? := by
            rw [h1, List.getLast?_append]
            cases h : (x :: c').getLast? with
            | none => rw [List.getLast?_eq_none_iff] at h; cases h
            | some z => rfl
          have hlast : (a' ++ r).getLast? = r.getLast? := by
            cases h : r.getLast? with
            | none => rw [List.getLast?_eq_none_iff] at h; exact absurd h hr
            | some z => simp [List.getLast?_append, h]
          cases h : r.getLast? with
          | none => rw [List.getLast?_eq_none_iff] at h; exact absurd h hr
          | some z =>
            have hz : z ∈ x :: c' := List.mem_of_getLast? (by rw [← hx, hlast, h])
            have := date_not_lett (hB z (by rw [h2]; simp only [List.mem_append]; exact Or.inl hz))
            rw [hl z (List.mem_of_getLast? h)] at this
            cases this
      · exact ⟨c', h2, h1⟩
    obtain ⟨b', rfl, hwe⟩ := h2
    refine ⟨a', b', hwe, fun hx => ?_, fun hx => ?_⟩
    · cases h : a'.getLast? with
      | none => exact List.getLast?_eq_none_iff.mp h
      | some z =>
        exfalso
        have := hx z (by rw [List.getLast?_append, h]; rfl)
        rw [hw z (by rw [hwe]; simp only [List.mem_append]; exact Or.inl (Or.inl (List.mem_of_getLast? h)))] at this
        cases this
    · cases b' with
      | nil => rfl
      | cons z b' =>
        exfalso
        have := hx z rfl
        rw [hw z (by rw [hwe]; simp)] at this
        cases this

/-! ## Patterns that cannot match -/

def isPre : List Char → List Char → Bool
  | [], _ => true
  | _ :: _, [] => false
  | c :: a, d :: b => c.toNat == d.toNat && isPre a b
def isInf (a : List Char) : List Char → Bool
  | [] => isPre a []
  | c :: b => isPre a (c :: b) || isInf a b

theorem isPre_append : ∀ (a b : List Char), isPre a (a ++ b) = true := by
  intro a
  induction a with
  | nil => intro b; cases b <;> rfl
  | cons c a ih => intro b; simp [isPre, ih]

theorem isInf_append (a b : List Char) : ∀ u : List Char, isInf a (u ++ a ++ b) = true := by
  have key : ∀ l, isPre a l = true → isInf a l = true := by
    intro l h
    cases l with
    | nil => exact h
    | cons c l => simp [isInf, h]
  intro u
  induction u with
  | nil => exact key _ (isPre_append a b)
  | cons c u ih =>
    show (isPre a (c :: (u ++ a ++ b)) || isInf a (u ++ a ++ b)) = true
    rw [ih, Bool.or_true]

/-- A literal text that is not in a text with this word. -/
def litCannot (w s : List Char) : Bool :=
  (s.any fun c => !lett c && !dateChar c && !(decide (65 ≤ c.toNat) && decide (c.toNat ≤ 90)) && decide (c.toNat < 128)) ||
  (s.any fun c => lett c && !(w.any fun d => d.toNat == c.toNat)) ||
  ((s.all fun c => lett c || c.toNat == 32) && runCannot w (s.head?.all lett) (s.dropWhile fun c => !lett c))
where
  /-- From the first letter on; whether there is nothing before it. -/
  runCannot (w : List Char) (first : Bool) (s : List Char) : Bool :=
    let r := s.takeWhile lett
    !r.isEmpty && !(if r.length == s.length then (if first then isInf r w else isPre r w) else (if first then isPre r.reverse w.reverse else r == w))

def rngCannot (w : List Char) (lo hi : Char) : Bool :=
  (w.all fun c => decide (c.toNat < lo.toNat) || decide (hi.toNat < c.toNat)) &&
  (decide (hi.toNat < 32) || (decide (32 < lo.toNat) && decide (hi.toNat < 44)) || (decide (44 < lo.toNat) && decide (hi.toNat < 46))
    || (decide (46 < lo.toNat) && decide (hi.toNat < 48)) || decide (58 < lo.toNat))

/-- The start of a word is asked for. -/
def isStart : Pat → Bool
  | .grp _ (.alt .bos (.cls true l)) => l.contains .letter && l.contains .mark
  | _ => false
/-- The end of a word is asked for. -/
def isEnd : Pat → Bool
  | .grp _ (.alt .eos (.cls true l)) => l.contains .letter && l.contains .mark
  | _ => false

/-- The pattern cannot match in a text with this word. -/
def cannot (w : List Char) : Pat → Bool
  | .lit s => litCannot w s
  | .cls false items => items.all fun
      | .rng lo hi => rngCannot w lo hi
      | _ => false
  | .seq a b => cannot w a || cannot w b || (isStart a && match b with
      | .seq (.lit s) r => s.all lett && !s.isEmpty && (!isPre s w || (isEnd r && decide (s.length < w.length)))
      | _ => false)
  | .alt a b => cannot w a && cannot w b
  | .grp _ a => cannot w a
  | _ => false

/-- A position in the text. -/
def At (T : List Char) (s : MSt) : Prop := ∃ a, T = a ++ s.rest ∧ s.prev = a.getLast?

theorem wordRun_prev : ∀ (r : Rx) (s t : MSt), t ∈ r.run s → ∃ x, s.rest = x ++ t.rest ∧ t.prev = lastOr s.prev x := by
  have trans : ∀ {s t u : MSt}, (∃ x, s.rest = x ++ t.rest ∧ t.prev = lastOr s.prev x) → (∃ x, t.rest = x ++ u.rest ∧ u.prev = lastOr t.prev x) →
      ∃ x, s.rest = x ++ u.rest ∧ u.prev = lastOr s.prev x := by
    rintro s t u ⟨x, h1, h2⟩ ⟨y, h3, h4⟩
    refine ⟨x ++ y, by rw [h1, h3, List.append_assoc], ?_⟩
    rw [h4, h2]
    unfold lastOr
    rw [List.getLast?_append]
    cases y.getLast? <;> simp
  have refl : ∀ s : MSt, ∃ x, s.rest = x ++ s.rest ∧ s.prev = lastOr s.prev x := fun s => ⟨[], rfl, rfl⟩
  intro r
  induction r with
  | eps => intro s t h; simp [Rx.run] at h; subst h; exact refl _
  | chr p =>
    intro s t h
    unfold Rx.run at h
    split at h
    · rename_i c r hr
      split at h
      · simp at h; subst h; exact ⟨[c], by simp [hr], rfl⟩
      · simp at h
    · simp at h
  | seq a b iha ihb =>
    intro s t h
    simp only [Rx.run, List.mem_flatMap] at h
    obtain ⟨u, hu, h⟩ := h
    exact trans (iha s u hu) (ihb u t h)
  | alt a b iha ihb =>
    intro s t h
    simp only [Rx.run, List.mem_append] at h
    rcases h with h | h
    · exact iha s t h
    · exact ihb s t h
  | opt a iha =>
    intro s t h
    simp only [Rx.run, List.mem_append, List.mem_singleton] at h
    rcases h with h | rfl
    · exact iha s t h
    · exact refl _
  | star a iha =>
    intro s t h
    have : ∀ (n : Nat) (s t : MSt), t ∈ starRun a.run n s → ∃ x, s.rest = x ++ t.rest ∧ t.prev = lastOr s.prev x := by
      intro n
      induction n with
      | zero => intro s t h; simp [starRun] at h; subst h; exact refl _
      | succ n ih =>
        intro s t h
        simp only [starRun, List.mem_append, List.mem_flatMap, List.mem_filter, List.mem_singleton] at h
        rcases h with ⟨u, ⟨hu, _⟩, h2⟩ | rfl
        · exact trans (iha s u hu) (ih u t h2)
        · exact refl _
    exact this _ s t h
  | grp n a iha =>
    intro s t h
    simp only [Rx.run, List.mem_map] at h
    obtain ⟨u, hu, rfl⟩ := h
    exact iha s u hu
  | bos => intro s t h; unfold Rx.run at h; split at h <;> simp at h; subst h; exact refl _
  | eos => intro s t h; unfold Rx.run at h; split at h <;> simp at h; subst h; exact refl _
  | wb => intro s t h; unfold Rx.run at h; split at h <;> simp at h; subst h; exact refl _

theorem At.run {T : List Char} {s t : MSt} (h : At T s) {r : Rx} (ht : t ∈ r.run s) : At T t := by
  obtain ⟨a, h1, h2⟩ := h
  obtain ⟨x, h3, h4⟩ := wordRun_prev r s t ht
  refine ⟨a ++ x, by rw [h1, h3, List.append_assoc], ?_⟩
  rw [h4, h2]
  unfold lastOr
  rw [List.getLast?_append]

theorem At.mem {T : List Char} {s : MSt} (h : At T s) {c : Char} (hc : c ∈ s.rest) : c ∈ T := by
  obtain ⟨a, h1, _⟩ := h
  rw [h1]; simp [hc]

/-- What a literal text matches. -/
theorem litRx_run : ∀ (l : List Char) (s t : MSt), t ∈ (litRx l).run s → ∃ x, s.rest = x ++ t.rest ∧ Rel2 (fun c d => foldEq c d = true) l x := by
  have one : ∀ (c : Char) (s t : MSt), t ∈ (Rx.chr (foldEq c)).run s → ∃ d, s.rest = d :: t.rest ∧ foldEq c d = true := by
    intro c s t h
    unfold Rx.run at h
    split at h
    · rename_i d r hr
      split at h
      · rename_i hf
        simp at h; subst h; exact ⟨d, hr, hf⟩
      · simp at h
    · simp at h
  intro l
  induction l with
  | nil => intro s t h; simp [litRx, Rx.run] at h; subst h; exact ⟨[], rfl, .nil⟩
  | cons c l ih =>
    intro s t h
    cases l with
    | nil =>
      obtain ⟨d, h1, h2⟩ := one c s t h
      exact ⟨[d], h1, .cons h2 .nil⟩
    | cons e l =>
      have h : t ∈ ((Rx.chr (foldEq c)).run s).flatMap (litRx (e :: l)).run := h
      rw [List.mem_flatMap] at h
      obtain ⟨u, hu, h⟩ := h
      obtain ⟨d, h1, h2⟩ := one c s u hu
      obtain ⟨x, h3, h4⟩ := ih u t h
      exact ⟨d :: x, by rw [h1, h3]; rfl, .cons h2 h4⟩

theorem toLower_of {c : Char} (h : ¬ (65 ≤ c.toNat ∧ c.toNat ≤ 90)) : c.toLower = c := by
  unfold Char.toLower
  rw [dif_neg]
  rintro ⟨h1, h2⟩
  exact h ⟨by simpa [UInt32.le_iff_toNat_le] using h1, by simpa [UInt32.le_iff_toNat_le] using h2⟩
theorem toUpper_of {c : Char} (h : ¬ (97 ≤ c.toNat ∧ c.toNat ≤ 122)) : c.toUpper = c := by
  unfold Char.toUpper
  rw [dif_neg]
  rintro ⟨h1, h2⟩
  exact h ⟨by simpa [UInt32.le_iff_toNat_le] using h1, by simpa [UInt32.le_iff_toNat_le] using h2⟩

theorem fold_same {c d : Char} (hd : dateChar d = true ∨ lett d = true) (hc : ¬ (65 ≤ c.toNat ∧ c.toNat ≤ 90)) (h : foldEq c d = true) : d = c := by
  unfold foldEq at h
  rw [toLower_of hc] at h
  have hlim : (c == 'k' || c == 'K') = true → c.toNat < 128 := by
    intro h'
    simp only [Bool.or_eq_true, beq_iff_eq] at h'
    rcases h' with rfl | rfl <;> decide
  have hd' : d.toNat ≠ 0x212a ∧ d.toNat ≠ 0x17f ∧ ¬ (65 ≤ d.toNat ∧ d.toNat ≤ 90) := by
    simp only [dateChar, lett, Bool.or_eq_true, Bool.and_eq_true, decide_eq_true_eq, beq_iff_eq, bne_iff_ne] at hd
    omega
  by_cases hl : 97 ≤ c.toNat ∧ c.toNat ≤ 122
  · simp only [Bool.or_eq_true, Bool.and_eq_true, beq_iff_eq] at h
    rcases h with (((h | h) | h) | ⟨_, h⟩) | ⟨_, h⟩
    · exact h
    · exact h
    · exfalso
      apply hd'.2.2
      rw [h]
      have : ∀ n : Nat, 97 ≤ n → n ≤ 122 → 65 ≤ (Char.ofNat n).toUpper.toNat ∧ (Char.ofNat n).toUpper.toNat ≤ 90 := by
        intro n h1 h2
        have key : ∀ n < 123, 97 ≤ n → 65 ≤ (Char.ofNat n).toUpper.toNat ∧ (Char.ofNat n).toUpper.toNat ≤ 90 := by decide +kernel
        exact key n (by omega) h1
      have := this c.toNat hl.1 hl.2
      rwa [Char.ofNat_toNat] at this
    · exfalso; apply hd'.1; rw [h]; rfl
    · exfalso; apply hd'.2.1; rw [h]; rfl
  · rw [toUpper_of hl] at h
    simp only [Bool.or_eq_true, Bool.and_eq_true, beq_iff_eq] at h
    rcases h with (((h | h) | h) | ⟨_, h⟩) | ⟨_, h⟩
    · exact h
    · exact h
    · exact h
    · exfalso; apply hd'.1; rw [h]; rfl
    · exfalso; apply hd'.2.1; rw [h]; rfl

theorem lett_noUpper {c : Char} (h : lett c = true ∨ c.toNat = 32) : ¬ (65 ≤ c.toNat ∧ c.toNat ≤ 90) := by
  simp only [lett, Bool.or_eq_true, Bool.and_eq_true, decide_eq_true_eq, bne_iff_ne] at h
  omega

theorem fold_eq_all {T : List Char} (hT : ∀ c ∈ T, dateChar c = true ∨ lett c = true) {l x : List Char} (h : Rel2 (fun c d => foldEq c d = true) l x)
    (hx : ∀ c ∈ x, c ∈ T) (hl : ∀ c ∈ l, ¬ (65 ≤ c.toNat ∧ c.toNat ≤ 90)) : x = l := by
  induction h with
  | nil => rfl
  | cons hcd _ ih =>
    rw [fold_same (hT _ (hx _ (by simp))) (hl _ (by simp)) hcd, ih (fun c hc => hx c (by simp [hc])) fun c hc => hl c (by simp [hc])]

theorem takeWhile_split (s : List Char) : s = s.takeWhile (fun c => !lett c) ++ ((s.dropWhile fun c => !lett c).takeWhile lett ++ (s.dropWhile fun c => !lett c).dropWhile lett) := by
  rw [List.takeWhile_append_dropWhile, List.takeWhile_append_dropWhile]

theorem isPre_self (a : List Char) : isPre a a = true := by
  have := isPre_append a []
  simpa using this

/-- A literal text cannot match. -/
theorem litCannot_sound {w T : List Char} (hF : Framed w T) {l : List Char} (h : litCannot w l = true) {s : MSt} (hs : At T s) : (litRx l).run s = [] := by
  rw [List.eq_nil_iff_forall_not_mem]
  intro t ht
  obtain ⟨x, h1, h2⟩ := litRx_run l s t ht
  have hx : ∀ c ∈ x, c ∈ T := fun c hc => hs.mem (by rw [h1]; simp [hc])
  unfold litCannot at h
  rw [Bool.or_eq_true, Bool.or_eq_true] at h
  have find : ∀ {c : Char} {l x : List Char}, Rel2 (fun c d => foldEq c d = true) l x → c ∈ l → ∃ d ∈ x, foldEq c d = true := by
    intro c l x h
    induction h with
    | nil => intro h; cases h
    | cons hcd _ ih =>
      intro h
      rcases List.mem_cons.mp h with rfl | h
      · exact ⟨_, by simp, hcd⟩
      · obtain ⟨d, hd, hf⟩ := ih h
        exact ⟨d, by simp [hd], hf⟩
  rcases h with (h | h) | h
  · -- a character that is not in the text
    rw [List.any_eq_true] at h
    obtain ⟨c, hc, h⟩ := h
    simp only [Bool.and_eq_true, Bool.not_eq_true', Bool.and_eq_false_iff, decide_eq_true_eq, decide_eq_false_iff_not] at h
    obtain ⟨⟨⟨g1, g2⟩, g3⟩, _⟩ := h
    obtain ⟨d, hd, hf⟩ := find h2 hc
    have e := fold_same (hF.chars d (hx d hd)) (by omega) hf
    subst e
    rcases hF.chars d (hx d hd) with h | h
    · rw [g2] at h; cases h
    · rw [g1] at h; cases h
  · -- a letter that is not in the word
    rw [List.any_eq_true] at h
    obtain ⟨c, hc, h⟩ := h
    rw [Bool.and_eq_true, Bool.not_eq_true', List.any_eq_false] at h
    obtain ⟨d, hd, hf⟩ := find h2 hc
    have e := fold_same (hF.chars d (hx d hd)) (lett_noUpper (Or.inl h.1)) hf
    subst e
    exact h.2 d (hF.mem (hx d hd) h.1) (by simp)
  · rw [Bool.and_eq_true, List.all_eq_true] at h
    obtain ⟨hall, hrun⟩ := h
    have e : x = l := by
      refine fold_eq_all hF.chars h2 hx fun c hc => lett_noUpper ?_
      have := hall c hc
      simpa using this
    subst e
    obtain ⟨a, hT, hprev⟩ := hs
    rw [h1] at hT
    unfold litCannot.runCannot at hrun
    simp only [Bool.and_eq_true, Bool.not_eq_true', List.isEmpty_eq_false_iff] at hrun
    obtain ⟨hne, hno⟩ := hrun
    generalize hp : x.takeWhile (fun c => !lett c) = p at *
    generalize hrest : (x.dropWhile fun c => !lett c) = rs at *
    have hsplit : x = p ++ rs := by rw [← hp, ← hrest, List.takeWhile_append_dropWhile]
    have hsplit2 : rs = rs.takeWhile lett ++ rs.dropWhile lett := List.takeWhile_append_dropWhile.symm
    generalize hr : rs.takeWhile lett = r at *
    generalize hq : rs.dropWhile lett = q at *
    have hrl : ∀ c ∈ r, lett c = true := by
      intro c hc
      rw [← hr] at hc
      have := List.all_takeWhile (l := rs) (p := lett)
      exact List.all_eq_true.mp this c hc
    obtain ⟨u, v, hw, hu, hv⟩ := hF.wordRuns (a ++ p) r (q ++ t.rest) (by rw [hT, hsplit, hsplit2]; simp) hne hrl
    have hplast : p ≠ [] → u = [] := by
      intro hpne
      apply hu
      intro z hz
      rw [List.getLast?_append] at hz
      cases hpl : p.getLast? with
      | none => exact absurd (List.getLast?_eq_none_iff.mp hpl) hpne
      | some y =>
        rw [hpl] at hz
        have hzy : y = z := by simpa using hz
        have hzm : z ∈ p := by rw [← hzy]; exact List.mem_of_getLast? hpl
        have := List.all_takeWhile (l := x) (p := fun c => !lett c)
        rw [hp] at this
        have := List.all_eq_true.mp this z hzm
        simpa using this
    have hqhead : q ≠ [] → v = [] := by
      intro hqne
      apply hv
      intro z hz
      cases q with
      | nil => exact absurd rfl hqne
      | cons y q =>
        simp only [List.cons_append, List.head?_cons, Option.some.injEq] at hz
        subst hz
        have := List.head?_dropWhile_not lett rs
        rw [hq] at this
        simpa using this
    have hfirst : x.head?.all lett = false → p ≠ [] := by
      intro hf hpe
      cases x with
      | nil => simp at hf
      | cons y x =>
        simp only [List.head?_cons, Option.all_some] at hf
        rw [List.takeWhile_cons_of_pos (by simpa using hf)] at hp
        rw [← hp] at hpe
        cases hpe
    have hlen : (r.length == rs.length) = true ↔ q = [] := by
      rw [hsplit2, List.length_append, beq_iff_eq]
      constructor
      · intro h
        exact List.length_eq_zero_iff.mp (by omega)
      · rintro rfl; simp
    split at hno
    · split at hno
      · rw [hw, isInf_append] at hno; cases hno
      · rename_i hf
        have hu0 := hplast (hfirst (by simpa using hf))
        rw [hw, hu0, List.nil_append, isPre_append] at hno
        cases hno
    · rename_i hl
      have hv0 := hqhead fun e => hl (hlen.mpr e)
      split at hno
      · rw [hw, hv0, List.append_nil, List.reverse_append, isPre_append] at hno; cases hno
      · rename_i hf
        have hu0 := hplast (hfirst (by simpa using hf))
        rw [hw, hv0, hu0] at hno
        simp at hno

theorem rng_sound {w T : List Char} (hF : Framed w T) {lo hi : Char} (h : rngCannot w lo hi = true) {c : Char} (hc : c ∈ T) : ¬ (lo ≤ c ∧ c ≤ hi) := by
  rintro ⟨h1, h2⟩
  have a1 : lo.toNat ≤ c.toNat := h1
  have a2 : c.toNat ≤ hi.toNat := h2
  unfold rngCannot at h
  rw [Bool.and_eq_true, List.all_eq_true] at h
  rcases hF.chars c hc with hd | hl
  · have := h.2
    simp only [dateChar, Bool.or_eq_true, Bool.and_eq_true, decide_eq_true_eq, beq_iff_eq] at hd this
    omega
  · have := h.1 c (hF.mem hc hl)
    simp only [Bool.or_eq_true, decide_eq_true_eq] at this
    omega

/-- The Unicode tables take the characters of the word for letters or marks. -/
def WordLetters (U : Uni) (w : List Char) : Prop := ∀ c ∈ w, U.isLetter c = true ∨ U.isMark c = true

theorem neg_letter {U : Uni} {l : List CItem} (h1 : l.contains .letter = true) (h2 : l.contains .mark = true) {c : Char}
    (hc : U.isLetter c = true ∨ U.isMark c = true) : (l.any (·.has U c) != true) = false := by
  have : l.any (·.has U c) = true := by
    rw [List.any_eq_true]
    rcases hc with hc | hc
    · exact ⟨.letter, by simpa using h1, hc⟩
    · exact ⟨.mark, by simpa using h2, hc⟩
  rw [this]; rfl

theorem start_run {U : Uni} {w T : List Char} (hF : Framed w T) (hU : WordLetters U w) {p : Pat} (hp : isStart p = true) {s t : MSt} (hs : At T s)
    (ht : t ∈ (p.toRx U).run s) : ∃ a, T = a ++ t.rest ∧ ∀ x, a.getLast? = some x → lett x = false := by
  obtain ⟨a, h1, h2⟩ := hs
  unfold isStart at hp
  split at hp
  · rename_i n l
    rw [Bool.and_eq_true] at hp
    have ht : t ∈ (((Rx.bos).run s) ++ (Rx.chr fun c => l.any (·.has U c) != true).run s).map (fun t => { t with caps := (n, s.rest.take (s.rest.length - t.rest.length)) :: t.caps }) := ht
    rw [List.mem_map] at ht
    obtain ⟨t', ht', rfl⟩ := ht
    rw [List.mem_append] at ht'
    rcases ht' with ht' | ht'
    · unfold Rx.run at ht'
      split at ht'
      · rename_i hn
        simp only [List.mem_singleton] at ht'
        subst ht'
        refine ⟨a, h1, fun x hx => ?_⟩
        rw [h2, hx] at hn
        simp at hn
      · cases ht'
    · unfold Rx.run at ht'
      split at ht'
      · rename_i c r hr
        split at ht'
        · rename_i hc
          simp only [List.mem_singleton] at ht'
          subst ht'
          refine ⟨a ++ [c], by rw [h1, hr]; simp, fun x hx => ?_⟩
          simp only [List.getLast?_append, List.getLast?_singleton, Option.some_or, Option.some.injEq] at hx
          subst hx
          cases hl : lett c with
          | false => rfl
          | true =>
            have hm := hF.mem (c := c) (by rw [h1, hr]; simp) hl
            have := neg_letter hp.1 hp.2 (hU c hm)
            simp only [this] at hc
            cases hc
        · cases ht'
      · cases ht'
  · cases hp

theorem end_run {U : Uni} {w : List Char} (hU : WordLetters U w) {p : Pat} (hp : isEnd p = true) {s : MSt} {c : Char} {r : List Char} (hr : s.rest = c :: r) (hc : c ∈ w) :
    (p.toRx U).run s = [] := by
  unfold isEnd at hp
  split at hp
  · rename_i n l
    rw [Bool.and_eq_true] at hp
    show (((Rx.eos).run s) ++ (Rx.chr fun c => l.any (·.has U c) != true).run s).map _ = []
    have h1 : (Rx.eos).run s = [] := by unfold Rx.run; rw [hr]; rfl
    have h2 : (Rx.chr fun c => l.any (·.has U c) != true).run s = [] := by
      unfold Rx.run
      rw [hr]
      simp only [neg_letter hp.1 hp.2 (hU c hc)]
      rfl
    rw [h1, h2]; rfl
  · cases hp

theorem cannot_sound {U : Uni} {w T : List Char} (hF : Framed w T) (hU : WordLetters U w) : ∀ (p : Pat), cannot w p = true → ∀ s, At T s → (p.toRx U).run s = [] := by
  intro p
  induction p with
  | eps => intro h; simp [cannot] at h
  | bos => intro h; simp [cannot] at h
  | eos => intro h; simp [cannot] at h
  | opt a _ => intro h; simp [cannot] at h
  | star a _ => intro h; simp [cannot] at h
  | lit l => intro h s hs; exact litCannot_sound hF h hs
  | cls neg items =>
    intro h s hs
    cases neg with
    | true => simp [cannot] at h
    | false =>
      unfold cannot at h
      rw [List.all_eq_true] at h
      show (Rx.chr fun c => items.any (·.has U c) != false).run s = []
      unfold Rx.run
      split
      · rename_i c r hr
        rw [if_neg]
        simp only [bne_iff_ne, ne_eq, Bool.not_eq_false, Bool.not_eq_true, List.any_eq_false]
        intro hno
        apply hno
        intro i hi
        rw [Bool.eq_false_iff]
        have := h i hi
        cases i with
        | rng lo hi' =>
          intro hh
          simp only [CItem.has, Bool.and_eq_true, decide_eq_true_eq] at hh
          exact rng_sound hF this (hs.mem (by rw [hr]; simp)) hh
        | digit => simp at this
        | space => simp at this
        | letter => simp at this
        | mark => simp at this
      · rfl
  | seq a b iha ihb =>
    intro h s hs
    show ((a.toRx U).run s).flatMap (b.toRx U).run = []
    unfold cannot at h
    rw [Bool.or_eq_true, Bool.or_eq_true] at h
    rcases h with (h | h) | h
    · rw [iha h s hs]; rfl
    · rw [List.flatMap_eq_nil_iff]
      intro t ht
      exact ihb h t (hs.run ht)
    · rw [Bool.and_eq_true] at h
      obtain ⟨hst, h⟩ := h
      rw [List.flatMap_eq_nil_iff]
      intro t ht
      obtain ⟨a', ha1, ha2⟩ := start_run hF hU hst hs ht
      split at h
      · rename_i l r
        simp only [Bool.and_eq_true, List.all_eq_true, Bool.not_eq_true', List.isEmpty_eq_false_iff] at h
        obtain ⟨⟨hl, hne⟩, h⟩ := h
        show ((litRx l).run t).flatMap (r.toRx U).run = []
        rw [List.flatMap_eq_nil_iff]
        intro v hv
        obtain ⟨x, h1, h2⟩ := litRx_run l t v hv
        have e : x = l := fold_eq_all hF.chars h2 (fun c hc => by rw [ha1, h1]; simp [hc]) fun c hc => lett_noUpper (Or.inl (hl c hc))
        subst e
        obtain ⟨u, z, hw, hu, hz⟩ := hF.wordRuns a' x v.rest (by rw [ha1, h1]; simp) hne hl
        have hu0 := hu ha2
        subst hu0
        rw [List.nil_append] at hw
        rw [hw, isPre_append] at h
        simp only [Bool.not_true, Bool.false_or, Bool.and_eq_true, decide_eq_true_eq] at h
        obtain ⟨hend, hlt⟩ := h
        -- the next character is in the word
        cases hv' : v.rest with
        | nil =>
          rw [hv'] at hz
          have := hz (fun x hx => by cases hx)
          rw [this] at hlt
          simp at hlt
        | cons c rest =>
          cases hlc : lett c with
          | true =>
            have hm : c ∈ w := hF.mem (by rw [ha1, h1, hv']; simp) hlc
            exact end_run hU hend hv' hm
          | false =>
            exfalso
            have := hz (fun y hy => by rw [hv'] at hy; simp only [List.head?_cons, Option.some.injEq] at hy; rw [← hy]; exact hlc)
            rw [this] at hlt
            simp at hlt
      · cases h
  | alt a b iha ihb =>
    intro h s hs
    unfold cannot at h
    rw [Bool.and_eq_true] at h
    show (a.toRx U).run s ++ (b.toRx U).run s = []
    rw [iha h.1 s hs, ihb h.2 s hs]; rfl
  | grp n a iha =>
    intro h s hs
    show ((a.toRx U).run s).map _ = []
    rw [iha h s hs]; rfl

theorem cannot_find {U : Uni} {w T : List Char} (hF : Framed w T) (hU : WordLetters U w) {p : Pat} (h : cannot w p = true) : (p.toRx U).find none T = none :=
  find_none T none fun a b e => cannot_sound hF hU p h _ ⟨a, e, by simp [lastOr]⟩

theorem cannot_matches {U : Uni} {w T : List Char} (hF : Framed w T) (hU : WordLetters U w) {p : Pat} (h : cannot w p = true) : (p.toRx U).matches T = false := by
  unfold Rx.matches
  rw [cannot_find hF hU h]; rfl

end Verif.Lemmas
