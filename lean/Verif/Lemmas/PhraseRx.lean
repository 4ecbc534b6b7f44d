import Verif.Lemmas.WordClean
/-!
Helper lemmas: patterns that do not match in a text of words; what they find in it does not depend on the Unicode tables.
-/
set_option autoImplicit false
namespace Verif.Lemmas
open Verif.Go Verif.Model Verif.Data Verif.Spec

/-- Space, apostrophe, hyphen. -/
def joint (c : Char) : Bool := c.toNat == 32 || c.toNat == 39 || c.toNat == 45

/-- Unicode tables for texts of words: everything beyond ASCII is a letter. -/
def wordUni : Uni where
  nfkc := id
  lower := id
  isLetter := fun c => c.isAlpha || decide (128 ≤ c.toNat)
  isMark := fun _ => false
  isNumber := Char.isDigit
  isDigit := Char.isDigit

/-- The classes of a pattern do not tell letters from marks. -/
def balanced : Pat → Bool
  | .cls _ items => items.contains .letter == items.contains .mark
  | .seq a b => balanced a && balanced b
  | .alt a b => balanced a && balanced b
  | .opt a => balanced a
  | .star a => balanced a
  | .grp _ a => balanced a
  | _ => true

/-- A text of letters, marks, spaces, apostrophes and hyphens. -/
def Wordy (U : Uni) (T : List Char) : Prop := ∀ c ∈ T, joint c = true ∨ (lett c = true ∧ (U.isLetter c = true ∨ U.isMark c = true))

theorem joint_ascii {c : Char} (h : joint c = true) : c.toNat < 128 ∧ c.isAlpha = false ∧ c.isDigit = false := by
  simp only [joint, Bool.or_eq_true, beq_iff_eq] at h
  have key : ∀ n, (n = 32 ∨ n = 39 ∨ n = 45) → (Char.ofNat n).toNat < 128 ∧ (Char.ofNat n).isAlpha = false ∧ (Char.ofNat n).isDigit = false := by
    rintro n (rfl | rfl | rfl) <;> decide
  have := key c.toNat (by omega)
  rwa [Char.ofNat_toNat] at this

theorem lett_letter {c : Char} (h : lett c = true) : wordUni.isLetter c = true := by
  simp only [lett, Bool.or_eq_true, Bool.and_eq_true, decide_eq_true_eq] at h
  show (c.isAlpha || decide (128 ≤ c.toNat)) = true
  rcases h with h | h
  · have key : ∀ n < 123, 97 ≤ n → (Char.ofNat n).isAlpha = true := by decide +kernel
    have := key c.toNat (by omega) h.1
    rw [Char.ofNat_toNat] at this
    rw [this]; rfl
  · simp [h.1]

theorem items_same {U : Uni} (hU : AsciiUni U) {items : List CItem} (hb : (items.contains CItem.letter == items.contains CItem.mark) = true) {c : Char}
    (hc : joint c = true ∨ (lett c = true ∧ (U.isLetter c = true ∨ U.isMark c = true))) : items.any (·.has U c) = items.any (·.has wordUni c) := by
  rcases hc with hc | ⟨hl, hc⟩
  · obtain ⟨h1, h2, _⟩ := joint_ascii hc
    have : ∀ i : CItem, i.has U c = i.has wordUni c := by
      intro i
      cases i with
      | letter => show U.isLetter c = wordUni.isLetter c; rw [hU.isLetter c h1]; show _ = (c.isAlpha || decide (128 ≤ c.toNat)); rw [h2]; simp; omega
      | mark => show U.isMark c = wordUni.isMark c; rw [hU.isMark c h1]; rfl
      | _ => rfl
    simp [this]
  · have h0 := lett_letter hl
    rw [beq_iff_eq] at hb
    cases hm : items.contains CItem.letter with
    | true =>
      have hk : items.contains CItem.mark = true := by rw [← hb, hm]
      rw [List.contains_iff_mem] at hm hk
      have e1 : items.any (·.has wordUni c) = true := List.any_eq_true.mpr ⟨_, hm, h0⟩
      have e2 : items.any (·.has U c) = true := by
        rcases hc with hc | hc
        · exact List.any_eq_true.mpr ⟨_, hm, hc⟩
        · exact List.any_eq_true.mpr ⟨_, hk, hc⟩
      rw [e1, e2]
    | false =>
      have hk : items.contains CItem.mark = false := by rw [← hb, hm]
      have g1 : CItem.letter ∉ items := by rw [← List.contains_iff_mem, hm]; simp
      have g2 : CItem.mark ∉ items := by rw [← List.contains_iff_mem, hk]; simp
      rw [Bool.eq_iff_iff, List.any_eq_true, List.any_eq_true]
      have : ∀ i ∈ items, i.has U c = i.has wordUni c := by
        intro i hi
        cases i with
        | letter => exact absurd hi g1
        | mark => exact absurd hi g2
        | _ => rfl
      constructor
      · rintro ⟨i, hi, h⟩; exact ⟨i, hi, by rw [← this i hi]; exact h⟩
      · rintro ⟨i, hi, h⟩; exact ⟨i, hi, by rw [this i hi]; exact h⟩

theorem flatMap_same {α β : Type} {f g : α → List β} {l : List α} (h : ∀ a ∈ l, f a = g a) : l.flatMap f = l.flatMap g := by
  induction l with
  | nil => rfl
  | cons a l ih => rw [List.flatMap_cons, List.flatMap_cons, h a (by simp), ih fun x hx => h x (by simp [hx])]

/-- The two runs are the same. -/
theorem run_same {U : Uni} (hU : AsciiUni U) {T : List Char} (hT : Wordy U T) : ∀ (p : Pat), balanced p = true → ∀ s, At T s → (p.toRx U).run s = (p.toRx wordUni).run s := by
  intro p
  induction p with
  | eps => intros; rfl
  | lit l => intros; rfl
  | cls neg items =>
    intro hb s hs
    simp only [Pat.toRx, Rx.run]
    cases hr : s.rest with
    | nil => rfl
    | cons c r =>
      simp only
      rw [items_same hU hb (hT c (hs.mem (by rw [hr]; simp)))]
  | seq a b iha ihb =>
    intro hb s hs
    simp only [balanced, Bool.and_eq_true] at hb
    simp only [Pat.toRx, Rx.run]
    rw [iha hb.1 s hs]
    exact flatMap_same fun t ht => ihb hb.2 t (hs.run ht)
  | alt a b iha ihb =>
    intro hb s hs
    simp only [balanced, Bool.and_eq_true] at hb
    simp only [Pat.toRx, Rx.run]
    rw [iha hb.1 s hs, ihb hb.2 s hs]
  | opt a iha =>
    intro hb s hs
    simp only [Pat.toRx, Rx.run]
    rw [iha hb s hs]
  | star a iha =>
    intro hb s hs
    simp only [Pat.toRx, Rx.run]
    have : ∀ n s, At T s → starRun (a.toRx U).run n s = starRun (a.toRx wordUni).run n s := by
      intro n
      induction n with
      | zero => intros; rfl
      | succ n ih =>
        intro s hs
        unfold starRun
        rw [iha hb s hs]
        congr 1
        refine flatMap_same fun t ht => ih t ?_
        exact hs.run ((List.mem_filter.mp ht).1)
    exact this _ s hs
  | grp n a iha =>
    intro hb s hs
    simp only [Pat.toRx, Rx.run]
    rw [iha hb s hs]
  | bos => intros; rfl
  | eos => intros; rfl

/-! ## Patterns that do not match -/

/-- The text begins so, but for case. -/
def preFold : List Char → List Char → Bool
  | [], _ => true
  | _ :: _, [] => false
  | c :: a, d :: b => foldEq c d && preFold a b
def infFold (a : List Char) : List Char → Bool
  | [] => preFold a []
  | c :: b => preFold a (c :: b) || infFold a b

theorem infFold_of {l x b : List Char} (h : Rel2 (fun c d => foldEq c d = true) l x) : ∀ a : List Char, infFold l (a ++ (x ++ b)) = true := by
  have h0 : preFold l (x ++ b) = true := by
    induction h with
    | nil => cases b <;> rfl
    | cons h _ ih => simp only [List.cons_append, preFold, h, ih, Bool.and_self]
  intro a
  induction a with
  | nil =>
    cases hx : x ++ b with
    | nil => rw [List.nil_append, ← hx]; rw [hx] at h0 ⊢; exact h0
    | cons c r => rw [hx] at h0; simp [infFold, h0]
  | cons c a ih => simp [infFold, ih]

/-- Some part that must occur does not. -/
def absent (T : List Char) : Pat → Bool
  | .lit s => !infFold s T
  | .cls false items => items.all fun
      | .rng lo hi => T.all fun c => decide (c.toNat < lo.toNat) || decide (hi.toNat < c.toNat)
      | .digit => T.all fun c => !c.isDigit
      | .space => T.all fun c => !isRxSpace c
      | _ => false
  | .seq a b => absent T a || absent T b
  | .alt a b => absent T a && absent T b
  | .grp _ a => absent T a
  | _ => false

theorem absent_sound {U : Uni} {T : List Char} : ∀ (p : Pat), absent T p = true → ∀ s, At T s → ∀ t, t ∉ (p.toRx U).run s := by
  intro p
  induction p with
  | lit l =>
    intro h s hs t ht
    simp only [absent, Bool.not_eq_true'] at h
    obtain ⟨x, hx, hr⟩ := litRx_run l s t ht
    obtain ⟨a, ha, _⟩ := hs
    rw [ha, hx, infFold_of hr] at h
    cases h
  | cls neg items =>
    intro h s hs t ht
    cases neg with
    | true => simp [absent] at h
    | false =>
      obtain ⟨c, hc, hp⟩ := wordChr_run ht
      have hm : c ∈ T := hs.mem (by rw [hc]; simp)
      simp only [Bool.bne_false, List.any_eq_true] at hp
      obtain ⟨i, hmi, hp⟩ := hp
      have h := List.all_eq_true.mp h i hmi
      cases i with
      | rng lo hi =>
        have h := List.all_eq_true.mp h c hm
        simp only [Bool.or_eq_true, decide_eq_true_eq] at h
        have hp : (decide (lo ≤ c) && decide (c ≤ hi)) = true := hp
        simp only [Bool.and_eq_true, decide_eq_true_eq] at hp
        have h1 : lo.toNat ≤ c.toNat := hp.1
        have h2 : c.toNat ≤ hi.toNat := hp.2
        omega
      | digit =>
        have h := List.all_eq_true.mp h c hm
        have hp : c.isDigit = true := hp
        rw [hp] at h; cases h
      | space =>
        have h := List.all_eq_true.mp h c hm
        have hp : isRxSpace c = true := hp
        rw [hp] at h; cases h
      | letter => cases h
      | mark => cases h
  | seq a b iha ihb =>
    intro h s hs t ht
    simp only [absent, Bool.or_eq_true] at h
    obtain ⟨u, hu, ht⟩ := seq_run ht
    rcases h with h | h
    · exact iha h s hs u hu
    · exact ihb h u (hs.run hu) t ht
  | alt a b iha ihb =>
    intro h s hs t ht
    simp only [absent, Bool.and_eq_true] at h
    rcases alt_run ht with ht | ht
    · exact iha h.1 s hs t ht
    · exact ihb h.2 s hs t ht
  | grp n a iha =>
    intro h s hs t ht
    obtain ⟨u, hu, _⟩ := grp_run ht
    exact iha h s hs u hu
  | eps => intro h; cases h
  | opt a => intro h; cases h
  | star a => intro h; cases h
  | bos => intro h; cases h
  | eos => intro h; cases h

/-- The pattern does not match in this text. -/
def misses (T : List Char) (p : Pat) : Bool := absent T p || (balanced p && ((p.toRx wordUni).find none T).isNone)

theorem misses_find {U : Uni} (hU : AsciiUni U) {T : List Char} (hT : Wordy U T) {p : Pat} (h : misses T p = true) : (p.toRx U).find none T = none := by
  simp only [misses, Bool.or_eq_true, Bool.and_eq_true] at h
  rcases h with h | ⟨hb, h⟩
  · refine find_none T none fun a b e => ?_
    unfold Rx.Fails
    rw [List.eq_nil_iff_forall_not_mem]
    exact absent_sound p h _ ⟨a, e, by simp [lastOr]⟩
  · have h : (p.toRx wordUni).find none T = none := by simpa using h
    have key : ∀ (b a : List Char), T = a ++ b → (p.toRx U).find a.getLast? b = (p.toRx wordUni).find a.getLast? b := by
      intro b
      induction b with
      | nil =>
        intro a e
        unfold Rx.find
        rw [run_same hU hT p hb _ ⟨a, e, rfl⟩]
      | cons c b ih =>
        intro a e
        unfold Rx.find
        rw [run_same hU hT p hb _ ⟨a, e, rfl⟩]
        have := ih (a ++ [c]) (by simp [e])
        simp only [List.getLast?_append, List.getLast?_singleton, Option.some_or] at this
        rw [this]
    have := key T [] rfl
    rw [List.getLast?_nil] at this
    rw [this, h]

theorem misses_matches {U : Uni} (hU : AsciiUni U) {T : List Char} (hT : Wordy U T) {p : Pat} (h : misses T p = true) : (p.toRx U).matches T = false := by
  unfold Rx.matches
  rw [misses_find hU hT h]; rfl

end Verif.Lemmas
