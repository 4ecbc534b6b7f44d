import Verif.Lemmas.Related
import Verif.Model.Pattern
/-!
Helper lemmas: splitting and translating two texts that differ in digits only.
-/
set_option autoImplicit false
namespace Verif.Lemmas
open Verif.Go Verif.Model

/-- Related characters are the same or both digits. -/
def DigitRel (R : Char → Char → Prop) : Prop :=
  ∀ x y, R x y → (x = y ∧ x.isDigit = false) ∨ (x.isDigit = true ∧ y.isDigit = true)

/-- The Unicode tables agree about related characters. -/
structure UniRel (R : Char → Char → Prop) (U V : Uni) : Prop where
  isDigit : ∀ x y, R x y → U.isDigit x = V.isDigit y
  isNumber : ∀ x y, R x y → U.isNumber x = V.isNumber y
  isLetter : ∀ x y, R x y → U.isLetter x = V.isLetter y
  isMark : ∀ x y, R x y → U.isMark x = V.isMark y

def digitFree (w : List Char) : Bool := w.all fun c => !c.isDigit

variable {R : Char → Char → Prop}

theorem digit_range {c : Char} (h : c.isDigit = true) : 48 ≤ c.toNat ∧ c.toNat ≤ 57 := by
  simp only [Char.isDigit, Bool.and_eq_true, decide_eq_true_eq] at h
  exact ⟨h.1, h.2⟩

/-- A class that contains all digits or none. -/
theorem DigitRel.cls (hR : DigitRel R) {p : Char → Bool} {b : Bool} (hp : ∀ c, c.isDigit = true → p c = b) :
    ∀ x y, R x y → p x = p y := by
  intro x y h
  rcases hR x y h with ⟨e, _⟩ | ⟨hx, hy⟩
  · rw [e]
  · rw [hp x hx, hp y hy]

theorem DigitRel.eqc (hR : DigitRel R) {c : Char} (hc : c.isDigit = false) : ∀ x y, R x y → (x = c ↔ y = c) := by
  intro x y h
  rcases hR x y h with ⟨e, _⟩ | ⟨hx, hy⟩
  · rw [e]
  · constructor
    · intro e; rw [e, hc] at hx; simp at hx
    · intro e; rw [e, hc] at hy; simp at hy

theorem digit_isSpace {c : Char} (h : c.isDigit = true) : isSpace c = false := by
  have h := digit_range h
  have hn : ∀ d : Char, d.toNat < 48 ∨ 57 < d.toNat → (c == d) = false := by
    intro d hd
    simp only [beq_eq_false_iff_ne]
    intro e; subst e; omega
  simp only [isSpace, hn '\t' (by decide), hn '\n' (by decide), hn '\x0b' (by decide), hn '\x0c' (by decide), hn '\r' (by decide),
    hn ' ' (by decide), hn '\u0085' (by decide), hn '\u00a0' (by decide), hn '\u1680' (by decide), hn '\u2028' (by decide),
    hn '\u2029' (by decide), hn '\u202f' (by decide), hn '\u205f' (by decide), hn '\u3000' (by decide)]
  have : ¬ '\u2000' ≤ c := by
    intro hh
    have : ('\u2000').toNat ≤ c.toNat := hh
    have : ('\u2000').toNat = 8192 := by decide
    omega
  simp [this]

theorem DigitRel.isSpace (hR : DigitRel R) : ∀ x y, R x y → isSpace x = isSpace y := hR.cls fun _ h => digit_isSpace h
theorem DigitRel.isDigit (hR : DigitRel R) : ∀ x y, R x y → x.isDigit = y.isDigit := hR.cls fun _ h => h
theorem DigitRel.isAlphanum (hR : DigitRel R) : ∀ x y, R x y → x.isAlphanum = y.isAlphanum :=
  hR.cls (b := true) fun _ h => by simp [Char.isAlphanum, h]

/-! ## Texts -/

theorem dropWhile_rel {p q : Char → Bool} (hp : ∀ x y, R x y → p x = q y) {s t : List Char} (h : Rel2 R s t) :
    Rel2 R (s.dropWhile p) (t.dropWhile q) := by
  induction h with
  | nil => exact .nil
  | cons h1 h2 ih =>
    simp only [List.dropWhile_cons, hp _ _ h1]
    split
    · exact ih
    · exact .cons h1 h2

theorem trimSpace_rel (hR : DigitRel R) {s t : List Char} (h : Rel2 R s t) : Rel2 R (trimSpace s) (trimSpace t) :=
  (dropWhile_rel hR.isSpace (dropWhile_rel hR.isSpace h).reverse).reverse

theorem eq_rel (hR : DigitRel R) {w : List Char} (hw : digitFree w = true) : ∀ {s t : List Char}, Rel2 R s t → (s = w ↔ t = w) := by
  induction w with
  | nil => intro s t h; cases h <;> simp
  | cons c w ih =>
    intro s t h
    simp only [digitFree, List.all_cons, Bool.and_eq_true, Bool.not_eq_true'] at hw
    cases h with
    | nil => simp
    | cons h1 h2 => simp only [List.cons.injEq, hR.eqc hw.1 _ _ h1, ih hw.2 h2]

theorem beq_rel (hR : DigitRel R) {w : List Char} (hw : digitFree w = true) {s t : List Char} (h : Rel2 R s t) : (s == w) = (t == w) := by
  have := eq_rel hR hw h
  rw [Bool.eq_iff_iff]; simpa using this

theorem contains_rel (hR : DigitRel R) {ws : List (List Char)} (hw : ws.all digitFree = true) {s t : List Char} (h : Rel2 R s t) :
    ws.contains s = ws.contains t := by
  induction ws with
  | nil => rfl
  | cons w ws ih =>
    simp only [List.all_cons, Bool.and_eq_true] at hw
    simp only [List.contains_cons, beq_rel hR hw.1 h, ih hw.2]

theorem prefix_rel (hR : DigitRel R) {w : List Char} (hw : digitFree w = true) : ∀ {s t : List Char}, Rel2 R s t →
    w.isPrefixOf s = w.isPrefixOf t := by
  induction w with
  | nil => intro s t h; simp
  | cons c w ih =>
    intro s t h
    simp only [digitFree, List.all_cons, Bool.and_eq_true, Bool.not_eq_true'] at hw
    cases h with
    | nil => rfl
    | @cons x y s t h1 h2 =>
      have : (c == x) = (c == y) := by
        rw [Bool.eq_iff_iff]; simp only [beq_iff_eq]
        have := hR.eqc hw.1 _ _ h1
        constructor
        · intro e; exact (this.mp e.symm).symm
        · intro e; exact (this.mpr e.symm).symm
      simp only [List.isPrefixOf, this, ih hw.2 h2]

theorem indexStr_rel (hR : DigitRel R) {w : List Char} (hw : digitFree w = true) {s t : List Char} (h : Rel2 R s t) :
    indexStr w s = indexStr w t := by
  induction h with
  | nil => rfl
  | cons h1 h2 ih => simp only [indexStr, prefix_rel hR hw (.cons h1 h2), ih]

theorem splitGo_rel (hR : DigitRel R) {w : List Char} (hw : digitFree w = true) {s t : List Char} (h : Rel2 R s t) :
    ∀ (k : Nat) {a b : List Char}, Rel2 R a b → Rel2 (Rel2 R) (splitGo w k a s) (splitGo w k b t) := by
  induction h with
  | nil => intro k a b hab; cases k <;> exact .single hab.reverse
  | cons h1 h2 ih =>
    intro k a b hab
    cases k with
    | zero =>
      simp only [splitGo, prefix_rel hR hw (.cons h1 h2)]
      split
      · exact .cons hab.reverse (ih _ .nil)
      · exact ih _ (.cons h1 hab)
    | succ k => simp only [splitGo]; exact ih _ hab

theorem alwaysKept_rel (hR : DigitRel R) {s t : List Char} (h : Rel2 R s t) : alwaysKept s = alwaysKept t :=
  contains_rel hR (by decide) h

theorem joinLoop_rel (hR : DigitRel R) {sep : List Char} (hs : Rel2 R sep sep) {l m : List (List Char)} (h : Rel2 (Rel2 R) l m) :
    ∀ {a b : List Char}, Rel2 R a b → Rel2 R (joinLoop sep a l) (joinLoop sep b m) := by
  induction h with
  | nil => intro a b _; exact .nil
  | cons h1 _ ih =>
    intro a b hab
    simp only [joinLoop, alwaysKept_rel hR hab, alwaysKept_rel hR h1]
    refine Rel2.append (Rel2.append ?_ h1) (ih h1)
    split
    · exact hs
    · exact .nil

theorem joinTokens_rel (hR : DigitRel R) {sep : List Char} (hs : Rel2 R sep sep) {l m : List (List Char)} (h : Rel2 (Rel2 R) l m) :
    Rel2 R (joinTokens sep l) (joinTokens sep m) := by
  cases h with
  | nil => exact .nil
  | cons h1 h2 => exact trimSpace_rel hR (h1.append (joinLoop_rel hR hs h2 h1))

/-! ## Templates -/

def tmplPlain (R : Char → Char → Prop) (t : List Tmpl) : Prop := ∀ x ∈ t, match x with
  | .lit s => Rel2 R s s
  | .ref _ => True

theorem expand_rel {m n : MSt} (h : StRel R m n) : ∀ {t : List Tmpl}, tmplPlain R t → Rel2 R (expandTmpl m t) (expandTmpl n t)
  | [], _ => .nil
  | .lit s :: r, ht => (ht (.lit s) (by simp)).append (expand_rel h (t := r) fun x hx => ht x (by simp [hx]))
  | .ref k :: r, ht => (cap_rel h k).append (expand_rel h (t := r) fun x hx => ht x (by simp [hx]))

theorem replaceAll_rel {a b : Rx} (h : RxRel R a b) {t : List Tmpl} (ht : tmplPlain R t) {u v : List Char} (hu : Rel2 R u v) :
    Rel2 R (replaceAllTmpl a t u) (replaceAllTmpl b t v) := by
  have := findAll_rel h hu
  exact (this.1.flatMap fun m n hm => hm.before.append (expand_rel hm.after ht)).append this.2

/-! ## Patterns -/

/-- A class element that treats all digits alike. -/
def CItem.uniform : CItem → Bool
  | .rng lo hi => (decide (lo.toNat ≤ 48) && decide (57 ≤ hi.toNat)) || decide (hi.toNat < 48) || decide (57 < lo.toNat)
  | _ => true
/-- A pattern that treats all digits alike. -/
def Pat.uniform : Pat → Bool
  | .lit s => digitFree s
  | .cls _ items => items.all CItem.uniform
  | .seq a b | .alt a b => Pat.uniform a && Pat.uniform b
  | .opt a | .star a | .grp _ a => Pat.uniform a
  | _ => true

theorem item_rel (hR : DigitRel R) {U V : Uni} (hU : UniRel R U V) {i : CItem} (hi : CItem.uniform i = true) :
    ∀ x y, R x y → i.has U x = i.has V y := by
  cases i with
  | rng lo hi' =>
    have hle : ∀ (a b : Char), (a ≤ b) = (a.toNat ≤ b.toNat) := fun _ _ => rfl
    simp only [CItem.uniform, Bool.or_eq_true, Bool.and_eq_true, decide_eq_true_eq] at hi
    show ∀ x y, R x y → (fun c : Char => (lo ≤ c && c ≤ hi' : Bool)) x = (fun c : Char => (lo ≤ c && c ≤ hi' : Bool)) y
    rcases hi with (⟨h1, h2⟩ | h1) | h1
    · refine hR.cls (b := true) ?_
      intro c hc
      have := digit_range hc
      simp only [hle, Bool.and_eq_true, decide_eq_true_eq]; omega
    · refine hR.cls (b := false) ?_
      intro c hc
      have := digit_range hc
      simp only [hle, Bool.and_eq_false_iff, decide_eq_false_iff_not]; omega
    · refine hR.cls (b := false) ?_
      intro c hc
      have := digit_range hc
      simp only [hle, Bool.and_eq_false_iff, decide_eq_false_iff_not]; omega
  | digit => exact hR.isDigit
  | space =>
    refine hR.cls (p := isRxSpace) (b := false) ?_
    intro c hc
    have h := digit_isSpace hc
    simp only [Verif.Go.isSpace, Bool.or_eq_false_iff] at h
    simp only [isRxSpace, Bool.or_eq_false_iff]
    simp [h]
  | letter => exact hU.isLetter
  | mark => exact hU.isMark

theorem foldEq_digit {c : Char} (hc : c.isDigit = false) {d : Char} (hd : d.isDigit = true) : foldEq c d = false := by
  have hd' := digit_range hd
  have h0 : (d == c) = false := by
    simp only [beq_eq_false_iff_ne]; intro e; rw [e, hc] at hd; simp at hd
  have h3 : (d == '\u212a') = false := by
    simp only [beq_eq_false_iff_ne]; intro e; rw [e] at hd; simp [Char.isDigit] at hd
  have h4 : (d == '\u017f') = false := by
    simp only [beq_eq_false_iff_ne]; intro e; rw [e] at hd; simp [Char.isDigit] at hd
  have h1 : (d == c.toLower) = false := by
    simp only [beq_eq_false_iff_ne]; intro e
    by_cases hu : c.isUpper = true
    · have : 65 ≤ c.toNat ∧ c.toNat ≤ 90 := by
        simp only [Char.isUpper, Bool.and_eq_true, decide_eq_true_eq] at hu
        exact ⟨hu.1, hu.2⟩
      have h2 : c.toLower.toNat = c.toNat + 32 := by
        have e2 : ∃ n : Fin 26, c = Char.ofNat (65 + n.val) := by
          refine ⟨⟨c.toNat - 65, by omega⟩, ?_⟩
          show c = Char.ofNat (65 + (c.toNat - 65))
          rw [show 65 + (c.toNat - 65) = c.toNat by omega, Char.ofNat_toNat]
        obtain ⟨n, e2⟩ := e2
        have key : ∀ n : Fin 26, (Char.ofNat (65 + n.val)).toLower.toNat = (Char.ofNat (65 + n.val)).toNat + 32 := by decide
        rw [e2]; exact key n
      rw [e] at hd'
      omega
    · have : c.toLower = c := by
        simp only [Char.toLower]
        split
        · rename_i hh
          exact absurd (by simp only [Char.isUpper, Bool.and_eq_true, decide_eq_true_eq]; exact hh) hu
        · rfl
      rw [this] at e; rw [e, hc] at hd; simp at hd
  have h2 : (d == c.toUpper) = false := by
    simp only [beq_eq_false_iff_ne]; intro e
    by_cases hu : c.isLower = true
    · have : 97 ≤ c.toNat ∧ c.toNat ≤ 122 := by
        simp only [Char.isLower, Bool.and_eq_true, decide_eq_true_eq] at hu
        exact ⟨hu.1, hu.2⟩
      have h2 : c.toUpper.toNat + 32 = c.toNat := by
        have e2 : ∃ n : Fin 26, c = Char.ofNat (97 + n.val) := by
          refine ⟨⟨c.toNat - 97, by omega⟩, ?_⟩
          show c = Char.ofNat (97 + (c.toNat - 97))
          rw [show 97 + (c.toNat - 97) = c.toNat by omega, Char.ofNat_toNat]
        obtain ⟨n, e2⟩ := e2
        have key : ∀ n : Fin 26, (Char.ofNat (97 + n.val)).toUpper.toNat + 32 = (Char.ofNat (97 + n.val)).toNat := by decide
        rw [e2]; exact key n
      rw [e] at hd'
      omega
    · have : c.toUpper = c := by
        simp only [Char.toUpper]
        split
        · rename_i hh
          exact absurd (by simp only [Char.isLower, Bool.and_eq_true, decide_eq_true_eq]; exact hh) hu
        · rfl
      rw [this] at e; rw [e, hc] at hd; simp at hd
  simp only [foldEq, h0, h1, h2, h3, h4, Bool.and_false, Bool.or_false]

theorem litRx_rel (hR : DigitRel R) : ∀ {s : List Char}, digitFree s = true → RxRel R (litRx s) (litRx s)
  | [], _ => .eps
  | [c], h => .chr (hR.cls fun d hd => foldEq_digit (by simpa [digitFree] using h) hd)
  | c :: d :: r, h => by
    simp only [digitFree, List.all_cons, Bool.and_eq_true, Bool.not_eq_true'] at h
    exact .seq (.chr (hR.cls fun x hx => foldEq_digit h.1 hx)) (litRx_rel hR (s := d :: r) (by
      simp only [digitFree, List.all_cons, Bool.and_eq_true, Bool.not_eq_true']; exact h.2))

theorem pat_rel (hR : DigitRel R) {U V : Uni} (hU : UniRel R U V) : ∀ {p : Pat}, Pat.uniform p = true → RxRel R (p.toRx U) (p.toRx V) := by
  intro p
  induction p with
  | eps => intro _; exact .eps
  | lit s => intro h; exact litRx_rel hR h
  | cls neg items =>
    intro h
    refine .chr ?_
    intro x y hxy
    have : items.any (·.has U x) = items.any (·.has V y) := by
      simp only [Pat.uniform] at h
      induction items with
      | nil => rfl
      | cons i r ih =>
        simp only [List.all_cons, Bool.and_eq_true] at h
        simp only [List.any_cons, item_rel hR hU h.1 x y hxy, ih h.2]
    simp only [this]
  | seq a b iha ihb =>
    intro h
    simp only [Pat.uniform, Bool.and_eq_true] at h
    exact .seq (iha h.1) (ihb h.2)
  | alt a b iha ihb =>
    intro h
    simp only [Pat.uniform, Bool.and_eq_true] at h
    exact .alt (iha h.1) (ihb h.2)
  | opt a iha => intro h; exact .opt (iha h)
  | star a iha => intro h; exact .star (iha h)
  | grp n a iha => intro h; exact .grp n (iha h)
  | bos => intro _; exact .bos
  | eos => intro _; exact .eos

/-! ## Relaxed patterns -/

def relaxLit (c : Char) : Pat := if c.isDigit then .cls false [.digit] else .lit [c]
/-- The classes of a pattern made larger such that all digits are treated alike. -/
def Pat.relax : Pat → Pat
  | .lit s => Pat.seqs (s.map relaxLit)
  | .cls neg items => if items.all CItem.uniform then .cls neg items else if neg then .cls true [] else .cls false [.rng '\x00' (Char.ofNat 0x10ffff)]
  | .seq a b => .seq (Pat.relax a) (Pat.relax b)
  | .alt a b => .alt (Pat.relax a) (Pat.relax b)
  | .opt a => .opt (Pat.relax a)
  | .star a => .star (Pat.relax a)
  | .grp n a => .grp n (Pat.relax a)
  | p => p

def RxSub (a b : Rx) : Prop := ∀ s t, t ∈ a.run s → t ∈ b.run s

theorem starRun_sub {f g : MSt → List MSt} (h : ∀ s t, t ∈ f s → t ∈ g s) : ∀ (n : Nat) (s t : MSt), t ∈ starRun f n s → t ∈ starRun g n s := by
  intro n
  induction n with
  | zero => intro s t ht; exact ht
  | succ n ih =>
    intro s t ht
    simp only [starRun, List.mem_append, List.mem_flatMap, List.mem_filter, List.mem_singleton] at ht ⊢
    rcases ht with ⟨u, ⟨h1, h2⟩, h3⟩ | ht
    · exact Or.inl ⟨u, ⟨h _ _ h1, h2⟩, ih _ _ h3⟩
    · exact Or.inr ht

theorem RxSub.chr {p q : Char → Bool} (h : ∀ c, p c = true → q c = true) : RxSub (.chr p) (.chr q) := by
  intro s t ht
  simp only [Rx.run] at ht ⊢
  split at ht
  · split at ht
    · rename_i hp; simp only [h _ hp, if_true]; exact ht
    · simp at ht
  · simp at ht
theorem RxSub.refl (a : Rx) : RxSub a a := fun _ _ h => h
theorem RxSub.seq {a b a' b' : Rx} (h : RxSub a a') (h' : RxSub b b') : RxSub (.seq a b) (.seq a' b') := by
  intro s t ht
  simp only [Rx.run, List.mem_flatMap] at ht ⊢
  obtain ⟨u, h1, h2⟩ := ht
  exact ⟨u, h _ _ h1, h' _ _ h2⟩
theorem RxSub.alt {a b a' b' : Rx} (h : RxSub a a') (h' : RxSub b b') : RxSub (.alt a b) (.alt a' b') := by
  intro s t ht
  simp only [Rx.run, List.mem_append] at ht ⊢
  exact ht.imp (h _ _) (h' _ _)
theorem RxSub.opt {a a' : Rx} (h : RxSub a a') : RxSub (.opt a) (.opt a') := by
  intro s t ht
  simp only [Rx.run, List.mem_append] at ht ⊢
  exact ht.imp (h _ _) id
theorem RxSub.star {a a' : Rx} (h : RxSub a a') : RxSub (.star a) (.star a') := by
  intro s t ht
  exact starRun_sub h _ s t ht
theorem RxSub.grp {a a' : Rx} (n : Nat) (h : RxSub a a') : RxSub (.grp n a) (.grp n a') := by
  intro s t ht
  simp only [Rx.run, List.mem_map] at ht ⊢
  obtain ⟨u, h1, h2⟩ := ht
  exact ⟨u, h _ _ h1, h2⟩

theorem relaxLit_sub (U : Uni) (c : Char) : RxSub (.chr (foldEq c)) ((relaxLit c).toRx U) := by
  unfold relaxLit
  split
  · rename_i hc
    refine .chr ?_
    intro d hd
    have hfold : ∀ n : Fin 10, (Char.ofNat (48 + n.val)).toLower = Char.ofNat (48 + n.val) ∧ (Char.ofNat (48 + n.val)).toUpper = Char.ofNat (48 + n.val) ∧
      (Char.ofNat (48 + n.val) == 'k') = false ∧ (Char.ofNat (48 + n.val) == 'K') = false ∧
      (Char.ofNat (48 + n.val) == 's') = false ∧ (Char.ofNat (48 + n.val) == 'S') = false := by decide
    have hr := digit_range hc
    have e : c = Char.ofNat (48 + (c.toNat - 48)) := by
      rw [show 48 + (c.toNat - 48) = c.toNat by omega, Char.ofNat_toNat]
    have hf := hfold ⟨c.toNat - 48, by omega⟩
    dsimp only at hf
    rw [← e] at hf
    obtain ⟨h1, h2, h3, h4, h5, h6⟩ := hf
    simp only [foldEq, h1, h2, h3, h4, h5, h6, Bool.or_self, Bool.false_and, Bool.or_false, beq_iff_eq] at hd
    subst hd
    simp [CItem.has, hc]
  · exact .refl _

theorem seqs_cons (U : Uni) (a b : Pat) (r : List Pat) : (Pat.seqs (a :: b :: r)).toRx U = .seq (a.toRx U) ((Pat.seqs (b :: r)).toRx U) := rfl

theorem litRx_sub (U : Uni) : ∀ (s : List Char), RxSub (litRx s) ((Pat.seqs (s.map relaxLit)).toRx U)
  | [] => .refl _
  | [c] => relaxLit_sub U c
  | c :: d :: r => by
    show RxSub _ ((Pat.seqs (relaxLit c :: relaxLit d :: r.map relaxLit)).toRx U)
    rw [seqs_cons]
    exact .seq (relaxLit_sub U c) (litRx_sub U (d :: r))

theorem relax_sub (U : Uni) : ∀ (p : Pat), RxSub (p.toRx U) ((Pat.relax p).toRx U) := by
  intro p
  induction p with
  | lit s => exact litRx_sub U s
  | cls neg items =>
    unfold Pat.relax
    split
    · exact .refl _
    · split
      · refine .chr ?_
        intro c _; simp
      · refine .chr ?_
        intro c _
        have h1 : '\x00' ≤ c := Nat.zero_le _
        have h2 : c ≤ Char.ofNat 0x10ffff := by
          have := c.valid
          show c.toNat ≤ _
          have e : (Char.ofNat 0x10ffff).toNat = 0x10ffff := by decide
          have e2 : c.val.toNat = c.toNat := rfl
          have : c.toNat < 0x110000 := by
            rcases this with h | h
            · have : c.toNat < 0xd800 := h
              omega
            · exact h.2
          show c.toNat ≤ (Char.ofNat 0x10ffff).toNat
          omega
        simp [CItem.has, h1, h2]
  | seq a b iha ihb => exact .seq iha ihb
  | alt a b iha ihb => exact .alt iha ihb
  | opt a iha => exact .opt iha
  | star a iha => exact .star iha
  | grp n a iha => exact .grp n iha
  | _ => exact .refl _

theorem find_sub {a b : Rx} (h : RxSub a b) : ∀ (s : List Char) (p : Option Char), (a.find p s).isSome = true → (b.find p s).isSome = true := by
  intro s
  induction s with
  | nil =>
    intro p ha
    unfold Rx.find at ha ⊢
    cases e : a.run ⟨p, [], []⟩ with
    | nil => rw [e] at ha; simp at ha
    | cons t l =>
      have := h _ t (by rw [e]; simp)
      cases e' : b.run ⟨p, [], []⟩ with
      | nil => rw [e'] at this; simp at this
      | cons => rfl
  | cons c s ih =>
    intro p ha
    unfold Rx.find at ha ⊢
    cases e' : b.run ⟨p, c :: s, []⟩ with
    | cons => rfl
    | nil =>
      cases e : a.run ⟨p, c :: s, []⟩ with
      | cons t l =>
        have := h _ t (by rw [e]; simp)
        rw [e'] at this; simp at this
      | nil =>
        rw [e] at ha
        simp only [Option.isSome_map] at ha ⊢
        exact ih _ ha

theorem relax_uniform : ∀ (p : Pat), Pat.uniform (Pat.relax p) = true := by
  have hseqs : ∀ l : List Pat, l.all Pat.uniform = true → Pat.uniform (Pat.seqs l) = true := by
    intro l
    induction l with
    | nil => intro _; rfl
    | cons a r ih =>
      intro h
      simp only [List.all_cons, Bool.and_eq_true] at h
      cases r with
      | nil => exact h.1
      | cons b r => simp only [Pat.seqs, Pat.uniform, h.1, ih h.2, Bool.and_self]
  intro p
  induction p with
  | lit s =>
    refine hseqs _ ?_
    simp only [List.all_map, List.all_eq_true]
    intro c _
    show Pat.uniform (relaxLit c) = true
    unfold relaxLit
    split
    · rfl
    · rename_i h; simp [Pat.uniform, digitFree, h]
  | cls neg items =>
    unfold Pat.relax
    split
    · rename_i h; exact h
    · split
      · rfl
      · decide
  | seq a b iha ihb => simp only [Pat.relax, Pat.uniform, iha, ihb, Bool.and_self]
  | alt a b iha ihb => simp only [Pat.relax, Pat.uniform, iha, ihb, Bool.and_self]
  | opt a iha => exact iha
  | star a iha => exact iha
  | grp n a iha => exact iha
  | _ => rfl

/-- If the relaxed pattern does not match one of two related texts, the pattern matches neither. -/
theorem relax_no_match (hR : DigitRel R) {U V : Uni} (hU : UniRel R U V) {p : Pat} {s t : List Char} (h : Rel2 R s t)
    (hn : ((Pat.relax p).toRx U).matches s = false) : (p.toRx V).matches t = false := by
  rw [matches_rel (pat_rel hR hU (relax_uniform p)) h] at hn
  cases hm : (p.toRx V).matches t with
  | false => rfl
  | true =>
    have := find_sub (relax_sub V p) t none hm
    unfold Rx.matches at hn
    rw [hn] at this; simp at this

/-! ## Splitting -/

/-- What of a locale decides how texts are split. -/
structure SplitRel (R : Char → Char → Prop) (L M : Lang) : Prop where
  spacing : L.noWordSpacing = M.noWordSpacing
  words : L.knownWords = M.knownWords
  plain : L.knownWords.all digitFree = true
  same : ∀ w ∈ L.knownWords, Rel2 R w w
  combined : Opt2 (fun a b : Rx × Nat => RxRel R a.1 b.1 ∧ a.2 = b.2) L.rxCombined M.rxCombined
  exact : Opt2 (RxRel R) L.rxExact M.rxExact

theorem neighbor_rel (hR : DigitRel R) {U V : Uni} (hU : UniRel R U V) {a b : Option Char} (h : Opt2 R a b) : neighborOk U a = neighborOk V b := by
  cases h with
  | none => rfl
  | @some x y h =>
    have : (x == '_') = (y == '_') := by
      rw [Bool.eq_iff_iff]; simpa using hR.eqc (by decide) x y h
    simp only [neighborOk, this, hU.isNumber _ _ h, hU.isLetter _ _ h, hU.isMark _ _ h]

theorem shouldCapture_rel (hR : DigitRel R) {U V : Uni} (hU : UniRel R U V) {s t : List Char} (h : Rel2 R s t) (keep : Bool) :
    shouldCapture U s keep = shouldCapture V t keep := by
  have h1 : s.contains '\n' = t.contains '\n' := by
    induction h with
    | nil => rfl
    | @cons x y _ _ h1 _ ih =>
      have : ('\n' == x) = ('\n' == y) := by
        rw [Bool.eq_iff_iff]; simp only [beq_iff_eq]
        have := hR.eqc (c := '\n') (by decide) _ _ h1
        exact ⟨fun e => (this.mp e.symm).symm, fun e => (this.mpr e.symm).symm⟩
      simp only [List.contains_cons, ih, this]
  unfold shouldCapture
  rw [alwaysKept_rel hR h, h1, h.any fun x y hxy => by rw [hR.isAlphanum x y hxy, hU.isLetter x y hxy]]

theorem numeralLoop_rel {U V : Uni} (hU : UniRel R U V) {s t : List Char} (h : Rel2 R s t) :
    ∀ (cur : Bool) {a b : List Char}, Rel2 R a b → Rel2 (Rel2 R) (numeralLoop U cur a s) (numeralLoop V cur b t) := by
  induction h with
  | nil => intro cur a b hab; exact .single hab.reverse
  | cons h1 _ ih =>
    intro cur a b hab
    simp only [numeralLoop, hU.isDigit _ _ h1]
    split
    · exact .cons hab.reverse (ih _ (.single h1))
    · exact ih _ (.cons h1 hab)

theorem splitByNumerals_rel (hR : DigitRel R) {U V : Uni} (hU : UniRel R U V) {s t : List Char} (h : Rel2 R s t) (keep : Bool) :
    Rel2 (Rel2 R) (splitByNumerals U s keep) (splitByNumerals V t keep) := by
  unfold splitByNumerals
  refine Rel2.filter ?_ fun a b hab => shouldCapture_rel hR hU hab keep
  cases h with
  | nil => exact .single .nil
  | cons h1 h2 =>
    dsimp only
    rw [hU.isDigit _ _ h1]
    exact numeralLoop_rel hU h2 _ (.single h1)

theorem knownLoop_rel (hR : DigitRel R) {U V : Uni} (hU : UniRel R U V) (nws : Bool) {s t : List Char} (h : Rel2 R s t) :
    ∀ (ws : List (List Char)), ws.all digitFree = true → ∀ c, knownLoop U nws s ws c = knownLoop V nws t ws c := by
  intro ws
  induction ws with
  | nil => intro _ c; rfl
  | cons w ws ih =>
    intro hw c
    simp only [List.all_cons, Bool.and_eq_true] at hw
    simp only [knownLoop, indexStr_rel hR hw.1 h]
    cases indexStr w t with
    | none => exact ih hw.2 c
    | some pos =>
      dsimp only
      rw [neighbor_rel hR hU (h.take pos).getLast?, neighbor_rel hR hU (h.drop (pos + w.length)).head?]
      simp only [ih hw.2]

theorem findKnown_rel (hR : DigitRel R) {U V : Uni} (hU : UniRel R U V) {L M : Lang} (hL : SplitRel R L M) {s t : List Char} (h : Rel2 R s t) :
    findKnown U L s = findKnown V M t := by
  unfold findKnown
  rw [(trimSpace_rel hR h).isEmpty, ← hL.spacing, ← hL.words, knownLoop_rel hR hU _ h _ hL.plain]

theorem splitByKnown_rel (hR : DigitRel R) {U V : Uni} (hU : UniRel R U V) {L M : Lang} (hL : SplitRel R L M) (keep : Bool) :
    ∀ (n : Nat) {s t : List Char}, Rel2 R s t → Rel2 (Rel2 R) (splitByKnownFuel U L keep n s) (splitByKnownFuel V M keep n t) := by
  intro n
  induction n with
  | zero => intro s t _; exact .nil
  | succ n ih =>
    intro s t h
    unfold splitByKnownFuel
    rw [findKnown_rel hR hU hL h]
    cases e : findKnown V M t with
    | none =>
      dsimp only
      rw [shouldCapture_rel hR hU h keep]
      split
      · exact splitByNumerals_rel hR hU h keep
      · exact .nil
    | some x =>
      obtain ⟨pos, w⟩ := x
      dsimp only
      have h1 := h.take pos
      have h2 := h.drop (pos + w.length)
      rw [h1.isEmpty, h2.isEmpty, shouldCapture_rel hR hU h1 keep]
      have hw : w ∈ M.knownWords := by
        have hk : ∀ (ws : List (List Char)) (c : Option (Nat × List Char)), (∀ w ∈ ws, w ∈ M.knownWords) →
            (∀ p v, c = some (p, v) → v ∈ M.knownWords) → ∀ p v, knownLoop V M.noWordSpacing t ws c = some (p, v) → v ∈ M.knownWords := by
          intro ws
          induction ws with
          | nil => intro c _ hc p v hv; exact hc p v hv
          | cons u ws ih =>
            intro c hws hc p v hv
            have hu := hws u (by simp)
            have hws' : ∀ w ∈ ws, w ∈ M.knownWords := fun w h => hws w (by simp [h])
            simp only [knownLoop] at hv
            split at hv
            · exact ih c hws' hc p v hv
            · rename_i q _
              have hc' : ∀ p v, (match c with
                  | none => some (q, u)
                  | some (p, v) => if q < p then some (q, u) else some (p, v)) = some (p, v) → v ∈ M.knownWords := by
                intro p v hpv
                cases c with
                | none => simp at hpv; rw [← hpv.2]; exact hu
                | some x =>
                  obtain ⟨p', v'⟩ := x
                  dsimp only at hpv
                  split at hpv
                  · simp at hpv; rw [← hpv.2]; exact hu
                  · exact hc p v hpv
              split at hv
              · split at hv
                · exact hc' p v hv
                · exact ih _ hws' hc' p v hv
              · exact ih c hws' hc p v hv
        unfold findKnown at e
        split at e
        · simp at e
        · exact hk _ none (fun _ h => h) (by simp) pos w e
      have hww : Rel2 R w w := hL.same w (hL.words ▸ hw)
      refine Rel2.append (Rel2.append ?_ ?_) ?_
      · split
        · exact splitByNumerals_rel hR hU h1 keep
        · exact .nil
      · rw [shouldCapture_rel hR hU hww keep]
        split
        · exact .single hww
        · exact .nil
      · split
        · exact ih h2
        · exact .nil

theorem splitWithRegex_rel {a b : Rx} (hab : RxRel R a b) (k : Nat) (hsep : Rel2 R splitSeparator splitSeparator) :
    ∀ (n : Nat) {s t : List Char}, Rel2 R s t → Rel2 R (splitWithRegexFuel a k n s) (splitWithRegexFuel b k n t) := by
  intro n
  induction n with
  | zero => intro s t h; exact h
  | succ n ih =>
    intro s t h
    have hf := find_rel hab h (p := none) (q := none) .none
    unfold splitWithRegexFuel Rx.findFirst
    revert hf
    cases a.find none s <;> cases b.find none t <;> intro hf <;> cases hf
    · exact h
    · rename_i m m' hm
      dsimp only
      refine Rel2.append (Rel2.append hm.before ?_) (ih hm.after.rest)
      split
      · exact (hsep.append (cap_rel hm.after 1)).append hsep
      · split
        · exact ((((cap_rel hm.after 1).append hsep).append (cap_rel hm.after 2)).append hsep).append (cap_rel hm.after 3)
        · exact (hsep.append hm.text).append hsep

theorem exact_rel {L M : Lang} (hL : SplitRel R L M) {s t : List Char} (h : Rel2 R s t) :
    (L.rxExact.map (·.matches s)).getD false = (M.rxExact.map (·.matches t)).getD false := by
  have he := hL.exact
  revert he
  cases L.rxExact <;> cases M.rxExact <;> intro he <;> cases he
  · rfl
  · rename_i he
    exact matches_rel he h

theorem splitRaw_rel (hR : DigitRel R) {U V : Uni} (hU : UniRel R U V) {L M : Lang} (hL : SplitRel R L M)
    (hsep : Rel2 R splitSeparator splitSeparator) (keep : Bool) {s t : List Char} (h : Rel2 R s t) :
    Rel2 (Rel2 R) (splitRaw U L s keep) (splitRaw V M t keep) := by
  unfold splitRaw
  refine Rel2.flatMap (splitGo_rel hR (by decide) ?_ 0 .nil) ?_
  · have hc := hL.combined
    revert hc
    cases L.rxCombined <;> cases M.rxCombined <;> intro hc <;> cases hc
    · exact h
    · rename_i x y hxy
      obtain ⟨x1, x2⟩ := x
      obtain ⟨y1, y2⟩ := y
      obtain ⟨h1, h2⟩ := hxy
      dsimp only at h1 h2 ⊢
      subst h2
      unfold splitWithRegex
      rw [h.length]
      exact splitWithRegex_rel h1 _ hsep _ h
  · intro a b hab
    rw [exact_rel hL hab]
    split
    · exact .single hab
    · unfold splitByKnown
      rw [hab.length]
      exact splitByKnown_rel hR hU hL keep _ hab

theorem splitText_rel (hR : DigitRel R) {U V : Uni} (hU : UniRel R U V) {L M : Lang} (hL : SplitRel R L M)
    (hsep : Rel2 R splitSeparator splitSeparator) (keep : Bool) {skip : List (List Char)} (hskip : skip.all digitFree = true)
    {s t : List Char} (h : Rel2 R s t) :
    Rel2 (Rel2 R) (splitText U L s keep skip) (splitText V M t keep skip) := by
  unfold splitText
  refine Rel2.filter (splitRaw_rel hR hU hL hsep keep h) ?_
  intro a b hab
  rw [hab.isEmpty, contains_rel hR hskip (trimSpace_rel hR hab)]

/-! ## Applicability and translation -/

theorem lookup_rel {β : Type} (hR : DigitRel R) {d : List (List Char × β)} (hd : (d.all fun x => digitFree x.1) = true) {s t : List Char}
    (h : Rel2 R s t) : d.lookup s = d.lookup t := by
  induction d with
  | nil => rfl
  | cons x d ih =>
    obtain ⟨k, v⟩ := x
    simp only [List.all_cons, Bool.and_eq_true] at hd
    simp only [List.lookup_cons, beq_rel hR hd.1 h, ih hd.2]

/-- All the rest of a locale that `Translate` uses. -/
structure LangRel (R : Char → Char → Prop) (L M : Lang) : Prop extends SplitRel R L M where
  name : L.name = M.name
  relType : L.relativeType = M.relativeType
  relTypePlain : (L.relativeType.all fun x => digitFree x.1) = true
  dict : L.translations = M.translations
  dictPlain : (L.translations.all fun x => digitFree x.1) = true
  relative : Rel2 (fun a b : Rx × List Tmpl => RxRel R a.1 b.1 ∧ a.2 = b.2 ∧ tmplPlain R a.2) L.relativeRegexes M.relativeRegexes

theorem translateWord_rel (hR : DigitRel R) {L M : Lang} (hL : LangRel R L M) {s t : List Char} (h : Rel2 R s t) :
    L.translateWord s = M.translateWord t := by
  unfold Lang.translateWord
  rw [lookup_rel hR hL.relTypePlain h, lookup_rel hR hL.dictPlain h, hL.relType, hL.dict]

/-- The translations of a token contain no digits of their own. -/
def plainWords (L : Lang) (token : List Char) : Bool := ((L.translateWord token).getD []).all digitFree

theorem translateToken_rel (hR : DigitRel R) {L M : Lang} (hL : LangRel R L M) {skip : List (List Char)} (hskip : skip.all digitFree = true)
    (keep : Bool) {s t : List Char} (h : Rel2 R s t) (hp : ∀ w ∈ (L.translateWord s).getD [], Rel2 R w w) :
    Rel2 (Rel2 R) (translateToken L skip keep s) (translateToken M skip keep t) := by
  unfold translateToken
  rw [contains_rel hR hskip h]
  split
  · exact .single .nil
  · have hr := hL.relative
    have hf : Opt2 (fun a b : Rx × List Tmpl => RxRel R a.1 b.1 ∧ a.2 = b.2 ∧ tmplPlain R a.2)
        (L.relativeRegexes.find? (·.1.matches s)) (M.relativeRegexes.find? (·.1.matches t)) := by
      generalize L.relativeRegexes = l at hr
      generalize M.relativeRegexes = m at hr
      induction hr with
      | nil => exact .none
      | cons h1 _ ih =>
        simp only [List.find?_cons, matches_rel h1.1 h]
        split
        · exact .some h1
        · exact ih
    revert hf
    cases L.relativeRegexes.find? (·.1.matches s) <;> cases M.relativeRegexes.find? (·.1.matches t) <;> intro hf <;> cases hf
    · dsimp only
      rw [translateWord_rel hR hL h] at hp ⊢
      cases e : M.translateWord t with
      | none => exact .single h
      | some ts =>
        dsimp only
        rw [e] at hp
        simp only [Option.getD_some] at hp
        have : Rel2 (fun a b => a = b ∧ Rel2 R a b) ts ts := by
          clear e
          induction ts with
          | nil => exact .nil
          | cons w ts ih => exact .cons ⟨rfl, hp w (by simp)⟩ (ih fun x hx => hp x (by simp [hx]))
        refine Rel2.map this ?_
        intro a b hab
        rw [hab.1]
        split
        · exact h
        · exact hab.1 ▸ hab.2
    · rename_i x y hxy
      dsimp only
      rw [← hxy.2.1]
      exact .single (replaceAll_rel hxy.1 hxy.2.2 h)

theorem combos_rel {α β : Type} {S : α → β → Prop} (n : Nat) : ∀ {l : List (List α)} {m : List (List β)}, Rel2 (Rel2 S) l m → ∀ (k : Nat) {r : List (List α)} {q : List (List β)},
    Rel2 (Rel2 S) r q → Opt2 (Rel2 (Rel2 S)) (fillColumns n l k r) (fillColumns n m k q) := by
  have hcol : ∀ {e : List α} {f : List β}, Rel2 S e f → ∀ (mx n i j : Nat), Opt2 (Rel2 S) (fillColumn e mx n i j) (fillColumn f mx n i j) := by
    intro e f hef mx n
    induction n with
    | zero => intro i j; exact .some .nil
    | succ n ih =>
      intro i j
      simp only [fillColumn, hef.length]
      have := hef.getElem? (if (if j ≥ mx then (i + 1, 0) else (i, j)).1 ≥ f.length then 0 else (if j ≥ mx then (i + 1, 0) else (i, j)).1)
      revert this
      generalize e[(if (if j ≥ mx then (i + 1, 0) else (i, j)).1 ≥ f.length then 0 else (if j ≥ mx then (i + 1, 0) else (i, j)).1)]? = u
      generalize f[(if (if j ≥ mx then (i + 1, 0) else (i, j)).1 ≥ f.length then 0 else (if j ≥ mx then (i + 1, 0) else (i, j)).1)]? = v
      intro this
      cases this with
      | none => exact .none
      | some h => exact (ih _ _).map fun a b hab => .cons h hab
  have hzip : ∀ {r : List (List α)} {q : List (List β)}, Rel2 (Rel2 S) r q → ∀ {c : List α} {d : List β}, Rel2 S c d →
      Rel2 (Rel2 S) (List.zipWith (fun row v => row ++ [v]) r c) (List.zipWith (fun row v => row ++ [v]) q d) := by
    intro r q h
    induction h with
    | nil => intro c d _; exact .nil
    | cons h1 _ ih =>
      intro c d hcd
      cases hcd with
      | nil => exact .nil
      | cons h3 h4 => exact .cons (h1.append (.single h3)) (ih h4)
  intro l m h
  induction h with
  | nil => intro k r q hr; exact .some hr
  | @cons e f l m h1 _ ih =>
    intro k r q hr
    simp only [fillColumns, h1.length]
    split
    · exact .none
    · have := hcol h1 (k / f.length) n 0 0
      revert this
      generalize fillColumn e _ n 0 0 = u
      generalize fillColumn f _ n 0 0 = v
      intro this
      cases this with
      | none => exact .none
      | some h => exact ih _ (hzip hr h)

theorem createPermutation_rel {α β : Type} {S : α → β → Prop} {l : List (List α)} {m : List (List β)} (h : Rel2 (Rel2 S) l m) :
    Opt2 (Rel2 (Rel2 S)) (createPermutation l) (createPermutation m) := by
  have hn : ∀ k, l.foldl (fun n e => n * e.length) k = m.foldl (fun n e => n * e.length) k := by
    induction h with
    | nil => intro k; rfl
    | cons h1 _ ih => intro k; simp only [List.foldl_cons, h1.length]; exact ih _
  unfold createPermutation
  rw [hn 1]
  refine combos_rel _ h _ ?_
  generalize List.foldl (fun n e => n * e.length) 1 m = n
  induction n with
  | zero => exact .nil
  | succ n ih => exact .cons .nil ih

theorem texts_contain_rel (hR : DigitRel R) {w : List Char} (hw : digitFree w = true) {l m : List (List Char)} (h : Rel2 (Rel2 R) l m) :
    l.contains w = m.contains w := by
  induction h with
  | nil => rfl
  | @cons a b l m h1 _ ih =>
    have : (w == a) = (w == b) := by
      have := eq_rel hR hw h1
      rw [Bool.eq_iff_iff]; simp only [beq_iff_eq]
      exact ⟨fun e => (this.mp e.symm).symm, fun e => (this.mpr e.symm).symm⟩
    simp only [List.contains_cons, this, ih]

theorem clearFuture_rel (hR : DigitRel R) {l m : List (List Char)} (h : Rel2 (Rel2 R) l m) : Rel2 (Rel2 R) (clearFutureWords l) (clearFutureWords m) := by
  unfold clearFutureWords
  rw [h.any fun a b hab => contains_rel hR (by decide) hab]
  split
  · exact h
  · refine h.filter ?_
    intro a b hab
    show (!(a == ['i', 'n'])) = !(b == ['i', 'n'])
    rw [beq_rel hR (by decide) hab]

theorem finishTokens_rel (hR : DigitRel R) (hsp : R ' ' ' ') (keep : Bool) {l m : List (List Char)} (h : Rel2 (Rel2 R) l m) :
    Rel2 R (finishTokens keep l) (finishTokens keep m) := by
  unfold finishTokens
  rw [texts_contain_rel hR (by decide) h]
  refine joinTokens_rel hR ?_ ?_
  · split
    · exact .nil
    · exact .single hsp
  · refine Rel2.filter ?_ fun a b hab => by rw [hab.isEmpty]
    split
    · exact clearFuture_rel hR h
    · exact h

theorem Rel2.map_mem {α β γ δ : Type} {S : α → β → Prop} {Q : γ → δ → Prop} {s : List α} {t : List β} {f : α → γ} {g : β → δ} (h : Rel2 S s t)
    (hf : ∀ a b, a ∈ s → S a b → Q (f a) (g b)) : Rel2 Q (s.map f) (t.map g) := by
  induction h with
  | nil => exact .nil
  | cons h1 _ ih => exact .cons (hf _ _ (by simp) h1) (ih fun a b ha => hf a b (by simp [ha]))

theorem mapSkipped_plain {skip : List (List Char)} (h : skip.all digitFree = true) (L : Lang) : (mapSkippedTokens skip L).all digitFree = true := by
  unfold mapSkippedTokens
  split
  · simp only [List.all_eq_true] at h ⊢
    intro x hx
    exact h x (List.mem_filter.mp hx).1
  · exact h

/-- The tokens of a text that no simplification changes. -/
def tokensOf (U : Uni) (L : Lang) (skip : List (List Char)) (keep : Bool) (s : List Char) : List (List Char) :=
  splitText U L s keep (mapSkippedTokens skip L)

theorem translate_tokens (hR : DigitRel R) {U V : Uni} (hU : UniRel R U V) {L M : Lang} (hL : LangRel R L M)
    (hsep : Rel2 R splitSeparator splitSeparator) (hsp : R ' ' ' ') (keep : Bool) {skip : List (List Char)} (hskip : skip.all digitFree = true)
    {s t : List Char} (h : Rel2 R s t) (hp : ∀ token ∈ tokensOf U L skip keep s, ∀ w ∈ (L.translateWord token).getD [], Rel2 R w w) :
    Opt2 (Rel2 (Rel2 R))
      ((createPermutation ((tokensOf U L skip keep s).map (translateToken L (mapSkippedTokens skip L) keep))).map (·.map (finishTokens keep)))
      ((createPermutation ((tokensOf V M skip keep t).map (translateToken M (mapSkippedTokens skip M) keep))).map (·.map (finishTokens keep))) := by
  have hsk : mapSkippedTokens skip M = mapSkippedTokens skip L := by unfold mapSkippedTokens; rw [hL.name]
  have hpl := mapSkipped_plain hskip L
  unfold tokensOf at hp ⊢
  rw [hsk]
  refine (createPermutation_rel (S := Rel2 R) (Rel2.map_mem (splitText_rel hR hU hL.toSplitRel hsep keep hpl h) ?_)).map ?_
  · intro a b ha hab
    exact translateToken_rel hR hL hpl keep hab (hp a ha)
  · intro a b hab
    exact hab.map fun x y hxy => finishTokens_rel hR hsp keep hxy

/-- Applicability decided by the tokens. -/
def applicableTokens (U : Uni) (L : Lang) (skip tokens : List (List Char)) : Bool :=
  (tokens.filter alwaysKept).length != tokens.length &&
  tokens.all fun token => isNumberOnly U token || L.inDictionary token || skip.contains token ||
    (L.rxExact.map (·.matches token)).getD false

theorem applicable_tokens (hR : DigitRel R) {U V : Uni} (hU : UniRel R U V) {L M : Lang} (hL : LangRel R L M)
    (hsep : Rel2 R splitSeparator splitSeparator) {skip : List (List Char)} (hskip : skip.all digitFree = true)
    {s t : List Char} (h : Rel2 R s t) :
    applicableTokens U L (mapSkippedTokens skip L) (tokensOf U L skip false s) = applicableTokens V M (mapSkippedTokens skip M) (tokensOf V M skip false t) := by
  have hsk : mapSkippedTokens skip M = mapSkippedTokens skip L := by unfold mapSkippedTokens; rw [hL.name]
  have hpl := mapSkipped_plain hskip L
  have ht := splitText_rel hR hU hL.toSplitRel hsep false hpl h
  unfold tokensOf applicableTokens
  rw [hsk, ht.length, (ht.filter fun a b hab => alwaysKept_rel hR hab).length]
  congr 1
  refine ht.all ?_
  intro a b hab
  unfold isNumberOnly Lang.inDictionary
  rw [hab.all hU.isDigit, translateWord_rel hR hL hab, contains_rel hR hpl hab, exact_rel hL.toSplitRel hab]

/-! ## Locale data -/

/-- A template whose literal parts are ASCII, with no digits but the given ones. -/
def plainTmpl (fixed : List Char) (t : List Tmpl) : Bool := t.all fun
  | .lit s => s.all fun c => decide (c.toNat < 128) && (!c.isDigit || fixed.contains c)
  | .ref _ => true

/-- What the simplifications make of a text with these digits or others. -/
def simplified (U : Uni) (fixed : List Char) : List (Pat × List Tmpl) → List Char → Option (List Char)
  | [], s => some s
  | x :: r, s =>
    if ((Pat.relax x.1).toRx U).matches s then
      if Pat.uniform x.1 && plainTmpl fixed x.2 then
        simplified U fixed r (if (x.1.toRx U).matches s then replaceAllTmpl (x.1.toRx U) x.2 s else s)
      else none
    else simplified U fixed r s

theorem simplified_rel (hR : DigitRel R) {U V : Uni} (hU : UniRel R U V) {fixed : List Char}
    (hf : ∀ c : Char, c.toNat < 128 → (c.isDigit = false ∨ c ∈ fixed) → R c c) :
    ∀ {l : List (Pat × List Tmpl)} {s t s' : List Char}, Rel2 R s t → simplified U fixed l s = some s' →
      Rel2 R s' ((l.map fun x => (x.1.toRx V, x.2)).foldl (fun s d => if d.1.matches s then replaceAllTmpl d.1 d.2 s else s) t)
  | [], s, t, s', h, hs => by
    simp only [simplified, Option.some.injEq] at hs
    subst hs
    exact h
  | x :: l, s, t, s', h, hs => by
    unfold simplified at hs
    simp only [List.map_cons, List.foldl_cons]
    split at hs
    · split at hs
      · next hx =>
        rw [Bool.and_eq_true] at hx
        refine simplified_rel hR hU hf ?_ hs
        have hrx := pat_rel hR hU hx.1
        rw [← matches_rel hrx h]
        split
        · refine replaceAll_rel hrx ?_ h
          intro y hy
          have := List.all_eq_true.mp hx.2 y hy
          cases y with
          | ref _ => trivial
          | lit w =>
            simp only at this ⊢
            clear hy
            induction w with
            | nil => exact .nil
            | cons c w ih =>
              simp only [List.all_cons, Bool.and_eq_true, decide_eq_true_eq, Bool.or_eq_true, Bool.not_eq_true', List.contains_iff_mem] at this
              exact .cons (hf c this.1.1 this.1.2) (ih (by simpa using this.2))
        · exact h
      · cases hs
    · next hm =>
      rw [relax_no_match hR hU h (by simpa using hm)]
      simp only [Bool.false_eq_true, if_false]
      exact simplified_rel hR hU hf h hs

/-- The data in which no pattern and no word tells digits apart. -/
def LangData.uniform (d : LangData) : Bool :=
  d.knownWords.all digitFree && (d.relativeType.all fun x => digitFree x.1) && (d.translations.all fun x => digitFree x.1) &&
  (d.rxCombined.map fun x => Pat.uniform x.1).getD true && (d.rxExact.map Pat.uniform).getD true &&
  d.relativeRegexes.all fun x => Pat.uniform x.1 && x.2.all fun
    | .lit s => digitFree s
    | .ref _ => true

theorem langRel (hR : DigitRel R) {U V : Uni} (hU : UniRel R U V) {d : LangData} (hd : LangData.uniform d = true)
    (hk : ∀ w ∈ d.knownWords, Rel2 R w w) (ht : ∀ x ∈ d.relativeRegexes, ∀ s, Tmpl.lit s ∈ x.2 → Rel2 R s s) : LangRel R (d.lang U) (d.lang V) := by
  simp only [LangData.uniform, Bool.and_eq_true] at hd
  obtain ⟨⟨⟨⟨⟨h1, h2⟩, h3⟩, h4⟩, h5⟩, h6⟩ := hd
  refine ⟨⟨rfl, rfl, h1, hk, ?_, ?_⟩, rfl, rfl, h2, rfl, h3, ?_⟩
  · show Opt2 _ (d.rxCombined.map fun x => (x.1.toRx U, x.2)) (d.rxCombined.map fun x => (x.1.toRx V, x.2))
    cases e : d.rxCombined with
    | none => exact .none
    | some x =>
      rw [e] at h4
      exact .some ⟨pat_rel hR hU h4, rfl⟩
  · show Opt2 _ (d.rxExact.map (·.toRx U)) (d.rxExact.map (·.toRx V))
    cases e : d.rxExact with
    | none => exact .none
    | some x =>
      rw [e] at h5
      exact .some (pat_rel hR hU h5)
  · show Rel2 _ (d.relativeRegexes.map fun x => (x.1.toRx U, x.2)) (d.relativeRegexes.map fun x => (x.1.toRx V, x.2))
    generalize d.relativeRegexes = l at h6 ht
    induction l with
    | nil => exact .nil
    | cons x l ih =>
      simp only [List.all_cons, Bool.and_eq_true] at h6
      refine .cons ⟨pat_rel hR hU h6.1.1, rfl, ?_⟩ (ih h6.2 fun x hx => ht x (by simp [hx]))
      intro y hy
      cases y with
      | lit s => exact ht x (by simp) s hy
      | ref _ => trivial

end Verif.Lemmas
