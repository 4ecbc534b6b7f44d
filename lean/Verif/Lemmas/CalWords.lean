import Verif.Lemmas.CalTimePass
import Verif.Lemmas.RxPrefix
import Verif.Lemmas.Search
/-! Helper lemmas: weekdays and numbers in words in the texts given to the Jalali parser. -/
set_option autoImplicit false
namespace Verif.Lemmas
open Verif.Go Verif.Model Verif.Spec Verif.Props Verif.Data

/-! ## Replacing, part by part -/

/-- `strings.ReplaceAll`, character by character. -/
def repl (p new : List Char) : Nat → List Char → List Char
  | _, [] => []
  | k + 1, _ :: s => repl p new k s
  | 0, c :: s => if p.isPrefixOf (c :: s) then new ++ repl p new (p.length - 1) s else c :: repl p new 0 s

theorem join_repl (p new : List Char) : ∀ (s : List Char) (k : Nat) (acc : List Char), joinWith new (splitGo p k acc s) = acc.reverse ++ repl p new k s := by
  intro s
  induction s with
  | nil => intro k acc; cases k <;> simp [splitGo, repl, joinWith]
  | cons c s ih =>
    intro k acc
    cases k with
    | succ k => simp only [splitGo, repl]; exact ih k acc
    | zero =>
      simp only [splitGo, repl]
      split
      · rw [joinWith_cons _ _ (splitGo_ne_nil p s _ _), ih]; simp
      · rw [ih]; simp

theorem replaceStr_repl (p new s : List Char) : replaceStr p new s = repl p new 0 s := by
  unfold replaceStr splitStr
  rw [join_repl]; rfl

theorem deleteStr_repl (p s : List Char) : deleteStr p s = replaceStr p [] s := by
  unfold deleteStr replaceStr
  generalize splitStr p s = l
  induction l with
  | nil => rfl
  | cons x l ih =>
    cases l with
    | nil => simp [joinWith]
    | cons y l => rw [List.flatten_cons, ih, joinWith_cons [] x (by simp)]; simp

/-- A text in two parts at a space, when no match reaches beyond the first part. -/
theorem repl_split {p new b : List Char} (hp : p ≠ []) : ∀ {a : List Char}, (∀ a', a' <:+ a → p.isPrefixOf (a' ++ ' ' :: b) = p.isPrefixOf a') → ∀ k, k ≤ a.length →
    repl p new k (a ++ ' ' :: b) = repl p new k a ++ ' ' :: repl p new 0 b := by
  intro a
  induction a with
  | nil =>
    intro h k hk
    have : k = 0 := by simpa using hk
    subst this
    have h0 := h [] (List.suffix_refl _)
    rw [List.nil_append] at h0
    have h1 : p.isPrefixOf [] = false := by cases p with | nil => exact absurd rfl hp | cons => rfl
    rw [h1] at h0
    simp [repl, h0]
  | cons c a ih =>
    intro h k hk
    have ih' := ih fun a' ha => h a' (ha.trans (List.suffix_cons _ _))
    cases k with
    | succ k => simp only [List.cons_append, repl]; exact ih' k (by simpa using hk)
    | zero =>
      have h0 := h (c :: a) (List.suffix_refl _)
      simp only [List.cons_append, repl]
      rw [← List.cons_append, h0]
      split
      · rename_i hpre
        have := (List.isPrefixOf_iff_prefix.mp hpre).length_le
        rw [ih' _ (by simp at this; omega)]
        simp
      · rw [ih' 0 (by omega)]
        simp

theorem replaceStr_split {p new a b : List Char} (hp : p ≠ []) (h : ∀ a', a' <:+ a → p.isPrefixOf (a' ++ ' ' :: b) = p.isPrefixOf a') :
    replaceStr p new (a ++ ' ' :: b) = replaceStr p new a ++ ' ' :: replaceStr p new b := by
  simp only [replaceStr_repl]
  exact repl_split hp h 0 (by omega)

/-- A pattern without a space. -/
theorem prefix_noSpace {b : List Char} : ∀ {p : List Char}, ' ' ∉ p → ∀ (a : List Char), p.isPrefixOf (a ++ ' ' :: b) = p.isPrefixOf a
  | [], _, a => by simp
  | c :: p, h, [] => by
    simp only [List.mem_cons, not_or] at h
    have hc : (c == ' ') = false := by rw [beq_eq_false_iff_ne]; exact fun e => h.1 e.symm
    simp [List.isPrefixOf, hc]
  | c :: p, h, x :: a => by
    simp only [List.mem_cons, not_or] at h
    simp only [List.cons_append, List.isPrefixOf, prefix_noSpace h.2 a]

/-- A pattern without two spaces in a row, and none at the end. -/
def singleSpaces : List Char → Bool
  | [] => true
  | [c] => c != ' '
  | c :: d :: r => !(c == ' ' && d == ' ') && singleSpaces (d :: r)

theorem prefix_twoSpaces {b : List Char} : ∀ {p : List Char}, singleSpaces p = true → ∀ (a : List Char), p.isPrefixOf (a ++ ' ' :: ' ' :: b) = p.isPrefixOf a
  | [], _, a => by simp
  | [c], h, [] => by
    simp only [singleSpaces, bne_iff_ne] at h
    simp [List.isPrefixOf, h]
  | [c], _, x :: a => by simp [List.isPrefixOf]
  | c :: d :: p, h, [] => by
    simp only [singleSpaces, Bool.and_eq_true, Bool.not_eq_true'] at h
    have := h.1
    simp only [List.isPrefixOf, List.nil_append]
    cases hc : c == ' ' with
    | false => rfl
    | true => rw [hc, Bool.true_and] at this; rw [this]; rfl
  | c :: d :: p, h, x :: a => by
    simp only [singleSpaces, Bool.and_eq_true] at h
    have := prefix_twoSpaces (b := b) h.2 a
    rw [List.cons_append, List.isPrefixOf, this, List.isPrefixOf]

/-- No part of the pattern up to a space is the end of the text. -/
def noReach (p : List Char) : List Char → Bool
  | [] => ![' '].isPrefixOf p
  | c :: a => !(c :: a ++ [' ']).isPrefixOf p && noReach p a

theorem prefix_noReach {b : List Char} : ∀ {a p : List Char}, (a ++ [' ']).isPrefixOf p = false → p.isPrefixOf (a ++ ' ' :: b) = p.isPrefixOf a
  | [], [], _ => rfl
  | [], c :: p, h => by
    simp only [List.nil_append, List.isPrefixOf, Bool.and_true] at h ⊢
    have : (c == ' ') = false := by
      rw [beq_eq_false_iff_ne] at h ⊢; exact fun e => h e.symm
    rw [this]; rfl
  | x :: a, [], _ => by simp
  | x :: a, c :: p, h => by
    simp only [List.cons_append, List.isPrefixOf] at h ⊢
    cases hc : c == x with
    | false => rfl
    | true =>
      rw [beq_iff_eq] at hc
      subst hc
      simp only [BEq.rfl, Bool.true_and] at h ⊢
      exact prefix_noReach h

theorem noReach_suffix {p b : List Char} : ∀ {a : List Char}, noReach p a = true → ∀ {a' : List Char}, a' <:+ a → p.isPrefixOf (a' ++ ' ' :: b) = p.isPrefixOf a'
  | [], h, a', ha => by
    rw [List.suffix_nil] at ha
    subst ha
    exact prefix_noReach (a := []) (by simpa [noReach] using h)
  | c :: a, h, a', ha => by
    simp only [noReach, Bool.and_eq_true, Bool.not_eq_true'] at h
    rcases List.suffix_cons_iff.mp ha with rfl | ha
    · exact prefix_noReach h.1
    · exact noReach_suffix h.2 ha

/-- … for a list of patterns, as the text changes. -/
def noReaches : List (List Char × List Char) → List Char → Bool
  | [], _ => true
  | x :: l, a => !x.1.isEmpty && noReach x.1 a && noReaches l (replaceStr x.1 x.2 a)

theorem each_noReach : ∀ {l : List (List Char × List Char)} {a b : List Char}, noReaches l a = true →
    replaceEach l (a ++ ' ' :: b) = replaceEach l a ++ ' ' :: replaceEach l b
  | [], _, _, _ => rfl
  | x :: l, a, b, h => by
    simp only [noReaches, Bool.and_eq_true, Bool.not_eq_true'] at h
    have hne : x.1 ≠ [] := by intro e; rw [e] at h; simp at h
    unfold replaceEach
    rw [List.foldl_cons, List.foldl_cons, List.foldl_cons, replaceStr_split hne fun a' ha => noReach_suffix h.1.2 ha]
    exact each_noReach h.2

def noSpaces (l : List (List Char × List Char)) : Bool := l.all fun x => !x.1.isEmpty && !x.1.contains ' '

theorem each_noSpace : ∀ {l : List (List Char × List Char)}, noSpaces l = true → ∀ (a b : List Char),
    replaceEach l (a ++ ' ' :: b) = replaceEach l a ++ ' ' :: replaceEach l b
  | [], _, _, _ => rfl
  | x :: l, h, a, b => by
    simp only [noSpaces, List.all_cons, Bool.and_eq_true, Bool.not_eq_true'] at h
    have hne : x.1 ≠ [] := by intro e; rw [e] at h; simp at h
    have hsp : ' ' ∉ x.1 := by
      intro hm
      have := h.1.2
      rw [List.contains_iff_mem.mpr hm] at this
      cases this
    unfold replaceEach
    rw [List.foldl_cons, List.foldl_cons, List.foldl_cons, replaceStr_split hne fun a' _ => prefix_noSpace hsp a']
    exact each_noSpace (l := l) h.2 _ _

/-- Patterns that begin with a character beyond ASCII. -/
def beyond (l : List (List Char × List Char)) : Bool := l.all fun x => (x.1.head?.any fun c => decide (128 ≤ c.toNat))

theorem repl_prefix {p new : List Char} {y : Char} {r : List Char} (hp : p = y :: r) (s : List Char) : ∀ {pre : List Char}, y ∉ pre →
    repl p new 0 (pre ++ s) = pre ++ repl p new 0 s
  | [], _ => rfl
  | c :: pre, h => by
    simp only [List.mem_cons, not_or] at h
    have : p.isPrefixOf (c :: (pre ++ s)) = false := by
      rw [hp]; simp only [List.isPrefixOf]
      have : (y == c) = false := by rw [beq_eq_false_iff_ne]; exact h.1
      rw [this]; rfl
    simp only [List.cons_append, repl, this, Bool.false_eq_true, if_false]
    rw [repl_prefix hp s h.2]

theorem replaceStr_prefix {p new pre : List Char} (hp : (p.head?.any fun c => decide (128 ≤ c.toNat)) = true) (hpre : isAscii pre = true) (s : List Char) :
    replaceStr p new (pre ++ s) = pre ++ replaceStr p new s := by
  cases p with
  | nil => simp at hp
  | cons y r =>
    simp only [List.head?_cons, Option.any_some, decide_eq_true_eq] at hp
    simp only [replaceStr_repl]
    refine repl_prefix rfl s fun hm => ?_
    have := isAscii_mem hpre y hm
    omega

theorem each_prefix : ∀ {l : List (List Char × List Char)}, beyond l = true → ∀ {pre : List Char}, isAscii pre = true → ∀ (s : List Char),
    replaceEach l (pre ++ s) = pre ++ replaceEach l s
  | [], _, _, _, _ => rfl
  | x :: l, h, pre, hpre, s => by
    simp only [beyond, List.all_cons, Bool.and_eq_true] at h
    unfold replaceEach
    rw [List.foldl_cons, List.foldl_cons, replaceStr_prefix h.1 hpre]
    exact each_prefix (l := l) h.2 hpre _

def singles (l : List (List Char × List Char)) : Bool := l.all fun x => singleSpaces x.1

theorem each_twoSpaces : ∀ {l : List (List Char × List Char)}, beyond l = true → singles l = true → ∀ (a b : List Char),
    replaceEach l (a ++ ' ' :: ' ' :: b) = replaceEach l a ++ ' ' :: ' ' :: replaceEach l b
  | [], _, _, _, _ => rfl
  | x :: l, h, hs, a, b => by
    simp only [beyond, List.all_cons, Bool.and_eq_true] at h
    simp only [singles, List.all_cons, Bool.and_eq_true] at hs
    have hne : x.1 ≠ [] := by intro e; rw [e] at h; simp at h
    unfold replaceEach
    rw [List.foldl_cons, List.foldl_cons, List.foldl_cons, replaceStr_split hne fun a' _ => prefix_twoSpaces hs.1 a']
    have : replaceStr x.1 x.2 (' ' :: b) = ' ' :: replaceStr x.1 x.2 b := replaceStr_prefix (pre := [' ']) h.1 (by decide) b
    rw [this]
    exact each_twoSpaces (l := l) h.2 hs.2 _ _

/-! ## Ordinal endings -/

/-- Without the endings. -/
def delOrd : List Char → List Char
  | 'ا' :: 'م' :: r => delOrd r
  | 'م' :: r => delOrd r
  | 'ی' :: 'ن' :: r => delOrd r
  | c :: r => c :: delOrd r
  | [] => []

theorem delOrd_plain {c : Char} {x : List Char} (k1 : ∀ r', c :: x ≠ 'ا' :: 'م' :: r') (k2 : ∀ r', c :: x ≠ 'م' :: r') (k3 : ∀ r', c :: x ≠ 'ی' :: 'ن' :: r') :
    delOrd (c :: x) = c :: delOrd x := by
  conv => lhs; unfold delOrd
  split
  · rename_i h'; exact absurd h' (k1 _)
  · rename_i h'; exact absurd h' (k2 _)
  · rename_i h'; exact absurd h' (k3 _)
  · rename_i h'; simp at h'; rw [h'.1, h'.2]
  · rename_i h'; simp at h'

theorem ord_run (p : Option Char) (s : List Char) : rxOrdinal.run ⟨p, s, []⟩ =
    (match s with | 'ا' :: 'م' :: r => [⟨some 'م', r, []⟩] | _ => []) ++ ((match s with | 'م' :: r => [⟨some 'م', r, []⟩] | _ => []) ++
      (match s with | 'ی' :: 'ن' :: r => [⟨some 'ن', r, []⟩] | _ => [])) := by
  have e : rxOrdinal = .alt (.seq (.chr (· == 'ا')) (.seq (.chr (· == 'م')) .eps)) (.alt (.seq (.chr (· == 'م')) .eps) (.seq (.chr (· == 'ی')) (.seq (.chr (· == 'ن')) .eps))) := by
    unfold rxOrdinal
    simp only [Rx.alts, Rx.lit, String.toList]
    rfl
  rw [e]
  have two : ∀ (x y : Char), (Rx.seq (.chr (· == x)) (.seq (.chr (· == y)) .eps)).run ⟨p, s, []⟩ = match s with | c :: d :: r => if c == x && d == y then [⟨some d, r, []⟩] else [] | _ => [] := by
    intro x y
    rcases s with _ | ⟨c, _ | ⟨d, r⟩⟩
    · rfl
    · simp only [Rx.run]; split <;> rfl
    · simp only [Rx.run]
      cases hc : c == x <;> cases hd : d == y <;> simp [Bool.eq_false_iff.mp] <;> simpa using hd
  have one : ∀ (x : Char), (Rx.seq (.chr (· == x)) .eps).run ⟨p, s, []⟩ = match s with | c :: r => if c == x then [⟨some c, r, []⟩] else [] | _ => [] := by
    intro x
    rcases s with _ | ⟨c, r⟩
    · rfl
    · simp only [Rx.run]
      cases hc : c == x <;> simp
  simp only [Rx.run] at two one ⊢
  rw [two, two, one]
  congr 1
  · rcases s with _ | ⟨c, _ | ⟨d, r⟩⟩
    · rfl
    · show [] = _
      split
      · rename_i h'; simp at h'
      · rfl
    · dsimp only
      by_cases h : c = 'ا' ∧ d = 'م'
      · obtain ⟨rfl, rfl⟩ := h; rfl
      · rw [if_neg (by simpa using h)]
        split
        · rename_i h'; simp at h'; exact absurd ⟨h'.1, h'.2.1⟩ h
        · rfl
  · congr 1
    · rcases s with _ | ⟨c, r⟩
      · rfl
      · dsimp only
        by_cases h : c = 'م'
        · subst h; rfl
        · rw [if_neg (by simpa using h)]
          split
          · rename_i h'; simp at h'; exact absurd h'.1 h
          · rfl
    · rcases s with _ | ⟨c, _ | ⟨d, r⟩⟩
      · rfl
      · show [] = _
        split
        · rename_i h'; simp at h'
        · rfl
      · dsimp only
        by_cases h : c = 'ی' ∧ d = 'ن'
        · obtain ⟨rfl, rfl⟩ := h; rfl
        · rw [if_neg (by simpa using h)]
          split
          · rename_i h'; simp at h'; exact absurd ⟨h'.1, h'.2.1⟩ h
          · rfl

theorem ord_find : ∀ (s : List Char) (p : Option Char), match rxOrdinal.find p s with
    | none => delOrd s = s
    | some m => m.text ≠ [] ∧ delOrd s = m.before ++ delOrd m.after.rest := by
  intro s
  induction s with
  | nil => intro p; rfl
  | cons c s ih =>
    intro p
    unfold Rx.find
    have hr := ord_run p (c :: s)
    by_cases h : rxOrdinal.run ⟨p, c :: s, []⟩ = []
    · rw [h]
      dsimp only
      have hd : delOrd (c :: s) = c :: delOrd s := by
        rw [h] at hr
        apply delOrd_plain
        · intro r e; rw [e] at hr; simp at hr
        · intro r e; rw [e] at hr; simp at hr
        · intro r e; rw [e] at hr; simp at hr
      have := ih (some c)
      cases e : rxOrdinal.find (some c) s with
      | none => rw [e] at this; dsimp only at this; simp only [Option.map_none]; rw [hd, this]
      | some m =>
        rw [e] at this
        dsimp only at this
        simp only [Option.map_some]
        rw [hd, this.2]
        exact ⟨this.1, rfl⟩
    · have hex : ∃ q r, rxOrdinal.run ⟨p, c :: s, []⟩ = [⟨q, r, []⟩] ∧ delOrd (c :: s) = delOrd r ∧ r.length < (c :: s).length := by
        rw [hr] at h ⊢
        by_cases h1 : ∃ r, c :: s = 'ا' :: 'م' :: r
        · obtain ⟨r, e⟩ := h1
          rw [e]; exact ⟨_, r, rfl, by simp [delOrd], by simp; omega⟩
        · by_cases h2 : ∃ r, c :: s = 'م' :: r
          · obtain ⟨r, e⟩ := h2
            rw [e]; exact ⟨_, r, rfl, by simp [delOrd], by simp⟩
          · by_cases h3 : ∃ r, c :: s = 'ی' :: 'ن' :: r
            · obtain ⟨r, e⟩ := h3
              rw [e]; exact ⟨_, r, rfl, by simp [delOrd], by simp; omega⟩
            · exfalso
              apply h
              rw [List.append_eq_nil_iff, List.append_eq_nil_iff]
              refine ⟨?_, ?_, ?_⟩
              · split
                · rename_i r e; exact absurd ⟨_, e⟩ h1
                · rfl
              · split
                · rename_i r e; exact absurd ⟨_, e⟩ h2
                · rfl
              · split
                · rename_i r e; exact absurd ⟨_, e⟩ h3
                · rfl
      obtain ⟨q, r, e1, e2, e3⟩ := hex
      rw [e1]
      dsimp only
      refine ⟨?_, by simpa using e2⟩
      rw [Ne, List.take_eq_nil_iff]
      simp only [List.length_cons] at e3 ⊢
      simp only [reduceCtorEq, or_false]
      omega

theorem deleteAll_ord (s : List Char) : rxOrdinal.deleteAll s = delOrd s := by
  rw [deleteAll_subst]
  unfold subst
  have : ∀ (n : Nat) (p : Option Char) (s : List Char), s.length < n → substFuel rxOrdinal (fun _ _ => []) n p s = delOrd s := by
    intro n
    induction n with
    | zero => intro p s h; omega
    | succ n ih =>
      intro p s h
      have hf := ord_find s p
      unfold substFuel Rx.findAllFuel
      cases e : rxOrdinal.find p s with
      | none => rw [e] at hf; dsimp only at hf ⊢; simp [hf]
      | some m =>
        rw [e] at hf
        dsimp only at hf ⊢
        have hne : m.text.isEmpty = false := by cases ht : m.text with | nil => exact absurd ht hf.1 | cons => rfl
        have l := find_shorter e hf.1
        have := ih m.after.prev m.after.rest (by omega)
        unfold substFuel at this
        simp only [hne, Bool.false_eq_true, if_false, List.flatMap_cons, List.append_nil, List.append_assoc]
        rw [hf.2]
        simp only [List.append_nil] at this
        rw [this]
  exact this _ _ _ (by omega)

theorem delOrd_cons {c : Char} (hc : c.toNat < 128) (s : List Char) : delOrd (c :: s) = c :: delOrd s := by
  have h1 : c ≠ 'ا' := by rintro rfl; revert hc; decide
  have h2 : c ≠ 'م' := by rintro rfl; revert hc; decide
  have h3 : c ≠ 'ی' := by rintro rfl; revert hc; decide
  apply delOrd_plain
  · intro r e; simp at e; exact h1 e.1
  · intro r e; simp at e; exact h2 e.1
  · intro r e; simp at e; exact h3 e.1

theorem delOrd_prefix {pre : List Char} (h : isAscii pre = true) (s : List Char) : delOrd (pre ++ s) = pre ++ delOrd s := by
  induction pre with
  | nil => rfl
  | cons c pre ih =>
    rw [List.cons_append, delOrd_cons (isAscii_mem h c (by simp)), ih]
    · rfl
    · unfold isAscii at h ⊢; rw [List.all_cons, Bool.and_eq_true] at h; exact h.2

theorem delOrd_split (b : List Char) : ∀ (a : List Char), delOrd (a ++ ' ' :: b) = delOrd a ++ ' ' :: delOrd b := by
  intro a
  induction a using delOrd.induct with
  | case1 r ih => simpa [delOrd] using ih
  | case2 r ih => simpa [delOrd] using ih
  | case3 r ih => simpa [delOrd] using ih
  | case4 c r h1 h2 h3 ih =>
    have n2 : c ≠ 'م' := fun e => h2 e
    rw [List.cons_append, delOrd_plain (x := r ++ ' ' :: b), delOrd_plain (x := r), ih]
    · rfl
    · intro r' h'; simp at h'; exact h1 r' h'.1 h'.2
    · intro r' h'; simp at h'; exact n2 h'.1
    · intro r' h'; simp at h'; exact h3 r' h'.1 h'.2
    · intro r' h'
      simp only [List.cons.injEq] at h'
      cases r with
      | nil => simp at h'
      | cons d r => simp at h'; exact h1 r h'.1 (by rw [h'.2.1])
    · intro r' h'; simp at h'; exact n2 h'.1
    · intro r' h'
      simp only [List.cons.injEq] at h'
      cases r with
      | nil => simp at h'
      | cons d r => simp at h'; exact h3 r h'.1 (by rw [h'.2.1])
  | case5 => rw [List.nil_append, delOrd_cons (by decide)]; rfl

end Verif.Lemmas
