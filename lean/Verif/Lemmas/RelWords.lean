import Verif.Lemmas.Relative
import Verif.Lemmas.Spaces
/-! Helper lemmas: words of a relative date. -/
set_option autoImplicit false
namespace Verif.Lemmas
open Verif.Go Verif.Model Verif.Spec

/-! ## Text as words and other characters -/

/-- Text as a sequence of other characters and pieces of words that satisfy `Q`. -/
inductive Chain (Q : List Char → Prop) : List Char → Prop
  | nil : Chain Q []
  | gap (c : Char) (s : List Char) (hc : isWordC c = false) (h : Chain Q s) : Chain Q (c :: s)
  | word (w s : List Char) (hne : w ≠ []) (hw : ∀ c ∈ w, isWordC c = true) (hq : Q w) (h : Chain Q s) : Chain Q (w ++ s)

theorem Chain.filler {Q : List Char → Prop} {g s : List Char} (hg : ∀ c ∈ g, isWordC c = false) (h : Chain Q s) :
    Chain Q (g ++ s) := by
  induction g with
  | nil => exact h
  | cons c g ih => exact Chain.gap c _ (hg c (by simp)) (ih fun x hx => hg x (by simp [hx]))

theorem Chain.append {Q : List Char → Prop} {a b : List Char} (ha : Chain Q a) (hb : Chain Q b) : Chain Q (a ++ b) := by
  induction ha with
  | nil => exact hb
  | gap c s hc h ih => exact Chain.gap c _ hc ih
  | word w s hne hw hq h ih => rw [List.append_assoc]; exact Chain.word w _ hne hw hq ih

theorem Chain.imp {Q R : List Char → Prop} (hqr : ∀ w, Q w → R w) {a : List Char} (ha : Chain Q a) : Chain R a := by
  induction ha with
  | nil => exact Chain.nil
  | gap c s hc h ih => exact Chain.gap c _ hc ih
  | word w s hne hw hq h ih => exact Chain.word w _ hne hw (hqr w hq) ih

theorem word_not_space {c : Char} (h : isWordC c = true) : isSpace c = false := by
  cases hs : isSpace c with
  | false => rfl
  | true =>
    exfalso
    have hr : c.isAlphanum = true → (48 ≤ c.toNat ∧ c.toNat ≤ 57) ∨ (65 ≤ c.toNat ∧ c.toNat ≤ 90) ∨ (97 ≤ c.toNat ∧ c.toNat ≤ 122) := by
      intro h
      unfold Char.isAlphanum Char.isAlpha Char.isUpper Char.isLower Char.isDigit at h
      simp only [Bool.or_eq_true, Bool.and_eq_true, decide_eq_true_eq, ge_iff_le, UInt32.le_iff_toNat_le] at h
      unfold Char.toNat
      rcases h with (h | h) | h
      · right; left; exact h
      · right; right; exact h
      · left; exact h
    unfold isSpace at hs
    simp only [Bool.or_eq_true, beq_iff_eq, Bool.and_eq_true, decide_eq_true_eq] at hs
    have h' : c.isAlphanum = true ∨ c = '_' := by unfold isWordC at h; simpa using h
    rcases h' with h' | rfl
    · have hr := hr h'
      rcases hs with (((((((((((((hs | hs) | hs) | hs) | hs) | hs) | hs) | hs) | hs) | hs) | hs) | hs) | hs) | hs) | hs <;>
        first
        | (subst hs; revert hr; decide)
        | (have e : (8192 : Nat) ≤ c.toNat := hs.1
           omega)
    · revert hs; decide

theorem chain_sanitize {Q : List Char → Prop} {s : List Char} (h : Chain Q s) :
    Chain Q (inWord s) ∧ Chain Q (afterSpace s) ∧ Chain Q ((afterSpace s).drop 1) := by
  have sp : isWordC ' ' = false := by decide
  induction h with
  | nil => simp only [inWord, afterSpace, List.drop_nil]; exact ⟨Chain.nil, Chain.nil, Chain.nil⟩
  | gap c s hc h ih =>
    rw [inWord, afterSpace]
    cases hs : isSpace c with
    | true => simp only [if_true]; exact ⟨ih.2.1, ih.2.1, ih.2.2⟩
    | false =>
      simp only [Bool.false_eq_true, if_false, List.drop_succ_cons, List.drop_zero]
      exact ⟨.gap c _ hc ih.1, .gap _ _ sp (.gap c _ hc ih.1), .gap c _ hc ih.1⟩
  | word w s hne hw hq h ih =>
    have e : inWord (w ++ s) = w ++ inWord s := inWord_append w s (fun c hc => word_not_space (hw c hc))
    have e2 : afterSpace (w ++ s) = ' ' :: (w ++ inWord s) := by
      cases w with
      | nil => exact absurd rfl hne
      | cons c w =>
        rw [List.cons_append, afterSpace, word_not_space (hw c (by simp))]
        simp [inWord_append w s (fun d hd => word_not_space (hw d (by simp [hd])))]
    rw [e, e2]
    have := Chain.word w _ hne hw hq ih.1
    exact ⟨this, .gap _ _ sp this, by simpa using this⟩

theorem join_fields (s : List Char) : joinWith [' '] (fields s) = (afterSpace s).drop 1 := by
  induction s with
  | nil => rfl
  | cons c s ih =>
    cases hs : isSpace c with
    | true =>
      rw [afterSpace, hs]
      simp only [if_true]
      rw [← ih]
      simp [fields, fieldsAux, hs]
    | false =>
      rw [join_fields_word c s hs, afterSpace, hs]
      simp

theorem chain_filter {Q : List Char → Prop} {s : List Char} (h : Chain Q s) :
    Chain Q (s.filter fun c => c != '\u00a0') := by
  induction h with
  | nil => exact Chain.nil
  | gap c s hc h ih =>
    rw [List.filter_cons]
    split
    · exact Chain.gap c _ hc ih
    · exact ih
  | word w s hne hw hq h ih =>
    rw [List.filter_append]
    have : w.filter (fun c => c != '\u00a0') = w := by
      rw [List.filter_eq_self]
      intro c hc
      have := hw c hc
      simp only [bne_iff_ne, ne_eq]
      rintro rfl
      revert this; decide
    rw [this]
    exact Chain.word w _ hne hw hq ih

theorem chain_sanitizeSpaces {Q : List Char → Prop} {s : List Char} (h : Chain Q s) : Chain Q (sanitizeSpaces s) := by
  unfold sanitizeSpaces
  rw [join_fields]
  exact (chain_sanitize (chain_filter h)).2.2

/-! ## Splitting at other characters -/

/-- Pieces between characters that are not word characters. -/
def pieces : List Char → List Char → List (List Char)
  | [], cur => [cur.reverse]
  | c :: cs, cur => if isWordC c then pieces cs (c :: cur) else cur.reverse :: pieces cs []

theorem nonword_find (p : Option Char) (w : List Char) (c : Char) (r : List Char) (hw : ∀ x ∈ w, isWordC x = true)
    (hc : isWordC c = false) : rxNonWord.find p (w ++ c :: r) = some ⟨w, [c], ⟨some c, r, []⟩⟩ := by
  have h1 := find_skip (r := rxNonWord) w (c :: r) p (by
    intro a b e hb
    apply Rx.Fails.chr
    intro x hx
    cases b with
    | nil => exact absurd rfl hb
    | cons d b => simp at hx; subst hx; simp [hw d (by simp [e])])
  have h2 : rxNonWord.First ⟨lastOr p w, c :: r, []⟩ ⟨some c, r, []⟩ := Rx.First.chr (by simp [hc])
  rw [h1, find_here h2]
  have : (c :: r).length - r.length = 1 := by simp
  simp [this]

theorem nonword_find_none (p : Option Char) (w : List Char) (hw : ∀ x ∈ w, isWordC x = true) :
    rxNonWord.find p w = none := by
  apply find_none
  intro a b e
  apply Rx.Fails.chr
  intro x hx
  have : x ∈ w := by
    rw [e]
    cases b with
    | nil => simp at hx
    | cons d b => simp at hx; simp [hx]
  simp [hw x this]

theorem pieces_word (w : List Char) : ∀ (s cur : List Char), (∀ c ∈ w, isWordC c = true) →
    pieces (w ++ s) cur = pieces s (w.reverse ++ cur) := by
  induction w with
  | nil => intro s cur _; rfl
  | cons c w ih =>
    intro s cur h
    rw [List.cons_append, pieces, if_pos (h c (by simp)), ih _ _ (fun x hx => h x (by simp [hx]))]
    simp

theorem split_pieces : ∀ (n : Nat) (s : List Char) (p : Option Char), s.length < n →
    (rxNonWord.findAllFuel n p s).1.map (·.before) ++ [(rxNonWord.findAllFuel n p s).2] = pieces s [] := by
  intro n
  induction n with
  | zero => intro s p h; simp at h
  | succ n ih =>
    intro s p h
    by_cases hall : ∀ x ∈ s, isWordC x = true
    · rw [findAllFuel_none (nonword_find_none p s hall)]
      have := pieces_word s [] [] hall
      simp only [List.append_nil] at this
      simp [this, pieces]
    · obtain ⟨w, c, r, e, hw, hc⟩ : ∃ w c r, s = w ++ c :: r ∧ (∀ x ∈ w, isWordC x = true) ∧ isWordC c = false := by
        clear h
        induction s with
        | nil => exact absurd (by simp) hall
        | cons d s ih2 =>
          cases hd : isWordC d with
          | false => exact ⟨[], d, s, rfl, by simp, hd⟩
          | true =>
            have : ¬ ∀ x ∈ s, isWordC x = true := by
              intro h'
              apply hall
              intro x hx
              rcases List.mem_cons.mp hx with rfl | hx
              · exact hd
              · exact h' x hx
            obtain ⟨w, c, r, e, hw, hc⟩ := ih2 this
            exact ⟨d :: w, c, r, by simp [e], by
              intro x hx
              rcases List.mem_cons.mp hx with rfl | hx
              · exact hd
              · exact hw x hx, hc⟩
      subst e
      rw [findAllFuel_step (nonword_find p w c r hw hc) (by simp)]
      have := ih r (some c) (by simp at h; omega)
      simp only [List.map_cons, List.cons_append]
      rw [this, pieces_word w _ _ hw, pieces, if_neg (by simp [hc])]
      simp

theorem chain_pieces {Q : List Char → Prop} (hext : ∀ w v, Q w → Q (w ++ v)) {s : List Char} (h : Chain Q s) :
    ∀ cur, (cur = [] ∨ Q cur.reverse) → ∀ w ∈ pieces s cur, w = [] ∨ Q w := by
  induction h with
  | nil => intro cur hc w hw; simp [pieces] at hw; subst hw; simpa using hc
  | gap c s hc h ih =>
    intro cur hcur w hw
    rw [pieces, if_neg (by simp [hc])] at hw
    rcases List.mem_cons.mp hw with rfl | hw
    · simpa using hcur
    · exact ih [] (Or.inl rfl) w hw
  | word w s hne hw hq h ih =>
    intro cur hcur v hv
    rw [pieces_word w s cur hw] at hv
    apply ih _ _ v hv
    right
    rcases hcur with rfl | hcur
    · simpa using hq
    · simpa using hext _ w hcur

/-! ## The words the relative parser knows -/

theorem rxCi_run (w : List Char) : ∀ (a : List Char) (p : Option Char) (r : List Char) (c : List (Nat × List Char)),
    toLower a = w → (rxCi w).run ⟨p, a ++ r, c⟩ = [⟨lastOr p a, r, c⟩] := by
  induction w with
  | nil => intro a p r c h; simp [toLower] at h; subst h; rfl
  | cons x w ih =>
    intro a p r c h
    cases a with
    | nil => simp [toLower] at h
    | cons y a =>
      simp only [toLower, List.map_cons, List.cons.injEq] at h
      have h1 : (Rx.chr (ciMatch x)).run ⟨p, y :: (a ++ r), c⟩ = [⟨some y, a ++ r, c⟩] := by
        simp [Rx.run, ciMatch, h.1]
      rw [rxCi, List.cons_append, Rx.seq_one h1, ih a (some y) r c h.2, lastOr_cons]

theorem alts_run {l : List Rx} {r : Rx} {s : MSt} (hr : r ∈ l) (h : r.run s ≠ []) : (Rx.alts l).run s ≠ [] := by
  induction l with
  | nil => simp at hr
  | cons a l ih =>
    cases l with
    | nil => simp at hr; subst hr; exact h
    | cons b l =>
      simp only [Rx.alts, Rx.run]
      rcases List.mem_cons.mp hr with rfl | hr
      · simp [h]
      · have := ih hr
        simp [this]

/-- Beginnings of words that are passed over. -/
def SkipStart (w : List Char) : Prop :=
  ∃ a b, w = a ++ b ∧ ((∃ u : RelUnit, toLower a = u.name) ∨ (∃ d, a = [d] ∧ d.isDigit = true) ∨
    toLower a = "in".toList ∨ toLower a = "ago".toList ∨ toLower a = "am".toList ∨ toLower a = "pm".toList)

theorem SkipStart.ext (w v : List Char) (h : SkipStart w) : SkipStart (w ++ v) := by
  obtain ⟨a, b, e, h⟩ := h
  exact ⟨a, b ++ v, by simp [e], h⟩

theorem two_letters {a : List Char} {c d : Char} (h : toLower a = [c, d]) :
    ∃ x y, a = [x, y] ∧ toLowerC x = c ∧ toLowerC y = d := by
  unfold toLower at h
  match a with
  | [] => simp at h
  | [x] => simp at h
  | [x, y] => simp at h; exact ⟨x, y, rfl, h.1, h.2⟩
  | x :: y :: z :: r => simp at h

theorem SkipStart.matches {w : List Char} (h : SkipStart w) : rxRelativeSkipWord.matches w = true := by
  have key : ∀ r : Rx, rxRelativeSkipWord = .seq .bos r → r.run ⟨none, w, []⟩ ≠ [] →
      rxRelativeSkipWord.matches w = true := by
    intro r e hr
    have := Rx.find_bos r w
    unfold Rx.matches
    unfold Rx.findFirst at this
    rw [e, this]
    cases hrun : r.run ⟨none, w, []⟩ with
    | nil => exact absurd hrun hr
    | cons t l => rfl
  apply key _ rfl
  obtain ⟨a, b, rfl, h⟩ := h
  rcases h with ⟨u, hu⟩ | ⟨d, rfl, hd⟩ | h | h | h | h
  · apply alts_run (r := rxCi u.name)
    · exact List.mem_append_left _ (List.mem_map_of_mem (by cases u <;> decide))
    · rw [rxCi_run u.name a none b [] hu]; simp
  · apply alts_run (r := Rx.plus Rx.digit)
    · simp
    · have : (Rx.plus Rx.digit).run ⟨none, [d] ++ b, []⟩ = (Rx.star Rx.digit).run ⟨some d, b, []⟩ := by
        unfold Rx.plus
        apply Rx.seq_one
        simp [Rx.digit, Rx.run, hd]
      rw [this]
      have hs : ∀ (f : MSt → List MSt) n s, starRun f n s ≠ [] := by
        intro f n s; cases n <;> simp [starRun]
      exact hs _ _ _
  · apply alts_run (r := rxCi "in".toList)
    · simp
    · rw [rxCi_run _ a none b [] h]; simp
  · apply alts_run (r := rxCi "ago".toList)
    · simp
    · rw [rxCi_run _ a none b [] h]; simp
  · apply alts_run (r := .seq (.chr fun c => ciMatch 'a' c || ciMatch 'p' c) (.chr (ciMatch 'm')))
    · simp
    · obtain ⟨x, y, rfl, h1, h2⟩ := two_letters (c := 'a') (d := 'm') h
      simp [Rx.run, ciMatch, h1, h2]
  · apply alts_run (r := .seq (.chr fun c => ciMatch 'a' c || ciMatch 'p' c) (.chr (ciMatch 'm')))
    · simp
    · obtain ⟨x, y, rfl, h1, h2⟩ := two_letters (c := 'p') (d := 'm') h
      simp [Rx.run, ciMatch, h1, h2]

theorem allWords_chain {s : List Char} (h : Chain SkipStart s) : allWordsAreUnits s = true := by
  unfold allWordsAreUnits Rx.split Rx.findAll
  rw [split_pieces _ _ _ (Nat.lt_succ_self _), List.all_eq_true]
  intro w hw
  rcases chain_pieces SkipStart.ext (chain_sanitizeSpaces h) [] (Or.inl rfl) w hw with rfl | hq
  · simp
  · simp [hq.matches]

/-! ## Looking for a word -/

/-- `\bword\b` under `(?i)`. -/
def rxWord (w : List Char) : Rx := .seq .wb (.seq (rxCi w) .wb)

theorem rxIn_eq : rxIn = rxWord "in".toList := rfl
theorem rxAgo_eq : rxAgo = rxWord "ago".toList := rfl

theorem rxCi_mem (w : List Char) (hk : 'k' ∉ w) (hs : 's' ∉ w) : ∀ (s t : MSt), t ∈ (rxCi w).run s →
    ∃ a, s.rest = a ++ t.rest ∧ toLower a = w := by
  induction w with
  | nil => intro s t h; simp [rxCi, Rx.run] at h; exact ⟨[], by simp [h], rfl⟩
  | cons x w ih =>
    intro s t h
    simp only [rxCi, Rx.run, List.mem_flatMap] at h
    obtain ⟨u, hu, ht⟩ := h
    cases hr : s.rest with
    | nil => simp [hr] at hu
    | cons c r =>
      simp only [hr] at hu
      split at hu
      · rename_i hc
        simp only [List.mem_singleton] at hu
        subst hu
        obtain ⟨a, e, ha⟩ := ih (by simp at hk; exact hk.2) (by simp at hs; exact hs.2) _ t ht
        refine ⟨c :: a, by simpa using e, ?_⟩
        have h1 : ('k' : Char) ≠ x := by simp at hk; exact hk.1
        have h2 : ('s' : Char) ≠ x := by simp at hs; exact hs.1
        have h1' : (x == 'k') = false := by simpa using fun h => h1 h.symm
        have h2' : (x == 's') = false := by simpa using fun h => h2 h.symm
        simp only [ciMatch, h1', h2', Bool.false_and, Bool.or_false, beq_iff_eq] at hc
        simp only [toLower, List.map_cons, hc]
        rw [← ha]; rfl
      · simp at hu

theorem lower_word {c : Char} (h : isWordC (toLowerC c) = true) : isWordC c = true := by
  unfold toLowerC at h
  split at h
  · rename_i hc
    have h1 : c.isUpper = true := by
      unfold Char.isUpper
      simp only [Bool.and_eq_true, decide_eq_true_eq]
      exact hc
    unfold isWordC Char.isAlphanum Char.isAlpha
    simp [h1]
  · exact h

theorem rxWord_fails {w : List Char} (hk : 'k' ∉ w) (hs : 's' ∉ w) (hne : w ≠ []) (hw : ∀ c ∈ w, isWordC c = true)
    {p : Option Char} {s : List Char}
    (h : ∀ a r, s = a ++ r → toLower a = w → optWord p = false → optWord r.head? = false → False) :
    (rxWord w).Fails ⟨p, s, []⟩ := by
  unfold Rx.Fails
  rw [List.eq_nil_iff_forall_not_mem]
  intro t ht
  simp only [rxWord, Rx.run, List.mem_flatMap] at ht
  obtain ⟨u, hu, v, hv, hwb⟩ := ht
  split at hu
  · rename_i h1
    simp only [List.mem_singleton] at hu
    subst hu
    obtain ⟨a, e, ha⟩ := rxCi_mem w hk hs _ _ hv
    simp only at e
    have hpw : v.prev = lastOr p a := by
      have := rxCi_run w a p v.rest [] ha
      rw [← e] at this
      rw [this] at hv
      simp at hv
      rw [hv]
    have hane : a ≠ [] := by rintro rfl; simp [toLower] at ha; exact hne ha
    have haw : ∀ c ∈ a, isWordC c = true := by
      intro c hc
      apply lower_word
      apply hw
      rw [← ha]
      unfold toLower
      exact List.mem_map_of_mem hc
    split at hwb
    · rename_i h2
      have hp : optWord p = false := by
        cases a with
        | nil => exact absurd rfl hane
        | cons x a =>
          rw [e] at h1
          have := haw x (by simp)
          simp [optWord, this] at h1
          cases p with
          | none => rfl
          | some y => simpa [optWord] using h1
      have hr : optWord v.rest.head? = false := by
        rw [hpw] at h2
        have hl : optWord (lastOr p a) = true := by
          unfold lastOr
          cases hg : a.getLast? with
          | none => simp at hg; exact absurd hg hane
          | some y => simp [optWord, haw y (List.mem_of_getLast? hg)]
        rw [hl] at h2
        simpa using h2
      exact h a v.rest e ha hp hr
    · simp at hwb
  · simp at hu

theorem rxWord_first {w a r : List Char} {p : Option Char} (ha : toLower a = w) (hne : w ≠ [])
    (hw : ∀ c ∈ w, isWordC c = true) (hp : optWord p = false) (hr : optWord r.head? = false) :
    (rxWord w).First ⟨p, a ++ r, []⟩ ⟨lastOr p a, r, []⟩ := by
  have hane : a ≠ [] := by rintro rfl; simp [toLower] at ha; exact hne ha
  have haw : ∀ c ∈ a, isWordC c = true := by
    intro c hc
    apply lower_word
    apply hw
    rw [← ha]
    unfold toLower
    exact List.mem_map_of_mem hc
  have h1 : Rx.wb.First ⟨p, a ++ r, []⟩ ⟨p, a ++ r, []⟩ := by
    cases a with
    | nil => exact absurd rfl hane
    | cons x a =>
      have := haw x (by simp)
      refine ⟨[], ?_⟩
      cases p with
      | none => simp [Rx.run, optWord, this]
      | some y => simp [optWord] at hp; simp [Rx.run, optWord, this, hp]
  have h2 : (rxCi w).First ⟨p, a ++ r, []⟩ ⟨lastOr p a, r, []⟩ := ⟨[], rxCi_run w a p r [] ha⟩
  have h3 : Rx.wb.First ⟨lastOr p a, r, []⟩ ⟨lastOr p a, r, []⟩ := by
    refine ⟨[], ?_⟩
    have hl : optWord (lastOr p a) = true := by
      unfold lastOr
      cases hg : a.getLast? with
      | none => simp at hg; exact absurd hg hane
      | some y => simp [optWord, haw y (List.mem_of_getLast? hg)]
    simp [Rx.run, hl, hr]
  exact Rx.First.seq h1 (Rx.First.seq h2 h3)

/-- A match somewhere. -/
theorem find_isSome {r : Rx} (a : List Char) : ∀ (p : Option Char) (b : List Char),
    r.run ⟨lastOr p a, b, []⟩ ≠ [] → (r.find p (a ++ b)).isSome = true := by
  induction a with
  | nil =>
    intro p b h
    rw [lastOr_nil] at h
    cases hr : r.run ⟨p, b, []⟩ with
    | nil => exact absurd hr h
    | cons t l => rw [List.nil_append, find_here ⟨l, hr⟩]; rfl
  | cons c a ih =>
    intro p b h
    rw [lastOr_cons] at h
    rw [List.cons_append, Rx.find]
    cases hr : r.run ⟨p, c :: (a ++ b), []⟩ with
    | nil => simpa using ih (some c) b h
    | cons t l => rfl

/-- Where words can begin in a chain. -/
theorem chain_start {Q : List Char → Prop} {s : List Char} (h : Chain Q s) : ∀ (p : Option Char) (a : List Char) (y : Char) (b : List Char),
    s = a ++ y :: b → isWordC y = true → optWord (lastOr p a) = false →
    ∃ w s', Q w ∧ w.head? = some y ∧ y :: b = w ++ s' := by
  induction h with
  | nil => intro p a y b e; simp at e
  | gap c s hc h ih =>
    intro p a y b e hy hl
    cases a with
    | nil => simp at e; rw [e.1] at hc; rw [hc] at hy; simp at hy
    | cons d a =>
      simp at e
      rw [lastOr_cons] at hl
      exact ih (some d) a y b e.2 hy hl
  | word w s hne hw hq h ih =>
    intro p a y b e hy hl
    by_cases hlen : w.length ≤ a.length
    · -- beyond this word
      obtain ⟨a', ha⟩ : ∃ a', a = w ++ a' := by
        have : w <+: a := by
          apply List.prefix_of_prefix_length_le (l₃ := w ++ s)
          · exact List.prefix_append _ _
          · rw [e]; exact List.prefix_append _ _
          · exact hlen
        obtain ⟨a', h⟩ := this
        exact ⟨a', h.symm⟩
      subst ha
      rw [List.append_assoc] at e
      have e' := List.append_cancel_left e
      have hl' : optWord (lastOr (lastOr p w) a') = false := by
        have : lastOr (lastOr p w) a' = lastOr p (w ++ a') := by
          unfold lastOr
          rw [List.getLast?_append]
          cases a'.getLast? <;> rfl
        rw [this]; exact hl
      exact ih (lastOr p w) a' y b e' hy hl'
    · -- inside this word
      obtain ⟨w', hw'⟩ : ∃ w', w = a ++ w' := by
        have : a <+: w := by
          apply List.prefix_of_prefix_length_le (l₃ := w ++ s)
          · rw [e]; exact List.prefix_append _ _
          · exact List.prefix_append _ _
          · omega
        obtain ⟨w', h⟩ := this
        exact ⟨w', h.symm⟩
      cases a with
      | nil =>
        cases w with
        | nil => exact absurd rfl hne
        | cons x w =>
          simp at e
          exact ⟨x :: w, s, hq, by simp [e.1], by simp [e.1, e.2]⟩
      | cons x a =>
        exfalso
        have : optWord (lastOr p (x :: a)) = true := by
          unfold lastOr
          cases hg : (x :: a).getLast? with
          | none => simp at hg
          | some z =>
            have : z ∈ w := by rw [hw']; exact List.mem_append_left _ (List.mem_of_getLast? hg)
            simp [optWord, hw z this]
        rw [this] at hl; simp at hl

/-- A piece of a word that does not begin with `w` (in any letter case), whatever follows it. -/
def NotWord (w v : List Char) : Prop := ∀ s' a r, v ++ s' = a ++ r → toLower a ≠ w

theorem NotWord.first {x y : Char} {w v : List Char} (h : toLowerC y ≠ x) : NotWord (x :: w) (y :: v) := by
  intro s' a r e ha
  cases a with
  | nil => simp [toLower] at ha
  | cons z a =>
    simp only [toLower, List.map_cons, List.cons.injEq] at ha
    simp at e
    rw [← e.1] at ha
    exact h ha.1

/-- A word is not found if no piece of a word begins with it. -/
theorem rxWord_none {w : List Char} (hk : 'k' ∉ w) (hs : 's' ∉ w) (hne : w ≠ [])
    (hw : ∀ c ∈ w, isWordC c = true) {s : List Char}
    (h : Chain (NotWord w) s) (p : Option Char) : (rxWord w).find p s = none := by
  apply find_none
  intro a b e
  apply rxWord_fails hk hs hne hw
  intro a' r e' ha' hp hr
  cases a' with
  | nil => simp [toLower] at ha'; exact hne ha'
  | cons y a' =>
    have hy : isWordC y = true := by
      apply lower_word
      apply hw
      rw [← ha']
      simp [toLower]
    obtain ⟨v, s', hv, hh, he⟩ := chain_start h p a y (a' ++ r) (by rw [e, e']; rfl) hy hp
    exact hv s' (y :: a') r (by rw [← he]; simp) ha'

end Verif.Lemmas
