import Verif.Lemmas.RelWords
import Verif.Lemmas.Float
/-! Helper lemmas: a whole relative date phrase. -/
set_option autoImplicit false
namespace Verif.Lemmas
open Verif.Go Verif.Model Verif.Spec

def isBrace (c : Char) : Bool := ['{', '}', '(', ')', '<', '>', '[', ']'].contains c

/-- What may stand at the end of a phrase. -/
structure TailOK (tail : List Char) : Prop where
  braces : ∀ c ∈ tail, isBrace c = false
  head : ∀ c, tail.head? = some c → isWordC c = false
  skip : Chain SkipStart tail
  noIn : Chain (NotWord "in".toList) tail
  noAgo : Chain (NotWord "ago".toList) tail
  rel : ∀ p, rxRelativePattern.find p tail = none

theorem filler_word {g : List Char} (h : Filler g) : ∀ c ∈ g, isWordC c = false := by
  intro c hc
  cases hw : isWordC c with
  | false => rfl
  | true => exact absurd ((isWordC_iff c).mp hw) (h c hc).1

theorem filler_brace {g : List Char} (h : Filler g) : ∀ c ∈ g, isBrace c = false := by
  intro c hc
  have := (h c hc).2
  unfold isBrace
  simpa using this

theorem not_word_not_digit {c : Char} (h : isWordC c = false) : c.isDigit = false := by
  cases hd : c.isDigit with
  | false => rfl
  | true => rw [digit_word hd] at h; simp at h

theorem tail_filler {g : List Char} (h : Filler g) : TailOK g := by
  have hw := filler_word h
  have c : ∀ Q, Chain Q g := fun Q => by
    have := Chain.filler (Q := Q) hw Chain.nil
    simpa using this
  refine ⟨filler_brace h, ?_, c _, c _, c _, ?_⟩
  · intro x hx
    cases g with
    | nil => simp at hx
    | cons y g => simp at hx; subst hx; exact hw _ (by simp)
  · intro p
    apply find_none
    intro a b e
    apply rel_fails
    intro x hx
    apply not_word_not_digit
    apply hw
    rw [e]
    cases b with
    | nil => simp at hx
    | cons y b => simp at hx; simp [hx]

/-! ### Pieces of the phrase -/

def leadText (p : Phrase) : List Char := match p.lead with | none => [] | some (w, g) => w ++ g
def agoText (p : Phrase) : List Char := match p.ago with | none => [] | some (g, w) => g ++ w

def phraseSegs (p : Phrase) : List (List Char × Item) := (leadText p, p.first) :: p.more

theorem text_segs (p : Phrase) : p.text = segText (phraseSegs p) (agoText p ++ p.tail) := by
  unfold Phrase.text phraseSegs
  rw [segText_cons]
  unfold segText leadText agoText
  cases p.lead <;> cases p.ago <;> simp [List.append_assoc]

theorem segs_items (p : Phrase) : (phraseSegs p).map (·.2) = p.items := rfl

theorem word_of_lower {w v : List Char} (h : toLower w = v) (hv : ∀ c ∈ v, isWordC c = true) : ∀ c ∈ w, isWordC c = true := by
  intro c hc
  apply lower_word
  apply hv
  rw [← h]
  unfold toLower
  exact List.mem_map_of_mem hc

theorem lower_digit {c : Char} (h : c.isDigit = true) : (toLowerC c).isDigit = true := by rw [toLowerC_digit h]; exact h

theorem nodigit_of_lower {w v : List Char} (h : toLower w = v) (hv : ∀ c ∈ v, c.isDigit = false) : ∀ c ∈ w, c.isDigit = false := by
  intro c hc
  cases hd : c.isDigit with
  | false => rfl
  | true =>
    have h1 : toLowerC c ∈ v := by rw [← h]; unfold toLower; exact List.mem_map_of_mem hc
    have := lower_digit hd
    rw [hv _ h1] at this
    simp at this

theorem word_brace {c : Char} (h : isWordC c = true) : isBrace c = false := by
  cases hb : isBrace c with
  | false => rfl
  | true =>
    exfalso
    unfold isBrace at hb
    simp only [List.contains_eq_mem, List.mem_cons, List.not_mem_nil, or_false, decide_eq_true_eq] at hb
    rcases hb with rfl | rfl | rfl | rfl | rfl | rfl | rfl | rfl <;> revert h <;> decide

theorem in_words : ∀ c ∈ "in".toList, isWordC c = true ∧ c.isDigit = false := by decide
theorem ago_words : ∀ c ∈ "ago".toList, isWordC c = true ∧ c.isDigit = false := by decide

variable {p : Phrase} (h : p.OK) (ht : TailOK p.tail)

include h in
theorem lead_nodigit : ∀ c ∈ leadText p, c.isDigit = false := by
  intro c hc
  unfold leadText at hc
  cases hl : p.lead with
  | none => simp [hl] at hc
  | some wg =>
    obtain ⟨w, g⟩ := wg
    obtain ⟨h1, h2, h3⟩ := h.lead w g hl
    simp only [hl, List.mem_append] at hc
    rcases hc with hc | hc
    · exact nodigit_of_lower h1 (fun c hc => (in_words c hc).2) c hc
    · exact not_word_not_digit (filler_word h3 c hc)

include h in
theorem ago_nodigit : ∀ c ∈ agoText p, c.isDigit = false := by
  intro c hc
  unfold agoText at hc
  cases hl : p.ago with
  | none => simp [hl] at hc
  | some gw =>
    obtain ⟨g, w⟩ := gw
    obtain ⟨h1, h2, h3⟩ := h.ago g w hl
    simp only [hl, List.mem_append] at hc
    rcases hc with hc | hc
    · exact not_word_not_digit (filler_word h3 c hc)
    · exact nodigit_of_lower h1 (fun c hc => (ago_words c hc).2) c hc

include h ht in
theorem end_head : ∀ c, (agoText p ++ p.tail).head? = some c → isWordC c = false := by
  intro c hc
  unfold agoText at hc
  cases hl : p.ago with
  | none => simp only [hl, List.nil_append] at hc; exact ht.head c hc
  | some gw =>
    obtain ⟨g, w⟩ := gw
    obtain ⟨h1, h2, h3⟩ := h.ago g w hl
    cases g with
    | nil => exact absurd rfl h2
    | cons x g =>
      simp [hl] at hc
      subst hc
      exact filler_word h3 _ (by simp)

include h ht in
theorem end_rel : ∀ q, rxRelativePattern.find q (agoText p ++ p.tail) = none := by
  intro q
  rw [find_skip, ht.rel]
  · rfl
  · intro a b e hb
    apply rel_fails
    intro c hc
    apply ago_nodigit h
    rw [e]
    cases b with
    | nil => exact absurd rfl hb
    | cons x b => simp at hc; simp [hc]

include h ht in
theorem phrase_segsOK : SegsOK (agoText p ++ p.tail) (phraseSegs p) := by
  have hmore : ∀ (more : List (List Char × Item)), (∀ x ∈ more, x.1 ≠ [] ∧ Filler x.1) → (∀ x ∈ more, x.2.OK) →
      SegsOK (agoText p ++ p.tail) more ∧
      ∀ c, (segText more (agoText p ++ p.tail)).head? = some c → isWordC c = false := by
    intro more
    induction more with
    | nil => intro _ _; exact ⟨.nil, end_head h ht⟩
    | cons x more ih =>
      intro h1 h2
      have := ih (fun y hy => h1 y (by simp [hy])) (fun y hy => h2 y (by simp [hy]))
      obtain ⟨sep, i⟩ := x
      have hs := h1 (sep, i) (by simp)
      have hsw := filler_word hs.2
      refine ⟨.cons sep i more (fun c hc => not_word_not_digit (hsw c hc)) (h2 (sep, i) (by simp)) this.2 this.1, ?_⟩
      intro c hc
      rw [segText_cons] at hc
      cases hse : sep with
      | nil => exact absurd hse hs.1
      | cons y sep' =>
        simp [hse] at hc
        subst hc
        exact hsw _ (by simp [hse])
  have := hmore p.more h.more (fun x hx => h.items x.2 (by unfold Phrase.items; simp; right; exact ⟨x.1, hx⟩))
  exact .cons _ _ _ (lead_nodigit h) (h.items p.first (by simp [Phrase.items])) this.2 this.1

include h ht in
theorem phrase_durations : (rxRelativePattern.findAll p.text).1.foldl
      (fun (m : FMap) x => m.set (x.after.cap 2) (amountValue (x.after.cap 1))) [] = foldItems p.items := by
  rw [text_segs, fold_segs (end_rel h ht) (phrase_segsOK h ht), segs_items]

include h ht in
theorem phrase_delete : rxRelativePattern.deleteAll p.text =
    leadText p ++ ((p.more.map (·.1)).flatten ++ (agoText p ++ p.tail)) := by
  rw [text_segs, deleteAll_segs (end_rel h ht) (phrase_segsOK h ht)]
  simp [phraseSegs]

/-! ### Words -/

theorem item_chain {Q : List Char → Prop} {i : Item} (hi : i.OK) (hd : ∀ d r, d.isDigit = true → Q (d :: r))
    (hu : ∀ u : RelUnit, Q u.name) : Chain Q i.text := by
  have hdig : ∀ ds : List Char, (∀ c ∈ ds, c.isDigit = true) → ∀ s, Chain Q s → Chain Q (ds ++ s) := by
    intro ds hds s hs
    cases ds with
    | nil => exact hs
    | cons d ds => exact Chain.word _ _ (by simp) (fun c hc => digit_word (hds c hc)) (hd d ds (hds d (by simp))) hs
  have hgap : Chain Q (i.gap ++ i.unit.name) := by
    apply Chain.filler (fun c hc => blank_not_word (hi.gap c hc))
    obtain ⟨x, r, e, _⟩ := name_head i.unit
    have := Chain.word (Q := Q) i.unit.name [] (by simp [e]) (fun c hc => (name_word _ c hc).1) (hu _) Chain.nil
    simpa using this
  unfold Item.text Item.amount
  cases hf : i.frac with
  | none => simp only [List.append_nil]; exact hdig _ hi.whole.2 _ hgap
  | some cf =>
    obtain ⟨c, f⟩ := cf
    simp only [List.append_assoc, List.cons_append]
    apply hdig _ hi.whole.2
    apply Chain.gap
    · rcases hi.sep c f hf with rfl | rfl <;> decide
    · exact hdig _ (hi.digits c f hf) _ hgap

include h in
theorem relPhrase_chain {Q : List Char → Prop} (hd : ∀ d r, d.isDigit = true → Q (d :: r)) (hu : ∀ u : RelUnit, Q u.name)
    (hl : Chain Q (leadText p)) (ha : Chain Q (agoText p ++ p.tail)) : Chain Q p.text := by
  rw [text_segs]
  unfold phraseSegs
  rw [segText_cons]
  apply hl.append
  apply (item_chain (h.items p.first (by simp [Phrase.items])) hd hu).append
  have : ∀ more : List (List Char × Item), (∀ x ∈ more, Filler x.1) → (∀ x ∈ more, x.2.OK) →
      Chain Q (segText more (agoText p ++ p.tail)) := by
    intro more
    induction more with
    | nil => intro _ _; exact ha
    | cons x more ih =>
      intro h1 h2
      rw [segText_cons]
      apply Chain.filler (filler_word (h1 x (by simp)))
      exact (item_chain (h2 x (by simp)) hd hu).append (ih (fun y hy => h1 y (by simp [hy])) (fun y hy => h2 y (by simp [hy])))
  exact this p.more (fun x hx => (h.more x hx).2)
    (fun x hx => h.items x.2 (by unfold Phrase.items; simp; right; exact ⟨x.1, hx⟩))

include h in
theorem lead_chain {Q : List Char → Prop} (hq : ∀ w, toLower w = "in".toList → Q w) : Chain Q (leadText p) := by
  unfold leadText
  cases hl : p.lead with
  | none => exact Chain.nil
  | some wg =>
    obtain ⟨w, g⟩ := wg
    obtain ⟨h1, h2, h3⟩ := h.lead w g hl
    have hg : Chain Q g := by simpa using Chain.filler (Q := Q) (filler_word h3) Chain.nil
    exact Chain.word w g (by rintro rfl; simp [toLower] at h1) (word_of_lower h1 fun c hc => (in_words c hc).1) (hq w h1) hg

include h in
theorem ago_chain {Q : List Char → Prop} (hq : ∀ w, toLower w = "ago".toList → Q w) {s : List Char} (hs : Chain Q s) :
    Chain Q (agoText p ++ s) := by
  unfold agoText
  cases hl : p.ago with
  | none => exact hs
  | some gw =>
    obtain ⟨g, w⟩ := gw
    obtain ⟨h1, h2, h3⟩ := h.ago g w hl
    simp only [List.append_assoc]
    apply Chain.filler (filler_word h3)
    exact Chain.word w s (by rintro rfl; simp [toLower] at h1) (word_of_lower h1 fun c hc => (ago_words c hc).1) (hq w h1) hs

include h ht in
theorem phrase_words : allWordsAreUnits p.text = true := by
  apply allWords_chain
  apply relPhrase_chain h
  · intro d r hd; exact ⟨[d], r, rfl, Or.inr (Or.inl ⟨d, rfl, hd⟩)⟩
  · intro u; exact ⟨u.name, [], by simp, Or.inl ⟨u, by cases u <;> decide⟩⟩
  · apply lead_chain h
    intro w hw; exact ⟨w, [], by simp, by simp [hw]⟩
  · apply ago_chain h _ ht.skip
    intro w hw; exact ⟨w, [], by simp, by simp [hw]⟩

theorem digit_not_in {d : Char} (hd : d.isDigit = true) (x : Char) (hx : x.isDigit = false) : toLowerC d ≠ x := by
  rw [toLowerC_digit hd]; rintro rfl; rw [hx] at hd; simp at hd

include h ht in
theorem phrase_in : rxIn.matches p.text = p.lead.isSome := by
  unfold Rx.matches
  rw [rxIn_eq]
  cases hl : p.lead with
  | none =>
    rw [rxWord_none (w := "in".toList) (by decide) (by decide) (by decide) (fun c hc => (in_words c hc).1)]
    · rfl
    · apply relPhrase_chain h
      · intro d r hd; exact NotWord.first (x := 'i') (w := ['n']) (digit_not_in hd _ (by decide))
      · intro u
        obtain ⟨x, r, e, _, _, _, _, hx⟩ := name_head u
        rw [e]
        apply NotWord.first (x := 'i') (w := ['n'])
        rcases hx with rfl | rfl | rfl | rfl | rfl | rfl <;> decide
      · unfold leadText; rw [hl]; exact Chain.nil
      · apply ago_chain h _ ht.noIn
        intro w hw
        cases w with
        | nil => simp [toLower] at hw
        | cons y w =>
          apply NotWord.first (x := 'i') (w := ['n'])
          simp only [toLower, List.map_cons] at hw
          have : toLowerC y = 'a' := by
            have := congrArg List.head? hw
            simpa using this
          rw [this]; decide
  | some wg =>
    obtain ⟨w, g⟩ := wg
    obtain ⟨h1, h2, h3⟩ := h.lead w g hl
    have e : p.text = w ++ (g ++ (p.first.text ++ segText p.more (agoText p ++ p.tail))) := by
      rw [text_segs]
      unfold phraseSegs
      rw [segText_cons]
      simp [leadText, hl]
    rw [e]
    have hg : ∀ s, optWord (g ++ s).head? = false := by
      intro s
      cases g with
      | nil => exact absurd rfl h2
      | cons x g => simp [optWord, filler_word h3 x (by simp)]
    have := rxWord_first (w := "in".toList) (p := none) h1 (by decide) (fun c hc => (in_words c hc).1) rfl
      (hg (p.first.text ++ segText p.more (agoText p ++ p.tail)))
    rw [find_here this]
    rfl

include h ht in
theorem phrase_ago (htl : ∀ c, p.tail.head? = some c → isWordC c = false) : rxAgo.matches p.text = p.ago.isSome := by
  unfold Rx.matches
  rw [rxAgo_eq]
  cases hl : p.ago with
  | none =>
    rw [rxWord_none (w := "ago".toList) (by decide) (by decide) (by decide) (fun c hc => (ago_words c hc).1)]
    · rfl
    · apply relPhrase_chain h
      · intro d r hd; exact NotWord.first (x := 'a') (w := ['g', 'o']) (digit_not_in hd _ (by decide))
      · intro u
        obtain ⟨x, r, e, _, _, _, _, hx⟩ := name_head u
        rw [e]
        apply NotWord.first (x := 'a') (w := ['g', 'o'])
        rcases hx with rfl | rfl | rfl | rfl | rfl | rfl <;> decide
      · apply lead_chain h
        intro w hw
        cases w with
        | nil => simp [toLower] at hw
        | cons y w =>
          apply NotWord.first (x := 'a') (w := ['g', 'o'])
          simp only [toLower, List.map_cons] at hw
          have : toLowerC y = 'i' := by
            have := congrArg List.head? hw
            simpa using this
          rw [this]; decide
      · unfold agoText; rw [hl]; exact ht.noAgo
  | some gw =>
    obtain ⟨g, w⟩ := gw
    obtain ⟨h1, h2, h3⟩ := h.ago g w hl
    have e : p.text = (segText (phraseSegs p) [] ++ g) ++ (w ++ p.tail) := by
      rw [text_segs]
      unfold segText
      simp [agoText, hl, List.append_assoc]
    rw [e]
    apply find_isSome
    have hp : optWord (lastOr none (segText (phraseSegs p) [] ++ g)) = false := by
      unfold lastOr
      rw [List.getLast?_append]
      cases hg : g.getLast? with
      | none => simp at hg; exact absurd hg h2
      | some x => simp [optWord, filler_word h3 x (List.mem_of_getLast? hg)]
    have hr : optWord p.tail.head? = false := by
      cases hh : p.tail.head? with
      | none => rfl
      | some c => exact htl c hh
    obtain ⟨l, hl'⟩ := rxWord_first (w := "ago".toList) h1 (by decide) (fun c hc => (ago_words c hc).1) hp hr
    rw [hl']; simp

/-! ### Brackets -/

include h ht in
theorem phrase_braces : stripBraces p.text = p.text := by
  unfold stripBraces
  rw [List.filter_eq_self]
  intro c hc
  have key : isBrace c = false := by
    have hi : ∀ i : Item, i.OK → ∀ c ∈ i.text, isBrace c = false := by
      intro i hi c hc
      unfold Item.text Item.amount at hc
      simp only [List.mem_append] at hc
      rcases hc with (hc | hc) | hc | hc
      · exact word_brace (digit_word (hi.whole.2 c hc))
      · cases hf : i.frac with
        | none => simp [hf] at hc
        | some cf =>
          obtain ⟨x, f⟩ := cf
          simp [hf] at hc
          rcases hc with rfl | hc
          · rcases hi.sep _ f hf with rfl | rfl <;> decide
          · exact word_brace (digit_word (hi.digits x f hf c hc))
      · rcases hi.gap c hc with rfl | rfl | rfl | rfl | rfl <;> decide
      · exact word_brace (name_word _ c hc).1
    rw [text_segs] at hc
    unfold phraseSegs segText at hc
    simp only [List.flatMap_cons, List.mem_append, List.mem_flatMap] at hc
    rcases hc with ((hc | hc) | ⟨x, hx, hc | hc⟩) | hc | hc
    · unfold leadText at hc
      cases hl : p.lead with
      | none => simp [hl] at hc
      | some wg =>
        obtain ⟨w, g⟩ := wg
        obtain ⟨h1, h2, h3⟩ := h.lead w g hl
        simp only [hl, List.mem_append] at hc
        rcases hc with hc | hc
        · exact word_brace (word_of_lower h1 (fun c hc => (in_words c hc).1) c hc)
        · exact filler_brace h3 c hc
    · exact hi _ (h.items p.first (by simp [Phrase.items])) c hc
    · exact filler_brace (h.more x hx).2 c hc
    · exact hi _ (h.items x.2 (by unfold Phrase.items; simp; right; exact ⟨x.1, hx⟩)) c hc
    · unfold agoText at hc
      cases hl : p.ago with
      | none => simp [hl] at hc
      | some gw =>
        obtain ⟨g, w⟩ := gw
        obtain ⟨h1, h2, h3⟩ := h.ago g w hl
        simp only [hl, List.mem_append] at hc
        rcases hc with hc | hc
        · exact filler_brace h3 c hc
        · exact word_brace (word_of_lower h1 (fun c hc => (ago_words c hc).1) c hc)
    · exact ht.braces c hc
  unfold isBrace at key
  rw [key]; rfl

end Verif.Lemmas
