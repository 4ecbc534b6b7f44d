import Verif.Props.SearchText
import Verif.Lemmas.Runs
import Verif.Spec.SearchEnglish
/-! # Cutting a text into its sentences -/
set_option autoImplicit false
namespace Verif.Lemmas
open Verif.Go Verif.Model Verif.Spec

/-- Greedy repetition of one character class: the whole run, then all but the last character. -/
theorem starRun_back (q : Char → Bool) : ∀ (ds : List Char) (n : Nat) (p : Option Char) (e : Char) (rest : List Char) (c : List (Nat × List Char)),
    ds.length + 1 ≤ n → (∀ x ∈ ds, q x = true) → q e = true → (∀ x, rest.head? = some x → q x = false) →
    ∃ l, starRun (Rx.chr q).run n ⟨p, ds ++ e :: rest, c⟩ = ⟨some e, rest, c⟩ :: ⟨lastOr p ds, e :: rest, c⟩ :: l := by
  intro ds
  induction ds with
  | nil =>
    intro n p e rest c hn _ he hr
    cases n with
    | zero => simp at hn
    | succ n =>
      have h1 : (Rx.chr q).run ⟨p, e :: rest, c⟩ = [⟨some e, rest, c⟩] := by simp [Rx.run, he]
      have h2 : starRun (Rx.chr q).run n ⟨some e, rest, c⟩ = [⟨some e, rest, c⟩] := by
        cases n with
        | zero => rfl
        | succ n =>
          have : (Rx.chr q).run ⟨some e, rest, c⟩ = [] := Rx.Fails.chr hr
          simp [starRun, this]
      exact ⟨[], by simp [starRun, h1, h2, lastOr_nil]⟩
  | cons d ds ih =>
    intro n p e rest c hn hd he hr
    cases n with
    | zero => simp at hn
    | succ n =>
      have h1 : (Rx.chr q).run ⟨p, d :: (ds ++ e :: rest), c⟩ = [⟨some d, ds ++ e :: rest, c⟩] := by
        simp [Rx.run, hd d (by simp)]
      obtain ⟨l, hl⟩ := ih n (some d) e rest c (by simpa using hn) (fun x hx => hd x (by simp [hx])) he hr
      refine ⟨l ++ [⟨p, d :: (ds ++ e :: rest), c⟩], ?_⟩
      simp [starRun, h1, hl, lastOr_cons]

/-- The gap after a sentence. -/
theorem gap_first {p : Option Char} {g r : List Char} {c : List (Nat × List Char)} (hg : g = [' '] ∨ (g = [] ∧ r = [])) (hr : ∀ x, r.head? = some x → isRxSpace x = false) :
    (Rx.star rxGap).First ⟨p, g ++ r, c⟩ ⟨lastOr p g, r, c⟩ := by
  have stop : ∀ (n : Nat) (p : Option Char), starRun rxGap.run n ⟨p, r, c⟩ = [⟨p, r, c⟩] := by
    intro n p
    cases n with
    | zero => rfl
    | succ n =>
      have : rxGap.run ⟨p, r, c⟩ = [] ∨ (rxGap.run ⟨p, r, c⟩ = [⟨p, r, c⟩]) := by
        unfold rxGap
        have h1 : (Rx.space).run ⟨p, r, c⟩ = [] := Rx.Fails.chr hr
        simp only [Rx.run]
        rw [h1]
        split
        · exact Or.inr rfl
        · exact Or.inl rfl
      rcases this with h | h <;> simp [starRun, h]
  rcases hg with rfl | ⟨rfl, rfl⟩
  · have h1 : ∃ l, rxGap.run ⟨p, ' ' :: r, c⟩ = [⟨some ' ', r, c⟩] ++ l ∧ l = [] := by
      refine ⟨[], ?_, rfl⟩
      simp [rxGap, Rx.run, Rx.space, isRxSpace]
    obtain ⟨l, h1, rfl⟩ := h1
    unfold Rx.First
    simp only [Rx.run, List.singleton_append, List.length_cons, starRun]
    rw [h1]
    simp [stop, lastOr]
  · unfold Rx.First
    exact ⟨[], by simp [Rx.run, starRun, lastOr]⟩

theorem stop_term {e : Char} (h : e ∈ sentenceEnds) : e ∈ terminators 1 ∧ isRxSpace e = false := by
  simp only [sentenceEnds, List.mem_cons, List.not_mem_nil, or_false] at h
  rcases h with rfl | rfl | rfl | rfl <;> decide

/-- A word with the character that ends the sentence is a match. -/
theorem sentence_first {w g r : List Char} {e : Char} {p : Option Char} (he : e ∈ sentenceEnds) (hw : ∀ c ∈ w, isRxSpace c = false ∧ c ∉ terminators 1)
    (hg : g = [' '] ∨ (g = [] ∧ r = [])) (hr : ∀ x, r.head? = some x → isRxSpace x = false) :
    (sentenceRx 1).First ⟨p, w ++ e :: (g ++ r), []⟩ ⟨lastOr (some e) g, r, [(1, w)]⟩ := by
  have hgr : ∀ x, (g ++ r).head? = some x → isRxSpace x = true ∧ x ∉ terminators 1 := by
    intro x hx
    rcases hg with rfl | ⟨rfl, rfl⟩
    · simp at hx; subst hx; exact ⟨by decide, by decide⟩
    · simp at hx
  have hterm : (rxTerm ['.', '!', '?', ';', '…', '\r', '\n']).First ⟨lastOr p w, e :: (g ++ r), [(1, w)]⟩ ⟨some e, g ++ r, [(1, w)]⟩ := by
    have := First.plus_chr (q := ['.', '!', '?', ';', '…', '\r', '\n'].contains) (ds := [e]) (rest := g ++ r) (p := lastOr p w) (c := [(1, w)]) (by simp)
      (by intro x hx; simp at hx; subst hx; have := (stop_term he).1; simpa [terminators] using this)
      (by intro x hx; have := (hgr x hx).2; simpa [terminators] using this)
    simpa [lastOr, rxTerm] using this
  have htail : (Rx.seq (rxTerm ['.', '!', '?', ';', '…', '\r', '\n']) (Rx.seq (.star rxGap) .eps)).First ⟨lastOr p w, e :: (g ++ r), [(1, w)]⟩
      ⟨lastOr (some e) g, r, [(1, w)]⟩ := hterm.seq ((gap_first hg hr).seq (Rx.First.eps _))
  have hq : ∀ c ∈ w, (!isRxSpace c && c != '.') = true := by
    intro c hc
    have h := hw c hc
    have : c ≠ '.' := by rintro rfl; exact h.2 (by decide)
    simp [h.1, this]
  have hcap : (w ++ e :: (g ++ r)).take ((w ++ e :: (g ++ r)).length - (e :: (g ++ r)).length) = w := by simp
  show (Rx.seq rxEndWord (Rx.seq (rxTerm ['.', '!', '?', ';', '…', '\r', '\n']) (Rx.seq (.star rxGap) .eps))).First _ _
  by_cases hd : e = '.'
  · have h1 : rxEndWord.First ⟨p, w ++ e :: (g ++ r), []⟩ ⟨lastOr p w, e :: (g ++ r), [(1, w)]⟩ := by
      have := Rx.First.grp (n := 1) (First.star_chr (q := fun c => !isRxSpace c && c != '.') (ds := w) (rest := e :: (g ++ r)) (p := p) (c := []) hq
        (by intro x hx; simp at hx; subst hx; simp [hd]))
      dsimp only at this
      rw [hcap] at this
      exact this
    exact h1.seq htail
  · obtain ⟨l, hl⟩ := starRun_back (fun c => !isRxSpace c && c != '.') w (w ++ e :: (g ++ r)).length p e (g ++ r) [] (by simp) hq
      (by simp [(stop_term he).2, hd]) (by intro x hx; simp [(hgr x hx).1])
    obtain ⟨l2, h2⟩ := htail
    have h3 : (Rx.seq (rxTerm ['.', '!', '?', ';', '…', '\r', '\n']) (Rx.seq (.star rxGap) .eps)).run
        ⟨some e, g ++ r, [(1, (w ++ e :: (g ++ r)).take ((w ++ e :: (g ++ r)).length - (g ++ r).length))]⟩ = [] := by
      refine Rx.Fails.seq_left (Rx.Fails.seq_left (Rx.Fails.chr ?_))
      intro x hx
      have := (hgr x hx).2
      simpa [terminators] using this
    unfold Rx.First
    rw [Rx.run]
    unfold rxEndWord
    rw [Rx.run, Rx.run]
    rw [hl]
    simp only [List.map_cons, List.flatMap_cons, hcap]
    rw [h3, h2]
    exact ⟨_, rfl⟩

/-- The last word of a text. -/
theorem last_word (s : List Char) : ∃ pre w, s = pre ++ w ∧ (∀ c ∈ w, isRxSpace c = false) ∧ ∀ c, pre.getLast? = some c → isRxSpace c = true := by
  refine ⟨(s.reverse.dropWhile fun c => !isRxSpace c).reverse, (s.reverse.takeWhile fun c => !isRxSpace c).reverse, ?_, ?_, ?_⟩
  · rw [← List.reverse_append, List.takeWhile_append_dropWhile, List.reverse_reverse]
  · intro c hc
    have := mem_takeWhile_true (List.mem_reverse.mp hc)
    simpa using this
  · intro c hc
    rw [List.getLast?_reverse] at hc
    have := List.head?_dropWhile_not (fun c => !isRxSpace c) s.reverse
    rw [hc] at this
    simpa using this

/-- The end of a sentence is found. -/
theorem sentence_find {s g r : List Char} {e : Char} {p : Option Char} (he : e ∈ sentenceEnds) (hs : ∀ c ∈ s, c ∉ terminators 1)
    (hg : g = [' '] ∨ (g = [] ∧ r = [])) (hr : ∀ x, r.head? = some x → isRxSpace x = false) :
    ∃ pre w, s = pre ++ w ∧ (sentenceRx 1).find p (s ++ e :: (g ++ r)) = some ⟨pre, w ++ e :: g, ⟨lastOr (some e) g, r, [(1, w)]⟩⟩ := by
  obtain ⟨pre, w, rfl, hw, hpre⟩ := last_word s
  refine ⟨pre, w, rfl, ?_⟩
  have hw' : ∀ c ∈ w, isRxSpace c = false ∧ c ∉ terminators 1 := fun c hc => ⟨hw c hc, hs c (by simp [hc])⟩
  rw [List.append_assoc, find_skip pre _ p, find_here (sentence_first he hw' hg hr)]
  · have : (w ++ e :: (g ++ r)).take ((w ++ e :: (g ++ r)).length - r.length) = w ++ e :: g := by
      rw [show w ++ e :: (g ++ r) = (w ++ e :: g) ++ r by simp, List.length_append, Nat.add_sub_cancel, List.take_left']
      rfl
    simp only [Option.map_some, List.append_nil, this]
  · intro a b hab hb
    obtain ⟨b', z, rfl⟩ : ∃ b' z, b = b' ++ [z] := ⟨b.dropLast, b.getLast hb, (List.dropLast_concat_getLast hb).symm⟩
    have hz : isRxSpace z = true := hpre z (by rw [hab]; simp)
    have hmem : ∀ c ∈ b' ++ [z], c ∉ terminators 1 := by intro c hc; exact hs c (by rw [hab]; simp at hc ⊢; exact Or.inr (hc.elim Or.inl fun h => Or.inr (Or.inl h)))
    rw [List.append_assoc]
    refine Props.endWord_fails (terms := terminators 1) _ (x := b') (y := [z] ++ (w ++ e :: (g ++ r))) (fun c hc => hmem c (by simp [hc])) ?_ _ rfl
    intro c hc
    simp at hc; subst hc
    exact ⟨hz, hmem z (by simp)⟩

theorem sentence_none {s : List Char} {p : Option Char} (hs : ∀ c ∈ s, c ∉ terminators 1) : (sentenceRx 1).find p s = none := by
  refine find_none s p ?_
  intro a b e
  have := Props.endWord_fails (terms := terminators 1) (sentenceRx 1) (p := lastOr p a) (x := b) (y := []) (fun c hc => hs c (by rw [e]; simp [hc])) (by simp) _ rfl
  simpa using this

/-- A sentence as it stands in a text: not empty, trimmed, without the characters that end sentences. -/
structure Closed (s : List Char) : Prop where
  stops : ∀ c ∈ s, c ∉ terminators 1
  trimmed : trimSpace s = s
  head : ∀ x, s.head? = some x → isRxSpace x = false

/-- A language in which every such character ends a sentence. -/
structure NoAbbreviations (L : Lang) : Prop where
  group : (if L.splitterGroup < 1 ∨ L.splitterGroup > 6 then 1 else L.splitterGroup) = 1
  none : L.abbreviations = []
  digits : langWithDigitAbbrs.contains L.name = false

/-- The sentences of a text, each with a space behind it. -/
def textOf (closed : List (List Char × Char)) (last stop : List Char) : List Char :=
  closed.flatMap (fun s => s.1 ++ [s.2, ' ']) ++ (last ++ stop)

theorem sentences_text (U : Uni) {L : Lang} (hL : NoAbbreviations L) {last stop : List Char} (hlast : Closed last)
    (hstop : stop = [] ∨ (last ≠ [] ∧ ∃ e ∈ sentenceEnds, stop = [e])) : ∀ (closed : List (List Char × Char)) (n : Nat) (p : Option Char),
    (∀ s ∈ closed, Closed s.1 ∧ s.1 ≠ [] ∧ s.2 ∈ sentenceEnds) → (textOf closed last stop).length < n →
    sentenceLoop U L [] ((sentenceRx 1).findAllFuel n p (textOf closed last stop)).1 ((sentenceRx 1).findAllFuel n p (textOf closed last stop)).2 =
      some (closed.map (·.1) ++ if last.isEmpty then [] else [last]) := by
  have step : ∀ (s e g r p) (n : Nat), e ∈ sentenceEnds → Closed s → s ≠ [] → (g = [' '] ∨ (g = [] ∧ r = [])) → (∀ x, r.head? = some x → isRxSpace x = false) →
      ∃ q, sentenceLoop U L [] ((sentenceRx 1).findAllFuel (n + 1) p (s ++ e :: (g ++ r))).1 ((sentenceRx 1).findAllFuel (n + 1) p (s ++ e :: (g ++ r))).2 =
        (sentenceLoop U L [] ((sentenceRx 1).findAllFuel n q r).1 ((sentenceRx 1).findAllFuel n q r).2).map (s :: ·) := by
    intro s e g r p n he hs hne hg hr
    obtain ⟨pre, w, e1, hf⟩ := sentence_find (p := p) he hs.stops hg hr
    refine ⟨lastOr (some e) g, ?_⟩
    rw [findAllFuel_step hf (by simp)]
    dsimp only
    rw [sentenceLoop]
    simp only [List.find?_cons_of_pos, BEq.rfl, Option.map_some, hL.none, hL.digits, Bool.false_and, Bool.or_false, List.nil_append, ← e1, hs.trimmed]
    rw [if_neg (by simp)]
    have : s.isEmpty = false := by simpa using hne
    simp [this]
  intro closed
  induction closed with
  | nil =>
    intro n p _ hn
    simp only [textOf, List.flatMap_nil, List.nil_append, List.map_nil]
    rcases hstop with rfl | ⟨hne, e, he, rfl⟩
    · rw [List.append_nil, findAllFuel_none (sentence_none hlast.stops)]
      dsimp only
      rw [sentenceLoop, List.nil_append, hlast.trimmed]
    · obtain ⟨n, rfl⟩ : ∃ k, n = k + 1 := ⟨n - 1, by simp [textOf] at hn; omega⟩
      obtain ⟨q, hq⟩ := step last e [] [] p n he hlast hne (Or.inr ⟨rfl, rfl⟩) (by simp)
      rw [show last ++ [e] = last ++ e :: ([] ++ []) by simp, hq, findAllFuel_none (sentence_none (by simp))]
      have : last.isEmpty = false := by simpa using hne
      simp [sentenceLoop, this, trimSpace]
  | cons s closed ih =>
    intro n p hc hn
    obtain ⟨hs, hne, he⟩ := hc s (by simp)
    obtain ⟨n, rfl⟩ : ∃ k, n = k + 1 := ⟨n - 1, by omega⟩
    have htext : textOf (s :: closed) last stop = s.1 ++ s.2 :: ([' '] ++ textOf closed last stop) := by simp [textOf]
    have hhead : ∀ x, (textOf closed last stop).head? = some x → isRxSpace x = false := by
      intro x hx
      cases closed with
      | nil =>
        simp only [textOf, List.flatMap_nil, List.nil_append] at hx
        cases hl : last with
        | nil =>
          rcases hstop with rfl | ⟨hne, _⟩
          · simp [hl] at hx
          · exact absurd hl hne
        | cons a b => rw [hl] at hx; simp at hx; subst hx; exact hlast.head a (by rw [hl]; rfl)
      | cons t closed =>
        obtain ⟨ht, hte, _⟩ := hc t (by simp)
        cases hl : t.1 with
        | nil => exact absurd hl hte
        | cons a b => simp [textOf, hl] at hx; subst hx; exact ht.head a (by rw [hl]; rfl)
    rw [htext]
    obtain ⟨q, hq⟩ := step s.1 s.2 [' '] (textOf closed last stop) p n he hs hne (Or.inl rfl) hhead
    rw [hq, ih n q (fun t ht => hc t (by simp [ht])) (by rw [htext] at hn; simp at hn ⊢; omega)]
    simp

/-- The sentences of a text. -/
theorem split_text (U : Uni) {L : Lang} (hL : NoAbbreviations L) {closed : List (List Char × Char)} {last stop : List Char} (hlast : Closed last)
    (hstop : stop = [] ∨ (last ≠ [] ∧ ∃ e ∈ sentenceEnds, stop = [e])) (hc : ∀ s ∈ closed, Closed s.1 ∧ s.1 ≠ [] ∧ s.2 ∈ sentenceEnds) :
    splitSentence U L (textOf closed last stop) = some (closed.map (·.1) ++ if last.isEmpty then [] else [last]) := by
  unfold splitSentence
  dsimp only
  rw [hL.group]
  exact sentences_text U hL hlast hstop closed _ none hc (by omega)

end Verif.Lemmas
