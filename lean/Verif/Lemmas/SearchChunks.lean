import Verif.Lemmas.SearchSentences
/-! # The chunks of a sentence of known tokens -/
set_option autoImplicit false
namespace Verif.Lemmas
open Verif.Go Verif.Model Verif.Spec

/-- A token: as written, simplified, and translated if it is part of a chunk. -/
structure SearchTok where
  o : List Char
  w : List Char
  t : Option (List Char)

/-- The word is not joined with the next. -/
structure Alone (L : Lang) (w next : List Char) : Prop where
  word : w ≠ []
  space : w ≠ [' ']
  joined : L.inDictionary (joinChunk L [w, next]) = false

/-- The word becomes part of a chunk. -/
def Kept (L : Lang) (w t : List Char) : Prop :=
  (L.translateWord w = some [t] ∧ isDash w = false) ∨
  (L.inDictionary w = false ∧ L.inDictionary (trimChars w searchPunct) = false ∧ digitsOk L w = true ∧ t = w)

/-- The word is dropped. -/
structure Drops (L : Lang) (w : List Char) : Prop where
  dict : L.inDictionary w = false
  cleaned : L.inDictionary (trimChars w searchPunct) = false
  digits : digitsOk L w = false

/-- Each token does what it is said to; `b`: a chunk is open. -/
def TokChain (L : Lang) (isTz : List Char → Bool) : List SearchTok → Bool → Prop
  | [], _ => True
  | a :: r, b => Alone L a.w ((r.map (·.w)).headD []) ∧
    match a.t with
    | some t => Kept L a.w t ∧ TokChain L isTz r true
    | none => Drops L a.w ∧ (b = true → isTz a.o = false) ∧ TokChain L isTz r false

/-- A chunk, if not empty. -/
def flushed (acc : List (List Char × List Char)) : List (List (List Char) × List (List Char)) :=
  if acc.isEmpty then [] else [(acc.map (·.1), acc.map (·.2))]

/-- The chunks of the tokens; `acc` is open. -/
def chunksOf : List SearchTok → List (List Char × List Char) → List (List (List Char) × List (List Char))
  | [], acc => flushed acc
  | a :: r, acc =>
    match a.t with
    | some t => chunksOf r (acc ++ [(a.o, t)])
    | none => flushed acc ++ chunksOf r []

theorem flush_single (oc tc : List (List Char)) : flushChunk oc (tc.map fun t => [t]) = some [(oc, tc)] := by
  unfold flushChunk
  rw [Props.C31_all_combinations _ (by simp)]
  have : combinations (tc.map fun t => [t]) = [tc] := by
    induction tc with
    | nil => rfl
    | cons a r ih => simp [combinations, ih]
  simp [this]

theorem chunkLoop_chain {L : Lang} (isTz : List Char → Bool) : ∀ (ts : List SearchTok) (acc : List (List Char × List Char)),
    TokChain L isTz ts (!acc.isEmpty) →
    chunkLoop L isTz (ts.map (·.o)) (ts.map (·.w)) false (acc.map (·.1)) ((acc.map (·.2)).map fun t => [t]) = some (chunksOf ts acc) := by
  intro ts
  induction ts with
  | nil =>
    intro acc _
    unfold chunkLoop chunksOf flushed
    cases acc with
    | nil => rfl
    | cons x r =>
      simp only [List.map_nil, List.isEmpty_cons, Bool.false_eq_true, if_false]
      rw [← flush_single]
      rfl
  | cons a r ih =>
    intro acc h
    unfold TokChain at h
    obtain ⟨ha, h⟩ := h
    have h1 : (a.w.isEmpty || a.w == [' ']) = false := by
      have := ha.word
      have := ha.space
      simp [*]
    rw [List.map_cons, List.map_cons]
    unfold chunkLoop chunksOf
    simp only [Bool.false_eq_true, if_false, h1, ha.joined, Bool.false_and, List.tail_cons, List.getElem?_cons_zero, Option.bind_eq_bind, Option.bind_some]
    cases ht : a.t with
    | some t =>
      rw [ht] at h
      obtain ⟨hk, h⟩ := h
      have key : ∀ tr : List (List Char), tr = [t] →
          chunkLoop L isTz (r.map (·.o)) (r.map (·.w)) false (acc.map (·.1) ++ [a.o]) (((acc.map (·.2)).map fun t => [t]) ++ [tr]) = some (chunksOf r (acc ++ [(a.o, t)])) := by
        intro tr htr
        subst htr
        have := ih (acc ++ [(a.o, t)]) (by cases acc <;> exact h)
        simpa using this
      dsimp only
      rcases hk with ⟨h2, h3⟩ | ⟨h2, h3, h4, h5⟩
      · have h4 : L.inDictionary a.w = true := by simp [Lang.inDictionary, h2]
        simp only [h4, h3, Bool.not_false, Bool.and_self, if_true]
        exact key _ (by simp [h2])
      · simp only [h2, h3, h4, Bool.false_and, Bool.false_eq_true, if_false, if_true]
        exact key _ (by rw [h5])
    | none =>
      rw [ht] at h
      obtain ⟨hk, h2, h⟩ := h
      simp only [hk.dict, hk.cleaned, hk.digits, Bool.false_and, Bool.false_eq_true, if_false]
      have h3 := ih [] (by simpa using h)
      cases acc with
      | nil => simpa [flushed] using h3
      | cons x acc =>
        rw [if_neg (by simp), h2 (by simp)]
        simp only [Bool.false_eq_true, if_false]
        rw [flush_single]
        simp only [Option.bind_some]
        simp only [List.map_nil] at h3
        rw [h3]
        simp [flushed]

end Verif.Lemmas
