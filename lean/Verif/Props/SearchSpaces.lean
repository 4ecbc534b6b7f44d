import Verif.Model.Language
/-! # C32: the white space in the texts a search finds -/
set_option autoImplicit false
namespace Verif.Props
open Verif.Go Verif.Model

/-- No white space beside other white space. -/
def SingleSpaced (t : List Char) : Prop :=
  ∀ (a b : List Char) (c d : Char), t = a ++ c :: d :: b → ¬ (c ∈ [' ', '\t', '\n', '\x0c', '\r'] ∧ d ∈ [' ', '\t', '\n', '\x0c', '\r'])

theorem rxSpace_iff (c : Char) : isRxSpace c = true ↔ c ∈ [' ', '\t', '\n', '\x0c', '\r'] := by
  unfold isRxSpace
  simp only [Bool.or_eq_true, beq_iff_eq, List.mem_cons, List.not_mem_nil, or_false, or_assoc]

theorem single_cons {c : Char} {t : List Char} (hc : isRxSpace c = false) (h : SingleSpaced t) : SingleSpaced (c :: t) := by
  intro a b x y e
  cases a with
  | nil =>
    simp only [List.nil_append, List.cons.injEq] at e
    rintro ⟨h1, _⟩
    rw [← e.1, ← rxSpace_iff, hc] at h1
    cases h1
  | cons z a =>
    simp only [List.cons_append, List.cons.injEq] at e
    exact h a b x y e.2

theorem single_before {p c : Char} {t : List Char} (hc : isRxSpace c = false) (h : SingleSpaced (c :: t)) : SingleSpaced (p :: c :: t) := by
  intro a b x y e
  cases a with
  | nil =>
    simp only [List.nil_append, List.cons.injEq] at e
    rintro ⟨_, h1⟩
    rw [← e.2.1, ← rxSpace_iff, hc] at h1
    cases h1
  | cons z a =>
    simp only [List.cons_append, List.cons.injEq] at e
    exact h a b x y e.2

theorem single_short {t : List Char} (h : t.length ≤ 1) : SingleSpaced t := by
  intro a b c d e
  rw [e] at h
  simp only [List.length_append, List.length_cons] at h
  omega

theorem run_short (run : List Char) : (if run.length ≥ 2 then [' '] else run.reverse).length ≤ 1 := by
  split
  · simp
  · rw [List.length_reverse]; omega

theorem collapse_single : ∀ (s run : List Char), SingleSpaced (collapseLoop run s)
  | [], run => by
    unfold collapseLoop
    exact single_short (run_short run)
  | c :: s, run => by
    unfold collapseLoop
    cases hc : isRxSpace c with
    | true => exact collapse_single s (c :: run)
    | false =>
      rw [if_neg (by simp)]
      have h := single_cons hc (collapse_single s [])
      have hl := run_short run
      generalize (if run.length ≥ 2 then [' '] else run.reverse) = r at hl ⊢
      match r, hl with
      | [], _ => exact h
      | [p], _ => exact single_before hc h

/-- **C32** In a language with spaces between words, the chunks of a text that a search tries to read, as in the text and as
translated, have no two spaces (or other white space) beside each other. -/
theorem C32_single_spaces (U : Uni) (L : Lang) (isTz : List Char → Bool) (skip : List (List Char)) (str : List Char) (translated original : List (List Char))
    (hL : L.noWordSpacing = false) (h : translateSearch U L isTz skip str = some (translated, original)) :
    ∀ t ∈ translated ++ original, SingleSpaced t := by
  have hj : ∀ c, SingleSpaced (joinChunk L c) := by
    intro c
    unfold joinChunk collapseSpaces
    rw [if_neg (by simp [hL])]
    exact collapse_single _ _
  unfold translateSearch at h
  simp only [Option.bind_eq_bind, Option.bind_eq_some_iff, Option.pure_def, Option.some.injEq, Prod.mk.injEq] at h
  obtain ⟨_, _, _, _, rfl, rfl⟩ := h
  intro t ht
  rw [List.mem_append, List.mem_map, List.mem_map] at ht
  rcases ht with ⟨c, _, rfl⟩ | ⟨c, _, rfl⟩ <;> exact hj _

/-- A text with two spaces is not of that kind. -/
example : ¬ SingleSpaced "a  b".toList ∧ collapseSpaces "a  b".toList = "a b".toList := by
  refine ⟨fun h => h ['a'] ['b'] ' ' ' ' rfl ⟨by decide, by decide⟩, by decide⟩

end Verif.Props
