import Verif.Lemmas.CalStages
/-! Helper lemmas: the text of a Jalali date with words, before and after the stages of the parser. -/
set_option autoImplicit false
namespace Verif.Lemmas
open Verif.Go Verif.Model Verif.Spec Verif.Props Verif.Data

/-! ## Spaces in front -/

theorem subst_head {r : Rx} (f : List Char → List (Nat × List Char) → List Char) {c : Char} {s : List Char} (h : r.Fails ⟨none, c :: s, []⟩) :
    ∃ z, subst r f (c :: s) = c :: z := by
  unfold subst substFuel Rx.findAllFuel
  have e : r.find none (c :: s) = (r.find (some c) s).map fun m => { m with before := c :: m.before } := by
    conv => lhs; unfold Rx.find
    rw [show r.run ⟨none, c :: s, []⟩ = [] from h]
  rw [e]
  cases r.find (some c) s with
  | none => exact ⟨s, rfl⟩
  | some m =>
    simp only [Option.map_some]
    split
    · exact ⟨s, rfl⟩
    · exact ⟨_, rfl⟩

theorem skip_fails {c : Char} (hc : c = ' ' ∨ c.isDigit = true) (p : Option Char) (s : List Char) : rxSanitizeSkip.Fails ⟨p, c :: s, []⟩ := by
  have hn : ∀ n : Nat, n = c.toNat → n ≠ 9 ∧ n ≠ 10 ∧ n ≠ 13 ∧ n ≠ 0xbb ∧ n ≠ 44 ∧ n ≠ 0x200e ∧ n ≠ 0xb7 ∧ n ≠ 0x200f ∧ n ≠ 0x64e ∧ n ≠ 0x64f := by
    rintro _ rfl
    rcases hc with rfl | hc
    · decide
    · have := digit_range hc; omega
  have hn := hn _ rfl
  have ne : ∀ x : Char, c.toNat ≠ x.toNat → c ≠ x := by rintro x h rfl; exact h rfl
  have h1 := ne '\t' hn.1
  have h2 := ne '\n' hn.2.1
  have h3 := ne '\r' hn.2.2.1
  have h4 := ne '\u00bb' hn.2.2.2.1
  have h5 := ne ',' hn.2.2.2.2.1
  have h6 := ne '\u200e' hn.2.2.2.2.2.1
  have h7 := ne '\u00b7' hn.2.2.2.2.2.2.1
  have h8 := ne '\u200f' hn.2.2.2.2.2.2.2.1
  have h9 := ne '\u064e' hn.2.2.2.2.2.2.2.2.1
  have h10 := ne '\u064f' hn.2.2.2.2.2.2.2.2.2
  unfold Rx.Fails
  simp [rxSanitizeSkip, Rx.run, Rx.seqs, h1, h2, h3, h4, h5, h6, h7, h8, h9, h10]

theorem russian_fails {U : Uni} {d : Char} (hd : d = ' ' ∨ d.isDigit = true) (p : Option Char) (c : Char) (s : List Char) : (rxSanitizeRussian U).Fails ⟨p, c :: d :: s, []⟩ := by
  have h1 : d ≠ 'г' := by rintro rfl; revert hd; decide
  have h2 : d ≠ 'Г' := by rintro rfl; revert hd; decide
  unfold Rx.Fails
  simp only [rxSanitizeRussian, Rx.run, Rx.seqs]
  split <;> simp [h1, h2]

theorem croatian_fails {U : Uni} (hU : AsciiUni U) (p : Option Char) (s : List Char) : (rxSanitizeCroatian U).Fails ⟨p, ' ' :: s, []⟩ := by
  have : U.isNumber ' ' = false := hU.isNumber ' ' (by decide)
  unfold Rx.Fails
  simp [rxSanitizeCroatian, Rx.run, Rx.seqs, Rx.plus, this]

theorem spaces_split {S a b : List Char} (hS : ∀ c ∈ S, c = ' ') (e : S = a ++ b) (hb : b ≠ []) : ∃ b', b = ' ' :: b' ∧ ∀ c ∈ b', c = ' ' := by
  cases b with
  | nil => exact absurd rfl hb
  | cons c b' =>
    have hm : ∀ x ∈ c :: b', x = ' ' := fun x hx => hS x (by rw [e]; exact List.mem_append_right _ hx)
    exact ⟨b', by rw [hm c (by simp)], fun x hx => hm x (by simp [hx])⟩

theorem sanitize_spaces {U : Uni} (hU : AsciiUni U) {S s : List Char} {c : Char} (hS : ∀ c ∈ S, c = ' ') (hc : c.isDigit = true) :
    sanitizeDate U (S ++ c :: s) = sanitizeDate U (c :: s) := by
  have h1 : replaceAllTmpl rxSanitizeSkip [.lit [' ']] (S ++ c :: s) = S ++ replaceAllTmpl rxSanitizeSkip [.lit [' ']] (c :: s) := by
    simp only [replaceAll_subst]
    refine subst_prefix (w := true) (by decide) _ S _ ?_ ?_
    · intro p a b e hb
      obtain ⟨b', rfl, _⟩ := spaces_split hS e hb
      exact skip_fails (Or.inl rfl) _ _
    · intro _
      cases hl : S.getLast? with
      | none => rfl
      | some x =>
        have := hS x (List.mem_of_getLast? hl)
        subst this
        decide
  obtain ⟨z, hz⟩ : ∃ z, replaceAllTmpl rxSanitizeSkip [.lit [' ']] (c :: s) = c :: z := by
    simp only [replaceAll_subst]
    exact subst_head _ (skip_fails (Or.inr hc) _ _)
  have h2 : ∀ z, replaceAllTmpl (rxSanitizeRussian U) [.ref 1, .lit [' ']] (S ++ c :: z) = S ++ replaceAllTmpl (rxSanitizeRussian U) [.ref 1, .lit [' ']] (c :: z) := by
    intro z
    simp only [replaceAll_subst]
    refine subst_prefix (w := false) rfl _ S _ ?_ (by simp)
    intro p a b e hb
    obtain ⟨b', rfl, hb'⟩ := spaces_split hS e hb
    cases b' with
    | nil => exact russian_fails (Or.inr hc) _ _ _
    | cons x b' => exact russian_fails (Or.inl (hb' x (by simp))) _ _ _
  have h3 : ∀ z, replaceAllTmpl (rxSanitizeCroatian U) [.ref 1, .lit ['.'], .ref 2, .lit ['.'], .ref 3, .lit [' ']] (S ++ z) =
      S ++ replaceAllTmpl (rxSanitizeCroatian U) [.ref 1, .lit ['.'], .ref 2, .lit ['.'], .ref 3, .lit [' ']] z := by
    intro z
    simp only [replaceAll_subst]
    refine subst_prefix (w := false) rfl _ S _ ?_ (by simp)
    intro p a b e hb
    obtain ⟨b', rfl, hb'⟩ := spaces_split hS e hb
    exact croatian_fails hU _ _
  have h4 : ∀ z, sanitizeSpaces (S ++ z) = sanitizeSpaces z := by
    intro z
    unfold sanitizeSpaces
    rw [List.filter_append, fields_dropSpaces]
    intro x hx
    rw [hS x (List.mem_filter.mp hx).1]
    decide
  unfold sanitizeDate
  dsimp only
  rw [h1, hz, h2, h3, h4]

end Verif.Lemmas
