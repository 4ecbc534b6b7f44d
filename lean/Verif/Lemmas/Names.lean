import Verif.Lemmas.Steps
/-! Helper lemmas: month and weekday names in any letter case. -/
set_option autoImplicit false
namespace Verif.Lemmas
open Verif.Go Verif.Model Verif.Spec

theorem toLowerC_idem (c : Char) : toLowerC (toLowerC c) = toLowerC c := by
  by_cases h : 'A' ≤ c ∧ c ≤ 'Z'
  · have h1 : 65 ≤ c.toNat := h.1
    have h2 : c.toNat ≤ 90 := h.2
    have key : ∀ n : Nat, 65 ≤ n → n ≤ 90 → toLowerC (toLowerC (Char.ofNat n)) = toLowerC (Char.ofNat n) := by
      have : ∀ k : Fin 26, toLowerC (toLowerC (Char.ofNat (65 + k.val))) = toLowerC (Char.ofNat (65 + k.val)) := by
        decide
      intro n a b
      have := this ⟨n - 65, by omega⟩
      rwa [show 65 + (n - 65) = n by omega] at this
    have := key c.toNat h1 h2
    rwa [Char.ofNat_toNat] at this
  · have : toLowerC c = c := by unfold toLowerC; rw [if_neg h]
    rw [this, this]

theorem toLower_idem (s : List Char) : toLower (toLower s) = toLower s := by
  unfold toLower
  rw [List.map_map]
  exact List.map_congr_left fun c _ => toLowerC_idem c

theorem partValue_lower (c : Comp) (t : List Char) (d : Dir) :
    gregPartValue c t d = gregPartValue c (toLower t) d := by
  unfold gregPartValue
  rw [toLower_idem]

theorem toLowerC_letter {c : Char} (h : isLetterTok (toLowerC c) = true) : isLetterTok c = true := by
  unfold toLowerC at h
  split at h
  · rename_i hc
    unfold isLetterTok
    simp [hc.1, hc.2]
  · exact h

theorem classOf_letter {c : Char} (h : isLetterTok c = true) : classOf c = .letter := by
  unfold classOf
  have := not_digit_and_letter c
  rw [if_neg (fun hd => this ⟨hd, h⟩), if_pos h]

/-- Text whose lower case is ASCII letters is ASCII letters. -/
theorem lower_run {t n : List Char} (h : toLower t = n) (hn : n.all isLetterTok = true) :
    Run .letter t := by
  intro c hc
  apply classOf_letter
  apply toLowerC_letter
  rw [List.all_eq_true] at hn
  exact hn _ (by rw [← h]; exact List.mem_map_of_mem hc)

theorem findMeridian_lower (t : List Char) : findMeridian t = [] ↔ findMeridian (toLower t) = [] := by
  induction t with
  | nil => simp [toLower]
  | cons a r ih =>
    cases r with
    | nil => simp [toLower, findMeridian]
    | cons b r =>
      simp only [toLower, List.map_cons, findMeridian, toLowerC_idem]
      simp only [toLower, List.map_cons] at ih
      split
      · simp
      · exact ih

theorem letter_no_colon {t : List Char} (h : Run .letter t) : t.contains ':' = false := by
  rw [← Bool.not_eq_true, List.contains_iff_mem]
  intro hm
  exact absurd (h _ hm) (by decide)

theorem isHourMinute_spec {l : List Char} (h : isHourMinute l = true) :
    (l.length = 4 ∨ l.length = 5) ∧ ∀ c ∈ l, classOf c = .digit := by
  have dg : ∀ c : Char, c.isDigit = true → classOf c = .digit := fun c h => digit_class h
  have col : classOf ':' = .digit := by decide
  have five : ∀ c : Char, ('0' ≤ c ∧ c ≤ '5') → classOf c = .digit := by
    intro c hc
    apply dg
    have h1 : 48 ≤ c.toNat := hc.1
    have h2 : c.toNat ≤ 53 := hc.2
    unfold Char.isDigit
    simp only [Bool.and_eq_true, decide_eq_true_eq]
    refine ⟨hc.1, ?_⟩
    show c.toNat ≤ 57
    omega
  have three : ∀ c : Char, ('0' ≤ c ∧ c ≤ '3') → classOf c = .digit := by
    intro c hc
    apply five
    refine ⟨hc.1, ?_⟩
    have h2 : c.toNat ≤ 51 := hc.2
    show c.toNat ≤ 53
    omega
  unfold isHourMinute at h
  split at h
  · rename_i a b c
    simp only [Bool.and_eq_true, decide_eq_true_eq] at h
    refine ⟨by simp, ?_⟩
    intro x hx
    simp only [List.mem_cons, List.not_mem_nil, or_false] at hx
    rcases hx with rfl | rfl | rfl | rfl
    · exact dg _ h.1.1
    · exact col
    · exact five _ h.1.2
    · exact dg _ h.2
  · rename_i g a b c
    simp only [Bool.and_eq_true, Bool.or_eq_true, beq_iff_eq, decide_eq_true_eq] at h
    refine ⟨by simp, ?_⟩
    intro x hx
    simp only [List.mem_cons, List.not_mem_nil, or_false] at hx
    have h1 := h.1.1
    rcases hx with rfl | rfl | rfl | rfl | rfl
    · rcases h1 with ⟨rfl | rfl, _⟩ | ⟨rfl, _⟩ <;> decide
    · rcases h1 with ⟨_, h⟩ | ⟨_, h⟩
      · exact dg _ h
      · exact three _ h
    · exact col
    · exact five _ h.1.2
    · exact dg _ h.2
  · simp at h

theorem not_hm_letter {a b : List Char} (h : (∃ c ∈ a, classOf c = .letter) ∨ ∃ c ∈ b, classOf c = .letter) :
    isHourMinute (a ++ [':'] ++ b) = false := by
  cases hx : isHourMinute (a ++ [':'] ++ b) with
  | false => rfl
  | true =>
    have := (isHourMinute_spec hx).2
    rcases h with ⟨c, hc, hl⟩ | ⟨c, hc, hl⟩
    · have := this c (by simp [hc]); rw [hl] at this; cases this
    · have := this c (by simp [hc]); rw [hl] at this; cases this

theorem not_hm_len {a b : List Char} (h : 5 < a.length + 1 + b.length) :
    isHourMinute (a ++ [':'] ++ b) = false := by
  cases hx : isHourMinute (a ++ [':'] ++ b) with
  | false => rfl
  | true =>
    have := (isHourMinute_spec hx).1
    simp only [List.length_append, List.length_cons, List.length_nil] at this
    omega

end Verif.Lemmas
