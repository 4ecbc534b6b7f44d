import Verif.Lemmas.Tags
/-! Helper lemmas: numeric dates pass the stages before the individual parsers. -/
set_option autoImplicit false
namespace Verif.Lemmas
open Verif.Go Verif.Model Verif.Data Verif.Spec

/-- Three numbers of these lengths with digits 1, 2, …, with a separator. -/
def tmpl3 (i j k : Nat) (sep : Char) : List Char :=
  let ds := "12345678".toList
  ds.take i ++ sep :: ((ds.drop i).take j ++ sep :: ((ds.drop (i + j)).take k))

/-- Lengths of the three numbers of a date. -/
def shapes (place : Nat) : List (Nat × Nat × Nat) :=
  match place with
  | 0 => [(4, 1, 1), (4, 1, 2), (4, 2, 1), (4, 2, 2)]
  | 1 => [(1, 4, 1), (1, 4, 2), (2, 4, 1), (2, 4, 2)]
  | _ => [(1, 1, 4), (1, 2, 4), (2, 1, 4), (2, 2, 4)]

def shapesPassIn (d : LangData) (place : Nat) (sep : Char) : Bool := (shapes place).all fun x => passesDateIn d (tmpl3 x.1 x.2.1 x.2.2 sep) (tmpl3 x.1 x.2.1 x.2.2 sep)

abbrev shapesPass (place : Nat) (sep : Char) : Bool := shapesPassIn enData place sep

theorem pass_0_slash : shapesPass 0 '/' = true := by decide +kernel
theorem pass_0_dot : shapesPass 0 '.' = true := by decide +kernel
theorem pass_0_dash : shapesPass 0 '-' = true := by decide +kernel
theorem pass_1_slash : shapesPass 1 '/' = true := by decide +kernel
theorem pass_1_dot : shapesPass 1 '.' = true := by decide +kernel
theorem pass_2_slash : shapesPass 2 '/' = true := by decide +kernel
theorem pass_2_dot : shapesPass 2 '.' = true := by decide +kernel

theorem digits_of {s : List Char} (h : ∀ c ∈ s, c.isDigit = true) (t : List Char) (ht : ∀ c ∈ t, c.isDigit = true) : ∀ c ∈ s ++ t, c.isDigit = true := by
  intro c hc
  rcases List.mem_append.mp hc with h' | h'
  · exact h c h'
  · exact ht c h'

theorem len1 {A : List Char} (h : A.length = 1) : ∃ a, A = [a] := by
  match A, h with
  | [a], _ => exact ⟨a, rfl⟩
theorem len2 {A : List Char} (h : A.length = 2) : ∃ a b, A = [a, b] := by
  match A, h with
  | [a, b], _ => exact ⟨a, b, rfl⟩
theorem len4 {A : List Char} (h : A.length = 4) : ∃ a b c d, A = [a, b, c, d] := by
  match A, h with
  | [a, b, c, d], _ => exact ⟨a, b, c, d, rfl⟩

theorem tmpl3_sub {place : Nat} {A B C : List Char} (h : (A.length, B.length, C.length) ∈ shapes place) {sep : Char} (hsep : sep.isDigit = false) :
    (tmpl3 A.length B.length C.length sep).map (sub ('0' :: (A ++ B ++ C))) = A ++ sep :: (B ++ sep :: C) := by
  have hs : ∀ ds, sub ds sep = sep := fun ds => sub_other hsep
  have key : ∀ {i j k : Nat}, (i, j, k) ∈ shapes place → A.length = i → B.length = j → C.length = k →
      (tmpl3 i j k sep).map (sub ('0' :: (A ++ B ++ C))) = A ++ sep :: (B ++ sep :: C) := by
    intro i j k hm hA hB hC
    match place, hm with
    | 0, hm =>
      simp only [shapes, List.mem_cons, List.not_mem_nil, or_false, Prod.mk.injEq] at hm
      rcases hm with ⟨rfl, rfl, rfl⟩ | ⟨rfl, rfl, rfl⟩ | ⟨rfl, rfl, rfl⟩ | ⟨rfl, rfl, rfl⟩ <;> obtain ⟨a1, a2, a3, a4, rfl⟩ := len4 hA
      · obtain ⟨b1, rfl⟩ := len1 hB; obtain ⟨c1, rfl⟩ := len1 hC; simp [tmpl3, hs]; and_intros <;> rfl
      · obtain ⟨b1, rfl⟩ := len1 hB; obtain ⟨c1, c2, rfl⟩ := len2 hC; simp [tmpl3, hs]; and_intros <;> rfl
      · obtain ⟨b1, b2, rfl⟩ := len2 hB; obtain ⟨c1, rfl⟩ := len1 hC; simp [tmpl3, hs]; and_intros <;> rfl
      · obtain ⟨b1, b2, rfl⟩ := len2 hB; obtain ⟨c1, c2, rfl⟩ := len2 hC; simp [tmpl3, hs]; and_intros <;> rfl
    | 1, hm =>
      simp only [shapes, List.mem_cons, List.not_mem_nil, or_false, Prod.mk.injEq] at hm
      rcases hm with ⟨rfl, rfl, rfl⟩ | ⟨rfl, rfl, rfl⟩ | ⟨rfl, rfl, rfl⟩ | ⟨rfl, rfl, rfl⟩ <;> obtain ⟨b1, b2, b3, b4, rfl⟩ := len4 hB
      · obtain ⟨a1, rfl⟩ := len1 hA; obtain ⟨c1, rfl⟩ := len1 hC; simp [tmpl3, hs]; and_intros <;> rfl
      · obtain ⟨a1, rfl⟩ := len1 hA; obtain ⟨c1, c2, rfl⟩ := len2 hC; simp [tmpl3, hs]; and_intros <;> rfl
      · obtain ⟨a1, a2, rfl⟩ := len2 hA; obtain ⟨c1, rfl⟩ := len1 hC; simp [tmpl3, hs]; and_intros <;> rfl
      · obtain ⟨a1, a2, rfl⟩ := len2 hA; obtain ⟨c1, c2, rfl⟩ := len2 hC; simp [tmpl3, hs]; and_intros <;> rfl
    | n + 2, hm =>
      simp only [shapes, List.mem_cons, List.not_mem_nil, or_false, Prod.mk.injEq] at hm
      rcases hm with ⟨rfl, rfl, rfl⟩ | ⟨rfl, rfl, rfl⟩ | ⟨rfl, rfl, rfl⟩ | ⟨rfl, rfl, rfl⟩ <;> obtain ⟨c1, c2, c3, c4, rfl⟩ := len4 hC
      · obtain ⟨a1, rfl⟩ := len1 hA; obtain ⟨b1, rfl⟩ := len1 hB; simp [tmpl3, hs]; and_intros <;> rfl
      · obtain ⟨a1, rfl⟩ := len1 hA; obtain ⟨b1, b2, rfl⟩ := len2 hB; simp [tmpl3, hs]; and_intros <;> rfl
      · obtain ⟨a1, a2, rfl⟩ := len2 hA; obtain ⟨b1, rfl⟩ := len1 hB; simp [tmpl3, hs]; and_intros <;> rfl
      · obtain ⟨a1, a2, rfl⟩ := len2 hA; obtain ⟨b1, b2, rfl⟩ := len2 hB; simp [tmpl3, hs]; and_intros <;> rfl
  exact key h rfl rfl rfl

end Verif.Lemmas
