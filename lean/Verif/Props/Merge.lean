import Verif.Spec.Merge
import Verif.Data.Pats
/-! # C43: what a regional locale has from its language -/
set_option autoImplicit false
namespace Verif.Props
open Verif.Go Verif.Model Verif.Data Verif.Spec

theorem strLe_trans : ∀ (a b c : List Char), strLe a b = true → strLe b c = true → strLe a c = true
  | [], _, _, _, _ => by simp [strLe]
  | _ :: _, [], _, h, _ => by simp [strLe] at h
  | _ :: _, _ :: _, [], _, h => by simp [strLe] at h
  | a :: s, b :: t, c :: u, h1, h2 => by
    simp only [strLe] at h1 h2 ⊢
    split at h1
    · rename_i e
      split at h2
      · rename_i e'
        rw [if_pos (e.trans e')]
        exact strLe_trans s t u h1 h2
      · rename_i e'
        rw [if_neg (by rw [e]; exact e'), e]
        exact h2
    · split at h2
      · rename_i e e'
        rw [if_neg (by rw [← e']; exact e), ← e']
        exact h1
      · simp only [decide_eq_true_eq] at h1 h2
        have h3 := Nat.lt_trans h1 h2
        rw [if_neg (by rintro rfl; exact Nat.lt_irrefl _ h3)]
        simpa using h3

theorem strLe_total : ∀ (a b : List Char), (strLe a b || strLe b a) = true
  | [], _ => by simp [strLe]
  | _ :: _, [] => by simp [strLe]
  | a :: s, b :: t => by
    simp only [strLe]
    by_cases e : a = b
    · subst e
      rw [if_pos rfl]
      simpa using strLe_total s t
    · rw [if_neg e, if_neg (Ne.symm e)]
      have : a.toNat ≠ b.toNat := fun h => e (Char.ext (UInt32.toNat_inj.mp h))
      simp only [Bool.or_eq_true, decide_eq_true_eq]
      omega

theorem strLe_antisymm : ∀ (a b : List Char), strLe a b = true → strLe b a = true → a = b
  | [], [], _, _ => rfl
  | [], _ :: _, _, h => by simp [strLe] at h
  | _ :: _, [], h, _ => by simp [strLe] at h
  | a :: s, b :: t, h1, h2 => by
    simp only [strLe] at h1 h2
    by_cases e : a = b
    · subst e
      rw [if_pos rfl] at h1 h2
      rw [strLe_antisymm s t h1 h2]
    · rw [if_neg e] at h1
      rw [if_neg (Ne.symm e)] at h2
      simp only [decide_eq_true_eq] at h1 h2
      omega

theorem mem_compact (x : List Char) : ∀ (l : List (List Char)), x ∈ compact l ↔ x ∈ l
  | [] => Iff.rfl
  | [_] => Iff.rfl
  | a :: b :: r => by
    unfold compact
    split
    · rename_i e
      rw [mem_compact x (b :: r), e]
      simp
    · rw [List.mem_cons, mem_compact x (b :: r)]
      simp

theorem nodup_compact : ∀ (l : List (List Char)), l.Pairwise (fun a b => strLe a b = true) → (compact l).Nodup
  | [], _ => .nil
  | [a], _ => by simp [compact]
  | a :: b :: r, h => by
    unfold compact
    rw [List.pairwise_cons] at h
    split
    · exact nodup_compact (b :: r) h.2
    · rename_i e
      rw [List.nodup_cons]
      refine ⟨fun hm => ?_, nodup_compact (b :: r) h.2⟩
      rw [mem_compact] at hm
      rcases List.mem_cons.mp hm with rfl | hm
      · exact e rfl
      · have h1 := h.1 b (by simp)
        have h2 := (List.pairwise_cons.mp h.2).1 a hm
        exact e (strLe_antisymm a b h1 h2)

theorem mem_mergeWords (own parent : List (List Char)) (x : List Char) : x ∈ mergeWords own parent ↔ x ∈ own ∨ x ∈ parent := by
  unfold mergeWords
  rw [mem_compact, List.mem_mergeSort, List.mem_append]

theorem nodup_mergeWords (own parent : List (List Char)) : (mergeWords own parent).Nodup :=
  nodup_compact _ (List.pairwise_mergeSort (fun a b c => strLe_trans a b c) (fun a b => strLe_total a b) _)

theorem lookup_app {β : Type} (w : List Char) : ∀ (a b : List (List Char × β)), (a ++ b).lookup w = (a.lookup w).or (b.lookup w)
  | [], b => by simp
  | (k, v) :: a, b => by
    rw [List.cons_append, List.lookup_cons, List.lookup_cons]
    split
    · simp
    · exact lookup_app w a b

theorem lookup_mapped {β : Type} (f : List Char → β → β) (w : List Char) : ∀ (a : List (List Char × β)),
    (a.map fun x => (x.1, f x.1 x.2)).lookup w = (a.lookup w).map (f w)
  | [] => rfl
  | (k, v) :: a => by
    rw [List.map_cons, List.lookup_cons, List.lookup_cons]
    cases e : w == k with
    | true => simp [eq_of_beq e]
    | false => exact lookup_mapped f w a

theorem lookup_kept {β : Type} (p : List (List Char × β)) (w : List Char) : ∀ (a : List (List Char × β)),
    (p.lookup w).or ((a.filter fun x => (p.lookup x.1).isNone).lookup w) = (p.lookup w).or (a.lookup w)
  | [] => rfl
  | (k, v) :: a => by
    rw [List.lookup_cons, List.filter_cons]
    by_cases e : w = k
    · subst e
      cases hp : p.lookup w with
      | some x => simp
      | none => simp
    · have e' : (w == k) = false := by simpa using e
      split
      · rw [List.lookup_cons, e']
        exact lookup_kept p w a
      · rw [e']
        exact lookup_kept p w a

/-- **C43** A locale with a parent: all words and phrases of both are understood, each word with the translations of both; the
parent's come first for relative phrases, its own for patterns; only the words by which a text is split are not inherited. -/
theorem C43_merge (parent child : LangData) : Inherits parent child (mergeLang (some parent) child) := by
  have hlook : ∀ w, (mergeLang (some parent) child).translations.lookup w =
      ((parent.translations.lookup w).map fun t => mergeWords ((child.translations.lookup w).getD []) t).or
        ((child.translations.filter fun x => (parent.translations.lookup x.1).isNone).lookup w) := by
    intro w
    unfold mergeLang
    rw [lookup_app, lookup_mapped (fun k v => mergeWords ((child.translations.lookup k).getD []) v)]
  have hcase : ∀ w, (mergeLang (some parent) child).translations.lookup w =
      match parent.translations.lookup w with
      | some t => some (mergeWords ((child.translations.lookup w).getD []) t)
      | none => child.translations.lookup w := by
    intro w
    rw [hlook w]
    have := lookup_kept parent.translations w child.translations
    cases hp : parent.translations.lookup w with
    | some t => simp
    | none => rw [hp] at this; simpa using this
  refine ⟨⟨rfl, rfl, rfl⟩, fun w => ?_, fun w t => ?_, fun w h => ?_, fun w => ?_, rfl, rfl, fun a => List.mem_append, ?_, ?_, rfl⟩
  · rw [hcase]; cases parent.translations.lookup w <;> simp
  · unfold translationsOf
    rw [hcase]
    cases parent.translations.lookup w with
    | none => simp
    | some x => simp [mem_mergeWords]
  · unfold translationsOf
    rw [hcase]
    cases hp : parent.translations.lookup w with
    | none => rw [hp] at h; simp at h
    | some x => exact nodup_mergeWords _ _
  · show (parent.relativeType ++ child.relativeType.filter fun x => (parent.relativeType.lookup x.1).isNone).lookup w = _
    rw [lookup_app]
    exact lookup_kept _ w _
  · show (if child.rxCombined.isNone then parent.rxCombined else child.rxCombined) = _
    cases child.rxCombined <;> simp
  · show (if child.rxExact.isNone then parent.rxExact else child.rxExact) = _
    cases child.rxExact <;> simp

/-- Mexican Spanish has "enero" (January) from Spanish only. -/
example : Inherits esLang es_MXLang (mergeLang (some esLang) es_MXLang) ∧ (allLangs.any fun x => x.1.name == es_MXLang.name && (x.2.map (·.name)) == some esLang.name) = true ∧
    translationsOf esLang "enero".toList = ["january".toList] ∧ translationsOf es_MXLang "enero".toList = [] := by
  refine ⟨C43_merge _ _, ?_, by decide +kernel, by decide +kernel⟩
  decide +kernel

end Verif.Props
