import Verif.Spec.Loader
/-! # C27, C28: languages and locales -/
set_option autoImplicit false
namespace Verif.Props
open Verif.Go Verif.Model Verif.Spec Verif.Data

theorem insertBy_perm (le : Name → Name → Bool) (x : Name) (l : List Name) : (insertBy le x l).Perm (x :: l) := by
  induction l with
  | nil => exact .refl _
  | cons y r ih =>
    unfold insertBy
    split
    · exact .refl _
    · exact (ih.cons y).trans (.swap x y r)

theorem sortBy_perm (le : Name → Name → Bool) (l : List Name) : (sortBy le l).Perm l := by
  unfold sortBy
  induction l with
  | nil => exact .refl _
  | cons x r ih => rw [List.foldr_cons]; exact (insertBy_perm le x _).trans (ih.cons x)

theorem insertBy_sorted {le : Name → Name → Bool} (total : ∀ a b, le a b = true ∨ le b a = true)
    (trans : ∀ a b c, le a b = true → le b c = true → le a c = true) (x : Name) (l : List Name)
    (h : l.Pairwise fun a b => le a b = true) : (insertBy le x l).Pairwise fun a b => le a b = true := by
  induction l with
  | nil => simp [insertBy]
  | cons y r ih =>
    rw [List.pairwise_cons] at h
    unfold insertBy
    split
    · rename_i hxy
      rw [List.pairwise_cons, List.pairwise_cons]
      refine ⟨?_, h⟩
      intro z hz
      rcases List.mem_cons.mp hz with rfl | hz
      · exact hxy
      · exact trans _ _ _ hxy (h.1 z hz)
    · rename_i hxy
      rw [List.pairwise_cons]
      refine ⟨?_, ih h.2⟩
      intro z hz
      rw [(insertBy_perm le x r).mem_iff] at hz
      rcases List.mem_cons.mp hz with rfl | hz
      · exact (total y z).resolve_right hxy
      · exact h.1 z hz

theorem sortBy_sorted {le : Name → Name → Bool} (total : ∀ a b, le a b = true ∨ le b a = true)
    (trans : ∀ a b c, le a b = true → le b c = true → le a c = true) (l : List Name) :
    (sortBy le l).Pairwise fun a b => le a b = true := by
  unfold sortBy
  induction l with
  | nil => exact .nil
  | cons x r ih => exact insertBy_sorted total trans x _ ih

/-! ## C28: the tables -/

/-- Strictly ascending. -/
def ascending : List Name → Bool
  | a :: b :: r => decide (a < b) && ascending (b :: r)
  | _ => true

theorem ascending_pairwise : ∀ (l : List Name), ascending l = true → l.Pairwise (· < ·) := by
  intro l
  induction l with
  | nil => intro _; exact .nil
  | cons a r ih =>
    intro h
    cases r with
    | nil => simp
    | cons b r =>
      simp only [ascending, Bool.and_eq_true, decide_eq_true_eq] at h
      have p := ih h.2
      rw [List.pairwise_cons] at p ⊢
      refine ⟨?_, ih h.2⟩
      intro x hx
      rcases List.mem_cons.mp hx with rfl | hx
      · exact h.1
      · exact List.lt_trans h.1 (p.1 x hx)

theorem ascending_nodup {l : List Name} (h : ascending l = true) : l.Nodup := by
  have := ascending_pairwise l h
  unfold List.Nodup
  refine this.imp ?_
  intro a b h e
  rw [← e] at h
  exact List.lt_irrefl a h

/-- **C28.** The language table gives every language one rank, no two share one, the ranks are 0, 1, 2, … -/
theorem C28_ranking : languageOrder.map (·.2) = List.range languageOrder.length ∧
    (languageOrder.map (·.1)).Nodup := by
  refine ⟨by decide +kernel, by decide +kernel⟩

/-- **C28.** No locale code occurs twice in the table of locales; every locale carries its own code as its name;
the locales of the popularity table are exactly these. -/
theorem C28_locales : (localeData.map (·.1)).Nodup ∧ (∀ p ∈ localeData, p.2.name = p.1) ∧
    (∀ x, x ∈ localeOrder.map (·.1) ↔ KnownLocale x) := by
  refine ⟨ascending_nodup (by decide +kernel), by decide +kernel, ?_⟩
  have h : sortBy (fun a b => decide (a < b)) (localeOrder.map (·.1)) = localeData.map (·.1) := by decide +kernel
  intro x
  unfold KnownLocale
  rw [← h]
  exact (sortBy_perm _ _).mem_iff.symm

/-- **C28.** Every locale has the popularity rank of its language, which is known and a locale itself. -/
theorem C28_locale_language : (∀ p ∈ localeOrder, langRank (removeRegion p.1) = some p.2) ∧
    (∀ x, KnownLanguage x → KnownLocale x) := by
  refine ⟨by decide +kernel, ?_⟩
  unfold KnownLanguage KnownLocale
  intro x hx
  have : ∀ y ∈ languageOrder.map (·.1), (localeData.map (·.1)).elem y = true := by decide +kernel
  have := this x hx
  simpa using this

end Verif.Props
