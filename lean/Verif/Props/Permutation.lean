import Verif.Model.Permutation
import Verif.Spec.Permutation
/-! # C31: alternative translations -/
set_option autoImplicit false
namespace Verif.Props
open Verif.Model Verif.Spec

section
variable {T : Type}

def product : List (List T) → Nat
  | [] => 1
  | e :: r => e.length * product r

theorem foldl_product (l : List (List T)) : ∀ n, l.foldl (fun n entries => n * entries.length) n = n * product l := by
  induction l with
  | nil => intro n; simp [product]
  | cons e r ih => intro n; rw [List.foldl_cons, ih, product, Nat.mul_assoc]

/-- The entry for row `p` of one column. -/
def columnAt (entries : List T) (m p : Nat) : Option T := entries[(p / m) % entries.length]?

theorem fillColumn_eq (entries : List T) (m : Nat) (hm : 0 < m) (he : 0 < entries.length) : ∀ (n e s : Nat), e < entries.length →
    s ≤ m → ∃ col, fillColumn entries m n e s = some col ∧ col.length = n ∧
      ∀ j, j < n → col[j]? = columnAt entries m (e * m + s + j) := by
  intro n
  induction n with
  | zero => intro e s _ _; exact ⟨[], rfl, rfl, by omega⟩
  | succ n ih =>
    intro e s h1 h2
    unfold fillColumn
    by_cases hs : s ≥ m
    · have hsm : s = m := by omega
      subst hsm
      simp only [ge_iff_le, Nat.le_refl, if_true]
      by_cases hw : entries.length ≤ e + 1
      · have hel : e + 1 = entries.length := by omega
        simp only [if_pos hw, List.getElem?_eq_getElem he]
        obtain ⟨col, c1, c2, c3⟩ := ih 0 (0 + 1) he (by omega)
        refine ⟨entries[0] :: col, by rw [c1]; rfl, by simp [c2], ?_⟩
        intro j hj
        have hq : ∀ j, columnAt entries s (e * s + s + j) = columnAt entries s j := by
          intro j
          unfold columnAt
          rw [show e * s + s + j = j + entries.length * s by rw [← hel, Nat.add_mul]; omega, Nat.add_mul_div_right _ _ hm,
            Nat.add_mod_right]
        rw [hq]
        cases j with
        | zero => simp [columnAt, List.getElem?_eq_getElem he]
        | succ j => rw [List.getElem?_cons_succ, c3 j (by omega)]; congr 1; omega
      · have hw' : e + 1 < entries.length := by omega
        simp only [if_neg hw, List.getElem?_eq_getElem hw']
        obtain ⟨col, c1, c2, c3⟩ := ih (e + 1) (0 + 1) hw' (by omega)
        refine ⟨entries[e + 1] :: col, by rw [c1]; rfl, by simp [c2], ?_⟩
        intro j hj
        cases j with
        | zero =>
          unfold columnAt
          rw [show e * s + s + 0 = (e + 1) * s by rw [Nat.add_mul]; omega, Nat.mul_div_cancel _ hm, Nat.mod_eq_of_lt hw']
          simp [List.getElem?_eq_getElem hw']
        | succ j =>
          rw [List.getElem?_cons_succ, c3 j (by omega)]; congr 1
          rw [Nat.add_mul]; omega
    · have hs' : s < m := by omega
      simp only [if_neg hs, if_neg (Nat.not_le.mpr h1), List.getElem?_eq_getElem h1]
      obtain ⟨col, c1, c2, c3⟩ := ih e (s + 1) h1 (by omega)
      refine ⟨entries[e] :: col, by rw [c1]; rfl, by simp [c2], ?_⟩
      intro j hj
      cases j with
      | zero =>
        unfold columnAt
        rw [Nat.add_zero, Nat.add_comm, Nat.add_mul_div_right _ _ hm, Nat.div_eq_of_lt hs', Nat.zero_add, Nat.mod_eq_of_lt h1]
        simp [List.getElem?_eq_getElem h1]
      | succ j => rw [List.getElem?_cons_succ, c3 j (by omega)]; congr 1; omega

theorem combinations_length (l : List (List T)) : (combinations l).length = product l := by
  induction l with
  | nil => rfl
  | cons e r ih =>
    simp only [combinations, product, List.length_flatMap, List.length_map, ih]
    induction e with
    | nil => simp
    | cons x e ih2 => simp [ih2, Nat.add_mul, Nat.add_comm]

/-- An index into equal blocks. -/
theorem flatMap_getElem? {α β : Type} (f : α → List β) (m : Nat) (l : List α) (h : ∀ x ∈ l, (f x).length = m) (hm : 0 < m) (p : Nat) :
    (l.flatMap f)[p]? = (l[p / m]?).bind fun x => (f x)[p % m]? := by
  induction l generalizing p with
  | nil => simp
  | cons x l ih =>
    rw [List.flatMap_cons]
    have hx := h x (by simp)
    by_cases hp : p < m
    · rw [List.getElem?_append_left (by omega), Nat.div_eq_of_lt hp, Nat.mod_eq_of_lt hp]; simp
    · rw [List.getElem?_append_right (by omega), hx, ih (fun y hy => h y (by simp [hy]))]
      have h1 : p / m = (p - m) / m + 1 := by
        rw [Nat.div_eq_sub_div hm (by omega)]
      have h2 : p % m = (p - m) % m := Nat.mod_eq_sub_mod (by omega)
      rw [h1, h2, List.getElem?_cons_succ]

theorem product_pos {l : List (List T)} (h : ∀ e ∈ l, e ≠ []) : 0 < product l := by
  induction l with
  | nil => simp [product]
  | cons e r ih =>
    have := List.length_pos_iff.mpr (h e (by simp))
    exact Nat.mul_pos this (ih fun x hx => h x (by simp [hx]))

/-- The rows: what the outer loop adds to row `p` is combination `p % product`. -/
theorem fillColumns_eq (P : Nat) : ∀ (l : List (List T)) (R : List (List T)) (k : Nat), (∀ e ∈ l, e ≠ []) → P = k * product l →
    R.length = P → ∃ out, fillColumns P l (product l) R = some out ∧ out.length = P ∧
      ∀ p, p < P → out[p]? = (R[p]?).bind fun row => ((combinations l)[p % product l]?).map (row ++ ·) := by
  intro l
  induction l with
  | nil =>
    intro R k _ hP hR
    refine ⟨R, rfl, hR, ?_⟩
    intro p hp
    simp [combinations, product, Nat.mod_one]
  | cons e r ih =>
    intro R k hne hP hR
    have he : 0 < e.length := List.length_pos_iff.mpr (hne e (by simp))
    have hr : 0 < product r := product_pos fun x hx => hne x (by simp [hx])
    have hdiv : product (e :: r) / e.length = product r := by
      rw [product, Nat.mul_div_cancel_left _ he]
    obtain ⟨col, c1, c2, c3⟩ := fillColumn_eq e (product r) hr he P 0 0 he (by omega)
    unfold fillColumns
    simp only [if_neg (Nat.ne_of_gt he), hdiv, c1]
    obtain ⟨out, o1, o2, o3⟩ := ih (List.zipWith (fun row v => row ++ [v]) R col) (k * e.length)
      (fun x hx => hne x (by simp [hx])) (by rw [hP, product, Nat.mul_assoc]) (by simp [hR, c2])
    refine ⟨out, o1, o2, ?_⟩
    intro p hp
    have hcol := c3 p hp
    have hlt : p < R.length := by omega
    rw [o3 p hp, List.getElem?_zipWith, List.getElem?_eq_getElem hlt, hcol]
    have hi : (p / product r) % e.length < e.length := Nat.mod_lt _ he
    have h0 : columnAt e (product r) (0 * product r + 0 + p) = some (e[(p / product r) % e.length]) := by
      unfold columnAt
      simp only [Nat.zero_mul, Nat.zero_add]
      rw [List.getElem?_eq_getElem hi]
    rw [h0]
    simp only [Option.bind_some, Option.map_some, combinations]
    rw [flatMap_getElem? (m := product r) _ _ (by intro x _; simp [combinations_length]) hr]
    have e1 : p % product (e :: r) / product r = (p / product r) % e.length := by
      rw [product, Nat.mul_comm, Nat.mod_mul_right_div_self]
    have e2 : p % product (e :: r) % product r = p % product r := by
      rw [product, Nat.mod_mul_left_mod]
    rw [e1, e2, List.getElem?_eq_getElem hi]
    simp only [Option.bind_some, List.getElem?_map]
    cases (combinations r)[p % product r]? <;> simp

/-- **C31.** The alternatives tried are exactly all combinations, in order. -/
theorem C31_all_combinations (input : List (List T)) (h : ∀ e ∈ input, e ≠ []) :
    createPermutation input = some (combinations input) := by
  unfold createPermutation
  simp only [foldl_product, Nat.one_mul]
  obtain ⟨out, o1, o2, o3⟩ := fillColumns_eq (product input) input (List.replicate (product input) []) 1 h (by simp) (by simp)
  rw [o1]
  congr 1
  refine List.ext_getElem? ?_
  intro p
  by_cases hp : p < product input
  · rw [o3 p hp, List.getElem?_replicate_of_lt hp, Nat.mod_eq_of_lt hp]
    simp
  · rw [List.getElem?_eq_none (by omega), List.getElem?_eq_none (by rw [combinations_length]; omega)]

/-- What a combination is: one entry of each list. -/
theorem C31_mem (input : List (List T)) (row : List T) :
    row ∈ combinations input ↔ row.length = input.length ∧ ∀ (i : Nat) v e, row[i]? = some v → input[i]? = some e → v ∈ e := by
  induction input generalizing row with
  | nil => cases row <;> simp [combinations]
  | cons e r ih =>
    simp only [combinations, List.mem_flatMap, List.mem_map]
    constructor
    · rintro ⟨x, hx, row', hr, rfl⟩
      obtain ⟨h1, h2⟩ := (ih row').mp hr
      refine ⟨by simp [h1], ?_⟩
      intro i v e' hv he
      cases i with
      | zero => simp at hv he; subst hv; subst he; exact hx
      | succ i => simp only [List.getElem?_cons_succ] at hv he; exact h2 i v e' hv he
    · rintro ⟨h1, h2⟩
      cases row with
      | nil => simp at h1
      | cons x row' =>
        refine ⟨x, h2 0 x e rfl rfl, row', (ih row').mpr ⟨by simpa using h1, ?_⟩, rfl⟩
        intro i v e' hv he
        exact h2 (i + 1) v e' (by simpa using hv) (by simpa using he)

/-- **C31.** Each combination comes once when the alternatives for each word differ. -/
theorem C31_once (input : List (List T)) (h : ∀ e ∈ input, e.Nodup) : (combinations input).Nodup := by
  induction input with
  | nil => simp [combinations]
  | cons e r ih =>
    have ihr := ih fun x hx => h x (by simp [hx])
    have he := h e (by simp)
    simp only [combinations]
    rw [List.nodup_iff_pairwise_ne, List.pairwise_flatMap]
    constructor
    · intro x _
      rw [List.pairwise_map]
      exact ihr.imp fun hne e => hne (by simpa using e)
    · rw [List.nodup_iff_pairwise_ne] at he
      refine he.imp ?_
      intro x y hxy a ha b hb hab
      obtain ⟨a', _, rfl⟩ := List.mem_map.mp ha
      obtain ⟨b', _, rfl⟩ := List.mem_map.mp hb
      simp only [List.cons.injEq] at hab
      exact hxy hab.1

/-- **C31.** A word with no alternative at all would be a division by zero (no locale has one). -/
theorem C31_empty_panics (input : List (List T)) (h : [] ∈ input) : createPermutation input = none := by
  have hz : ∀ l : List (List T), [] ∈ l → product l = 0 := by
    intro l
    induction l with
    | nil => simp
    | cons e r ih =>
      intro hm
      rcases List.mem_cons.mp hm with rfl | hm
      · simp [product]
      · simp [product, ih hm]
  have key : ∀ (l R : List (List T)) (c : Nat), [] ∈ l → fillColumns 0 l c R = none := by
    intro l
    induction l with
    | nil => intro R c h; simp at h
    | cons e r ih =>
      intro R c hm
      unfold fillColumns
      dsimp only
      split
      · rfl
      · simp only [fillColumn]
        refine ih _ _ ?_
        rcases List.mem_cons.mp hm with rfl | hm
        · simp_all
        · exact hm
  unfold createPermutation
  simp only [foldl_product, hz input h]
  exact key _ _ _ h

end

/-! Example. -/
example : createPermutation [["1"], ["a", "b"], ["x", "y", "z"]] =
    some [["1", "a", "x"], ["1", "a", "y"], ["1", "a", "z"], ["1", "b", "x"], ["1", "b", "y"], ["1", "b", "z"]] := by
  decide +kernel

end Verif.Props
