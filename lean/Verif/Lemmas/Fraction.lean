import Verif.Lemmas.RelMap
/-! Helper lemmas: rounding errors of floats. -/
set_option autoImplicit false
namespace Verif.Lemmas
open Verif.Go Verif.Model Verif.Spec

/-- 2⁻³² -/
def fEps : Nat := 2 ^ 1042
theorem fEps_eq : fEps = 2 ^ 1042 := by unfold fEps; rfl
attribute [irreducible] fEps
theorem fEps_pos : 0 < fEps := by rw [fEps_eq]; exact Nat.pow_pos (by decide)
theorem fOne_eps : fOne = 4294967296 * fEps := by
  rw [fOne_eq, fEps_eq, show (4294967296 : Nat) = 2 ^ 32 by decide, ← Nat.pow_add]

theorem roundEven_err (num d : Nat) (hd : 0 < d) :
    2 * (roundEven num d * d) ≤ 2 * num + d ∧ 2 * num ≤ 2 * (roundEven num d * d) + d := by
  have e := Nat.div_add_mod num d
  have hm := Nat.mod_lt num hd
  have c : num / d * d = d * (num / d) := Nat.mul_comm _ _
  have c1 : (num / d + 1) * d = d * (num / d) + d := by rw [Nat.add_mul, Nat.one_mul, c]
  unfold roundEven
  split
  · rw [c]; omega
  · split
    · rw [c1]; omega
    · split
      · rw [c]; omega
      · rw [c1]; omega

theorem ulp_le (q b : Nat) (h : q < 2 ^ (1074 + b)) : ulp q ≤ 2 * 2 ^ (1020 + b) := by
  rw [← Nat.pow_succ']
  unfold ulp
  split
  · exact Nat.one_le_two_pow
  · rename_i hn
    have hne : q ≠ 0 := by intro h0; rw [h0] at hn; exact hn (by decide)
    have hl : Nat.log2 q < 1074 + b := (Nat.log2_lt hne).mpr h
    exact Nat.pow_le_pow_right (by decide) (by omega)

/-- Rounding a number below 2ᵇ moves it by at most 2ᵇ⁻⁵⁴. -/
theorem round_err (num den b : Nat) (hd : 0 < den) (hb : b < 1000) (h : num < 2 ^ (1074 + b) * den) :
    ∃ v, F64.round num den = .fin v ∧ v * den ≤ num + 2 ^ (1020 + b) * den ∧ num ≤ v * den + 2 ^ (1020 + b) * den := by
  have hq : num / den < 2 ^ (1074 + b) := (Nat.div_lt_iff_lt_mul hd).mpr h
  have hu := ulp_le (num / den) b hq
  have hup := ulp_pos (num / den)
  unfold F64.round
  simp only
  generalize ulp (num / den) = u at hu hup
  have he := roundEven_err num (den * u) (Nat.mul_pos hd hup)
  have e1 : roundEven num (den * u) * (den * u) = roundEven num (den * u) * u * den := by
    rw [Nat.mul_comm den u, Nat.mul_assoc]
  rw [e1] at he
  generalize roundEven num (den * u) * u = v at he
  have hdu : den * u ≤ 2 * (2 ^ (1020 + b) * den) := by
    have := Nat.mul_le_mul_left den hu
    rw [Nat.mul_comm (2 ^ (1020 + b)) den, Nat.mul_left_comm]
    exact this
  have h1 : v * den ≤ num + 2 ^ (1020 + b) * den := by omega
  have h2 : num ≤ v * den + 2 ^ (1020 + b) * den := by omega
  refine ⟨v, if_pos ?_, h1, h2⟩
  have h3 : v * den < (2 ^ (1074 + b) + 2 ^ (1020 + b)) * den := by rw [Nat.add_mul]; omega
  have h4 := Nat.lt_of_mul_lt_mul_right h3
  have h5 : 2 ^ (1020 + b) ≤ 2 ^ (1074 + b) := Nat.pow_le_pow_right (by decide) (by omega)
  have h6 : 2 ^ (1074 + b) + 2 ^ (1074 + b) ≤ 2 ^ 2098 := by
    rw [← Nat.two_mul, ← Nat.pow_succ']
    exact Nat.pow_le_pow_right (by decide) (by omega)
  omega

/-- Rounding a number below 2²². -/
theorem round_small (n : Nat) (h : n < 4194304 * fOne) :
    ∃ v, F64.round n 1 = .fin v ∧ v ≤ n + fEps ∧ n ≤ v + fEps := by
  have := round_err n 1 22 (by decide) (by decide) (by
    rw [Nat.mul_one, Nat.add_comm, Nat.pow_add, ← fOne_eq]; exact h)
  simp only [Nat.mul_one] at this
  have e : (2 : Nat) ^ (1020 + 22) = fEps := by rw [fEps_eq]
  rw [e] at this
  exact this

theorem add_err (a b : Nat) (h : a + b < 4194304 * fOne) :
    ∃ v, (F64.fin a).add (.fin b) = .fin v ∧ v ≤ a + b + fEps ∧ a + b ≤ v + fEps := by
  unfold F64.add; exact round_small _ h

theorem scale_err (a k : Nat) (h : a * k < 4194304 * fOne) :
    ∃ v, F64.scale k (.fin a) = .fin v ∧ v ≤ a * k + fEps ∧ a * k ≤ v + fEps := by
  unfold F64.scale; exact round_small _ h

theorem splitFraction_eq (n : Nat) : (splitFraction n).1 + (splitFraction n).2 = n ∧ (splitFraction n).2 < fOne ∧
    fOne ∣ (splitFraction n).1 ∧ ((splitFraction n).2 = 0 ↔ fOne ∣ n) := by
  unfold splitFraction
  refine ⟨?_, Nat.mod_lt _ fOne_pos, Nat.dvd_mul_left _ _, ?_⟩
  · show n / fOne * fOne + n % fOne = n
    rw [Nat.mul_comm]; exact Nat.div_add_mod n fOne
  · exact (Nat.dvd_iff_mod_eq_zero ..).symm

/-- A fraction times a small number, split. -/
theorem splitScaled_err (f k : Nat) (hf : f < fOne) (hk : k ≤ 60) :
    ∃ w g, splitScaled f k = (w * fOne, g) ∧ w ≤ 60 ∧ g < fOne ∧
      w * fOne + g ≤ f * k + fEps ∧ f * k ≤ w * fOne + g + fEps := by
  have hk2 : f * k ≤ fOne * 60 := Nat.mul_le_mul (by omega) hk
  have e0 := fOne_pos
  have e1 := fOne_eps
  have e2 := fEps_pos
  obtain ⟨v, hv, h1, h2⟩ := scale_err f k (by omega)
  have hs := splitFraction_eq v
  refine ⟨v / fOne, v % fOne, ?_, ?_, hs.2.1, ?_, ?_⟩
  · unfold splitScaled; rw [hv]; rfl
  · have : v < 61 * fOne := by omega
    have := (Nat.div_lt_iff_lt_mul e0).mpr this
    omega
  · have : v / fOne * fOne + v % fOne = v := hs.1
    omega
  · have : v / fOne * fOne + v % fOne = v := hs.1
    omega


/-- The amounts a map holds. -/
structure Amt where
  y : Nat
  mo : Nat
  d : Nat
  h : Nat
  mi : Nat
  s : Nat

/-- Total length, in multiples of 2⁻¹⁰⁷⁴ seconds. -/
def Amt.total (a : Amt) : Nat := 
  31104000 * a.y + (2592000 * a.mo + (86400 * a.d + (3600 * a.h + (60 * a.mi + (1 * a.s + 0)))))

/-- What is known of one unit: its amount `n`, that it is below `lim`, that it is whole unless `fr`, and that it is
present when mentioned (`has`) or when not 0. -/
structure KeyInv (m : FMap) (k : List Char) (n lim : Nat) (fr has : Bool) : Prop where
  val : m.val k = .fin n
  le : n ≤ lim
  whole : fr = false → fOne ∣ n
  some : (m.get k).isSome = (has || n != 0)
  frac : has = false → fr = false

theorem FMap.val_set (m : FMap) (k k' : List Char) (v : F64) : (m.set k v).val k' = if k' = k then v else m.val k' := by
  unfold FMap.val
  rw [FMap.get_set]
  split <;> rfl

theorem KeyInv.set_other {m : FMap} {k : List Char} {n lim : Nat} {fr has : Bool} (h : KeyInv m k n lim fr has)
    (k' : List Char) (v : F64) (hk : k ≠ k') : KeyInv (m.set k' v) k n lim fr has := by
  refine ⟨?_, h.le, h.whole, ?_, h.frac⟩
  · rw [FMap.val_set, if_neg hk]; exact h.val
  · rw [FMap.get_set, if_neg hk]; exact h.some

theorem KeyInv.add_other {m : FMap} {k : List Char} {n lim : Nat} {fr has : Bool} (h : KeyInv m k n lim fr has)
    (k' : List Char) (v : Nat) (hk : k ≠ k') : KeyInv (addMapValue m k' v) k n lim fr has := by
  unfold addMapValue
  split
  · exact h
  · exact h.set_other _ _ hk

/-- Adding a whole number. -/
theorem KeyInv.add {m : FMap} {k : List Char} {n lim : Nat} {fr has : Bool} (h : KeyInv m k n lim fr has)
    (w : Nat) (hw : w ≤ 60) (hl : lim < 4194000 * fOne) :
    ∃ n', KeyInv (addMapValue m k (w * fOne)) k n' (lim + 61 * fOne) fr has ∧
      n' ≤ n + w * fOne + fEps ∧ n + w * fOne ≤ n' + fEps := by
  have e0 := fOne_pos
  have e1 := fOne_eps
  have hle := h.le
  have hw2 : w * fOne ≤ 60 * fOne := Nat.mul_le_mul_right _ hw
  by_cases hz : w * fOne = 0
  · refine ⟨n, ?_, by omega, by omega⟩
    unfold addMapValue
    rw [if_pos hz]
    exact ⟨h.val, by omega, h.whole, h.some, h.frac⟩
  · have key : ∀ n', (F64.fin n).add (.fin (w * fOne)) = .fin n' → n' ≤ n + w * fOne + fEps → n + w * fOne ≤ n' + fEps →
        (fr = false → fOne ∣ n') → n' ≠ 0 → KeyInv (addMapValue m k (w * fOne)) k n' (lim + 61 * fOne) fr has := by
      intro n' he h1 h2 h3 h4
      unfold addMapValue
      rw [if_neg hz, h.val, he]
      refine ⟨?_, by omega, h3, ?_, h.frac⟩
      · rw [FMap.val_set, if_pos rfl]
      · rw [FMap.get_set, if_pos rfl]; simp [h4]
    have hwp : fOne ≤ w * fOne := Nat.le_mul_of_pos_left _ (Nat.pos_of_ne_zero fun h => hz (by simp [h]))
    cases hfr : fr with
    | true =>
      obtain ⟨v, hv, h1, h2⟩ := add_err n (w * fOne) (by omega)
      rw [hfr] at key
      exact ⟨v, key v hv h1 h2 (fun h => by simp at h) (by omega), h1, h2⟩
    | false =>
      obtain ⟨c, hc⟩ := h.whole hfr
      rw [hfr] at key
      have hc2 : n = c * fOne := by rw [hc, Nat.mul_comm]
      have hcw : c + w < 4194304 := by
        have : (c + w) * fOne < 4194304 * fOne := by rw [Nat.add_mul]; omega
        exact Nat.lt_of_mul_lt_mul_right this
      have ha := add_whole c w (by omega)
      rw [← hc2, Nat.add_mul, ← hc2] at ha
      refine ⟨n + w * fOne, key _ ha (by omega) (by omega) (fun _ => ?_) (by omega), by omega, by omega⟩
      exact Nat.dvd_add (h.whole hfr) (Nat.dvd_mul_left _ _)

/-- Replacing the amount of a unit that is there by its whole part. -/
theorem KeyInv.set {m : FMap} {k : List Char} {n lim : Nat} {fr has : Bool} (h : KeyInv m k n lim fr has)
    (hfr : ¬ fOne ∣ n) (n' : Nat) (hle : n' ≤ n + fOne) (hd : fOne ∣ n') :
    KeyInv (m.set k (.fin n')) k n' (lim + 61 * fOne) false has := by
  have hh : has = true := by
    cases hh : has with
    | true => rfl
    | false => exact absurd (h.whole (h.frac hh)) hfr
  have := h.le
  refine ⟨?_, by omega, fun _ => hd, ?_, fun _ => rfl⟩
  · rw [FMap.val_set, if_pos rfl]
  · rw [FMap.get_set, if_pos rfl, hh]; rfl

theorem KeyInv.weaken {m : FMap} {k : List Char} {n lim : Nat} {fr has : Bool} (h : KeyInv m k n lim fr has) {lim' : Nat}
    (hl : lim ≤ lim') : KeyInv m k n lim' fr has := ⟨h.val, Nat.le_trans h.le hl, h.whole, h.some, h.frac⟩

/-- A unit whose amount is whole is left alone. -/
theorem spread_none {m : FMap} {k : List Char} {n lim : Nat} {fr has : Bool} (h : KeyInv m k n lim fr has)
    (hd : fOne ∣ n) : spreadUnit m k = m := by
  have hv := h.val
  unfold FMap.val at hv
  unfold spreadUnit
  cases hg : m.get k with
  | none => rfl
  | some x =>
    rw [hg] at hv
    have hv : x = .fin n := hv
    subst hv
    simp only
    rw [if_pos ((splitFraction_eq n).2.2.2.mpr hd)]

theorem get_of_frac {m : FMap} {k : List Char} {n lim : Nat} {fr has : Bool} (h : KeyInv m k n lim fr has)
    (hd : ¬ fOne ∣ n) : m.get k = some (.fin n) := by
  have hv := h.val
  unfold FMap.val at hv
  cases hg : m.get k with
  | none =>
    rw [hg] at hv
    exfalso; apply hd
    have : (F64.fin 0) = .fin n := hv
    injection this with this
    rw [← this]; exact Nat.dvd_zero _
  | some x => rw [hg] at hv; exact congrArg some hv

end Verif.Lemmas
