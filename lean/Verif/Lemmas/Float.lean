import Verif.Go.Float
import Verif.Lemmas.PartValue
/-! Helper lemmas: floats. -/
set_option autoImplicit false
namespace Verif.Lemmas
open Verif.Go

theorem fOne_eq : fOne = 2 ^ 1074 := by unfold fOne; rfl

theorem fOne_pos : 0 < fOne := by rw [fOne_eq]; exact Nat.pow_pos (by decide)

theorem whole_lt (a : Nat) (h : a < 2 ^ 53) : a * fOne < 2 ^ (53 + 1074) := by
  have := Nat.mul_lt_mul_of_pos_right (k := fOne) h fOne_pos
  rwa [show (2 : Nat) ^ 53 * fOne = 2 ^ (53 + 1074) by rw [fOne_eq, ← Nat.pow_add]] at this

theorem ulp_pos (q : Nat) : 0 < ulp q := by
  unfold ulp; split
  · decide
  · exact Nat.pow_pos (by decide)

theorem roundEven_exact (k d : Nat) (hd : 0 < d) : roundEven (k * d) d = k := by
  unfold roundEven
  have h1 : k * d % d = 0 := Nat.mul_mod_left k d
  have h2 : k * d / d = k := Nat.mul_div_cancel k hd
  simp [h1, h2, hd]

/-- A whole number of at most 53 bits, as a float. -/
theorem ulp_whole (a : Nat) (h : a < 2 ^ 53) : ulp (a * fOne) ∣ a * fOne := by
  unfold ulp
  split
  · exact Nat.one_dvd _
  · rename_i hn
    have hne : a * fOne ≠ 0 := by intro h0; rw [h0] at hn; exact hn (by decide)
    have hlt := whole_lt a h
    have hl : Nat.log2 (a * fOne) < 53 + 1074 := (Nat.log2_lt hne).mpr hlt
    have hd : 2 ^ (Nat.log2 (a * fOne) - 52) ∣ fOne := by
      have h' : Nat.log2 (a * fOne) - 52 ≤ 1074 := by omega
      have := Nat.pow_dvd_pow 2 h'
      rwa [← fOne_eq] at this
    exact Nat.dvd_trans hd (Nat.dvd_mul_left _ _)

theorem round_dvd (n : Nat) (h : ulp n ∣ n) (hn : n < 2 ^ 2098) : F64.round n 1 = .fin n := by
  unfold F64.round
  simp only [Nat.div_one, Nat.one_mul]
  obtain ⟨k, hk⟩ := h
  have e : roundEven n (ulp n) = k := by
    conv => lhs; arg 1; rw [hk, Nat.mul_comm]
    exact roundEven_exact k _ (ulp_pos n)
  rw [e, Nat.mul_comm, ← hk, if_pos hn]

theorem round_whole (a : Nat) (h : a < 2 ^ 53) : F64.round (a * fOne) 1 = .fin (a * fOne) := by
  apply round_dvd _ (ulp_whole a h)
  exact Nat.lt_of_lt_of_le (whole_lt a h) (Nat.pow_le_pow_right (by decide) (by decide))

theorem add_whole (a b : Nat) (h : a + b < 2 ^ 53) :
    (F64.fin (a * fOne)).add (.fin (b * fOne)) = .fin ((a + b) * fOne) := by
  unfold F64.add
  simp only
  rw [← Nat.add_mul, round_whole _ h]

theorem scale_whole (a k : Nat) (h : a * k < 2 ^ 53) : F64.scale k (.fin (a * fOne)) = .fin (a * k * fOne) := by
  unfold F64.scale
  simp only
  rw [Nat.mul_right_comm, round_whole _ h]

theorem toInt_whole (big : Int) (a : Nat) (h : a < 2 ^ 53) : (F64.fin (a * fOne)).toInt big = a := by
  unfold F64.toInt
  simp only
  rw [Nat.mul_div_cancel a fOne_pos, if_pos (by omega)]

theorem ofDecimal_whole (ip : List Char) (h : natOfDigits ip < 2 ^ 53) (h0 : 0 ≤ natOfDigits ip) :
    F64.ofDecimal ip [] = .fin ((natOfDigits ip).toNat * fOne) := by
  unfold F64.ofDecimal
  simp only [List.append_nil, List.length_nil, Nat.pow_zero]
  exact round_whole _ (by omega)

theorem wrap64_id {x : Int} (h1 : -2 ^ 63 ≤ x) (h2 : x < 2 ^ 63) : wrap64 x = x := by
  unfold wrap64; omega

end Verif.Lemmas
