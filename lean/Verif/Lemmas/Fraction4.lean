import Verif.Lemmas.Fraction3
/-! Helper lemmas: the amounts as read, decades and weeks merged. -/
set_option autoImplicit false
namespace Verif.Lemmas
open Verif.Go Verif.Model Verif.Spec

theorem KeyInv.of_get {m m' : FMap} {k : List Char} {n lim : Nat} {fr has : Bool} (h : KeyInv m k n lim fr has)
    (hg : m'.get k = m.get k) : KeyInv m' k n lim fr has := by
  refine ⟨?_, h.le, h.whole, ?_, h.frac⟩
  · unfold FMap.val; rw [hg]; exact h.val
  · rw [hg]; exact h.some

/-- Ten times the decades added to the years, seven times the weeks to the days. -/
theorem merge_amount {m m' : FMap} {k kd : List Char} {n nd c : Nat} {fr frd has hasd : Bool} (hc : c ≤ 10)
    (hk : KeyInv m k n (100001 * fOne) fr has) (hd : KeyInv m kd nd (100001 * fOne) frd hasd)
    (hz : hasd = false → nd = 0)
    (hget : m'.get k = match m.get kd with
      | some d => some ((m.val k).add (d.scale c))
      | none => m.get k) :
    ∃ n', KeyInv m' k n' (11 * (100002 * fOne)) (fr || frd) (has || hasd) ∧
      n' ≤ n + nd * c + 2 * fEps ∧ n + nd * c ≤ n' + 2 * fEps := by
  have e0 := fOne_pos
  have e1 := fOne_eps
  have hs := hd.some
  cases hg : m.get kd with
  | none =>
    rw [hg] at hs hget
    simp only [Option.isSome_none] at hs
    have h1 : hasd = false := by
      cases hb : hasd with
      | false => rfl
      | true => rw [hb] at hs; simp at hs
    have h2 := hz h1
    have h3 := hd.frac h1
    subst h1 h2 h3
    refine ⟨n, ?_, by omega, by omega⟩
    simp only [Bool.or_false]
    exact (hk.of_get hget).weaken (by omega)
  | some d =>
    have hv := hd.val
    unfold FMap.val at hv
    rw [hg] at hv hget hs
    have hv : d = .fin nd := hv
    subst hv
    rw [hk.val] at hget
    simp only at hget
    have l1 := hk.le
    have l2 := hd.le
    have l3 : nd * c ≤ 100001 * fOne * 10 := Nat.mul_le_mul l2 hc
    have hh : hasd = true := by
      cases hb : hasd with
      | true => rfl
      | false => have := hz hb; subst this; simp [hb] at hs
    have fin : ∀ n', (F64.fin n).add ((F64.fin nd).scale c) = .fin n' → n' ≤ n + nd * c + 2 * fEps →
        n + nd * c ≤ n' + 2 * fEps → ((fr || frd) = false → fOne ∣ n') →
        KeyInv m' k n' (11 * (100002 * fOne)) (fr || frd) (has || hasd) := by
      intro n' h1 h2 h3 h4
      rw [h1] at hget
      refine ⟨?_, by omega, h4, ?_, ?_⟩
      · unfold FMap.val; rw [hget]; rfl
      · rw [hget, hh]; simp
      · rw [hh]; simp
    cases hfr : fr || frd with
    | true =>
      obtain ⟨v, v1, v2, v3⟩ := scale_err nd c (by omega)
      obtain ⟨w, w1, w2, w3⟩ := add_err n v (by omega)
      rw [v1, w1] at fin
      rw [hfr] at fin
      exact ⟨w, fin w rfl (by omega) (by omega) (by simp), by omega, by omega⟩
    | false =>
      have hf : fr = false ∧ frd = false := by simpa using hfr
      obtain ⟨x, hx⟩ := hk.whole hf.1
      obtain ⟨y, hy⟩ := hd.whole hf.2
      rw [Nat.mul_comm] at hx hy
      have lx : x ≤ 100001 := Nat.le_of_mul_le_mul_right (by rw [← hx]; exact l1) e0
      have ly : y ≤ 100001 := Nat.le_of_mul_le_mul_right (by rw [← hy]; exact l2) e0
      have lyc : y * c ≤ 100001 * 10 := Nat.mul_le_mul ly hc
      have e : (F64.fin n).add ((F64.fin nd).scale c) = .fin (n + nd * c) := by
        rw [hx, hy, scale_whole y c (by omega), add_whole x (y * c) (by omega), Nat.add_mul, Nat.mul_right_comm]
      rw [hfr] at fin
      refine ⟨n + nd * c, fin _ e (by omega) (by omega) (fun _ => ?_), by omega, by omega⟩
      rw [hx, hy, Nat.mul_right_comm, ← Nat.add_mul]
      exact Nat.dvd_mul_left _ _

/-- The amounts as read. -/
def RawInv (m : FMap) (r : RelUnit → Nat) (fr has : RelUnit → Bool) : Prop :=
  ∀ u : RelUnit, KeyInv m u.name (r u) (100001 * fOne) (fr u) (has u) ∧ (has u = false → r u = 0)

/-- Length of the amounts as read. -/
def rawTotal (r : RelUnit → Nat) : Nat :=
  311040000 * r .decade + 31104000 * r .year + 2592000 * r .month + 604800 * r .week + 86400 * r .day +
    3600 * r .hour + 60 * r .minute + r .second

def endFr (fr : RelUnit → Bool) (u : RelUnit) : Bool :=
  match u with
  | .year => fr .year || fr .decade
  | .day => fr .day || fr .week
  | u => fr u

theorem raw_merge {m : FMap} {r : RelUnit → Nat} {fr has : RelUnit → Bool} (h : RawInv m r fr has) :
    ∃ a, MapInv (mergeWeek (mergeDecade m)) a (100002 * fOne) (endFr fr) (endFr has) ∧
      a.total ≤ rawTotal r + 62380800 * fEps ∧ rawTotal r ≤ a.total + 62380800 * fEps ∧
      (mergeWeek (mergeDecade m)).get "decade".toList = none ∧ (mergeWeek (mergeDecade m)).get "week".toList = none := by
  have e0 := fOne_pos
  have gD := mergeDecade_get m
  have gW := mergeWeek_get (mergeDecade m)
  obtain ⟨y, iy, y1, y2⟩ := merge_amount (m' := mergeDecade m) (c := 10) (by decide) (h .year).1 (h .decade).1 (h .decade).2 (gD .year)
  have hD : ∀ u : RelUnit, u ≠ .decade → u ≠ .year → KeyInv (mergeDecade m) u.name (r u) (100001 * fOne) (fr u) (has u) := by
    intro u h1 h2
    apply (h u).1.of_get
    rw [gD u, if_neg h1, if_neg h2]
  obtain ⟨d, id, d1, d2⟩ := merge_amount (m' := mergeWeek (mergeDecade m)) (c := 7) (by decide) (hD .day (by decide) (by decide))
    (hD .week (by decide) (by decide)) (h .week).2 (gW .day)
  have hW : ∀ u : RelUnit, u ≠ .week → u ≠ .day → (mergeWeek (mergeDecade m)).get u.name = (mergeDecade m).get u.name := by
    intro u h1 h2
    rw [gW u, if_neg h1, if_neg h2]
  refine ⟨⟨y, r .month, d, r .hour, r .minute, r .second⟩, ⟨?_, ?_, ?_, ?_, ?_, ?_⟩, ?_, ?_, ?_, ?_⟩
  · exact iy.of_get (hW .year (by decide) (by decide))
  · exact ((hD .month (by decide) (by decide)).of_get (hW .month (by decide) (by decide))).weaken (by omega)
  · exact id
  · exact ((hD .hour (by decide) (by decide)).of_get (hW .hour (by decide) (by decide))).weaken (by omega)
  · exact ((hD .minute (by decide) (by decide)).of_get (hW .minute (by decide) (by decide))).weaken (by omega)
  · exact ((hD .second (by decide) (by decide)).of_get (hW .second (by decide) (by decide))).weaken (by omega)
  · simp only [Amt.total, rawTotal]; omega
  · simp only [Amt.total, rawTotal]; omega
  · have := gW .decade; have := gD .decade; simp_all [RelUnit.name]
  · have := gW .week; simp_all [RelUnit.name]

/-- An amount as read: off by at most 2⁻³⁷. -/
theorem item_err {i : Item} (h : i.OK) (hlt : number i.whole < 100000) :
    ∃ v, amountValue i.amount = .fin v ∧ v ≤ 100001 * fOne ∧ (i.fractional = false → fOne ∣ v) ∧
      32 * (v * 10 ^ i.decimals.length) ≤ 32 * ((number (i.whole ++ i.decimals)).toNat * fOne) + fEps * 10 ^ i.decimals.length ∧
      32 * ((number (i.whole ++ i.decimals)).toNat * fOne) ≤ 32 * (v * 10 ^ i.decimals.length) + fEps * 10 ^ i.decimals.length := by
  have e0 := fOne_pos
  have e1 := fOne_eps
  have hden : 0 < 10 ^ i.decimals.length := Nat.pow_pos (by decide)
  have hN : (number (i.whole ++ i.decimals)).toNat < 100000 * 10 ^ i.decimals.length := by
    rw [number_eq, natOfDigits_append]
    have r1 := natOfDigits_range (item_decimals h)
    have r2 := natOfDigits_range h.whole.2
    rw [number_eq] at hlt
    have : natOfDigits i.whole * 10 ^ i.decimals.length ≤ 99999 * 10 ^ i.decimals.length :=
      Int.mul_le_mul_of_nonneg_right (by omega) (by exact_mod_cast Nat.le_of_lt hden)
    have hc : ((10 : Int) ^ i.decimals.length) = ((10 ^ i.decimals.length : Nat) : Int) := by simp
    rw [hc] at this r1 ⊢
    generalize natOfDigits i.whole * ((10 ^ i.decimals.length : Nat) : Int) = q at *
    generalize 10 ^ i.decimals.length = P at *
    omega
  have hw : i.fractional = false → amountValue i.amount = .fin ((number i.whole).toNat * fOne) :=
    fun hf => item_whole h hf (by omega)
  have hNF : (number (i.whole ++ i.decimals)).toNat * fOne < 100000 * fOne * 10 ^ i.decimals.length := by
    rw [Nat.mul_right_comm]
    exact Nat.mul_lt_mul_of_pos_right hN e0
  obtain ⟨v, v1, v2, v3⟩ := round_err ((number (i.whole ++ i.decimals)).toNat * fOne) (10 ^ i.decimals.length) 17 hden (by decide) (by
    rw [Nat.add_comm, Nat.pow_add, ← fOne_eq]
    refine Nat.lt_of_lt_of_le hNF ?_
    rw [Nat.mul_assoc, Nat.mul_assoc]
    exact Nat.mul_le_mul_right _ (by decide))
  have e : 32 * 2 ^ (1020 + 17) = fEps := by
    rw [fEps_eq, show (32 : Nat) = 2 ^ 5 by decide, ← Nat.pow_add]
  have hv : amountValue i.amount = .fin v := by
    rw [amountValue_item h]
    unfold F64.ofDecimal
    rw [← number_eq]
    exact v1
  generalize 2 ^ (1020 + 17) = H at *
  rw [← e, Nat.mul_assoc]
  refine ⟨v, hv, ?_, ?_, by omega, by omega⟩
  · have : v * 10 ^ i.decimals.length < 100001 * fOne * 10 ^ i.decimals.length := by
      have : H * 10 ^ i.decimals.length ≤ fOne * 10 ^ i.decimals.length := Nat.mul_le_mul_right _ (by omega)
      rw [show 100001 * fOne = 100000 * fOne + fOne by omega, Nat.add_mul]
      omega
    exact Nat.le_of_lt (Nat.lt_of_mul_lt_mul_right this)
  · intro hf
    have := hw hf
    rw [hv] at this
    injection this with this
    rw [this]
    exact Nat.dvd_mul_left _ _

end Verif.Lemmas
