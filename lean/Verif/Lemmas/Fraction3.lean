import Verif.Lemmas.Fraction2
import Verif.Spec.Fraction
/-! Helper lemmas: a phrase with fractions turned into parts. -/
set_option autoImplicit false
namespace Verif.Lemmas
open Verif.Go Verif.Model Verif.Spec

theorem spread_second {m : FMap} {a : Amt} {lim : Nat} {fr has : RelUnit → Bool} (h : MapInv m a lim fr has) :
    ∃ a', MapInv (spreadUnit m "second".toList) a' (lim + 61 * fOne) (off fr .second) has ∧
      2 * a'.total ≤ 2 * a.total + (if fr .second then fOne else 0) ∧
      2 * a.total ≤ 2 * a'.total + (if fr .second then fOne else 0) := by
  have e0 := fOne_pos
  have hoff : ∀ v, v ≠ RelUnit.second → off fr .second v = fr v := fun v hv => by simp [off, hv]
  have hoff' : off fr .second .second = false := by simp [off]
  by_cases hd : fOne ∣ a.s
  · rw [spread_none h.s hd]
    refine ⟨a, MapInv.weaken (lim := lim) ?_ (by omega), by split <;> omega, by split <;> omega⟩
    have hq : KeyInv m "second".toList a.s _ false (has .second) := ⟨h.s.val, h.s.le, fun _ => hd, h.s.some, fun _ => rfl⟩
    exact ⟨by rw [hoff _ (by decide)]; exact h.y, by rw [hoff _ (by decide)]; exact h.mo, by rw [hoff _ (by decide)]; exact h.d,
      by rw [hoff _ (by decide)]; exact h.h, by rw [hoff _ (by decide)]; exact h.mi, by rw [hoff']; exact hq⟩
  · have hfr : fr .second = true := by
      cases hf : fr .second with
      | true => rfl
      | false => exact absurd (h.s.whole hf) hd
    have hg := get_of_frac h.s hd
    obtain ⟨q1, q2, q3, q4⟩ := splitFraction_eq a.s
    rw [spreadUnit_second m a.s hg (fun hx => hd (q4.mp hx))]
    have hdm := Nat.div_add_mod (2 * a.s + fOne) (2 * fOne)
    have hml := Nat.mod_lt (2 * a.s + fOne) (show 0 < 2 * fOne by omega)
    have em : 2 * fOne * ((2 * a.s + fOne) / (2 * fOne)) = 2 * ((2 * a.s + fOne) / (2 * fOne) * fOne) := by
      rw [Nat.mul_assoc, Nat.mul_comm fOne]
    rw [em] at hdm
    have hdv : fOne ∣ (2 * a.s + fOne) / (2 * fOne) * fOne := Nat.dvd_mul_left _ _
    generalize (2 * a.s + fOne) / (2 * fOne) * fOne = r at *
    generalize (2 * a.s + fOne) % (2 * fOne) = t at *
    have k := h.s.set hd r (by omega) hdv
    refine ⟨⟨a.y, a.mo, a.d, a.h, a.mi, r⟩, ⟨?_, ?_, ?_, ?_, ?_, ?_⟩, ?_, ?_⟩
    · rw [hoff _ (by decide)]; exact (h.y.set_other _ _ (by decide)).weaken (by omega)
    · rw [hoff _ (by decide)]; exact (h.mo.set_other _ _ (by decide)).weaken (by omega)
    · rw [hoff _ (by decide)]; exact (h.d.set_other _ _ (by decide)).weaken (by omega)
    · rw [hoff _ (by decide)]; exact (h.h.set_other _ _ (by decide)).weaken (by omega)
    · rw [hoff _ (by decide)]; exact (h.mi.set_other _ _ (by decide)).weaken (by omega)
    · rw [hoff']; exact k
    · simp only [Amt.total, hfr, if_true]; omega
    · simp only [Amt.total, hfr, if_true]; omega

theorem addMapValue_get (m : FMap) (k k' : List Char) (v : Nat) (h : k' ≠ k) : (addMapValue m k v).get k' = m.get k' := by
  unfold addMapValue
  split
  · rfl
  · rw [FMap.get_set, if_neg h]

/-- Only the six units are written. -/
theorem spreadUnit_get (m : FMap) (u k : List Char) (h : k ∉ ["year".toList, "month".toList, "day".toList, "hour".toList,
    "minute".toList, "second".toList]) : (spreadUnit m u).get k = m.get k := by
  simp only [List.mem_cons, List.not_mem_nil, or_false, not_or] at h
  obtain ⟨h1, h2, h3, h4, h5, h6⟩ := h
  unfold spreadUnit
  split
  · rfl
  · rfl
  · split
    · rfl
    · simp only
      repeat' split
      all_goals simp only [addMapValue_get _ _ _ _ h1, addMapValue_get _ _ _ _ h2, addMapValue_get _ _ _ _ h3,
        addMapValue_get _ _ _ _ h4, addMapValue_get _ _ _ _ h5, addMapValue_get _ _ _ _ h6, FMap.get_set, if_neg h1,
        if_neg h2, if_neg h3, if_neg h4, if_neg h5, if_neg h6]

theorem spreadUnit_absent (m : FMap) (u : List Char) (h : m.get u = none) : spreadUnit m u = m := by
  unfold spreadUnit; rw [h]

/-- Number of units above seconds that have a fraction. -/
def frCount (fr : RelUnit → Bool) : Nat :=
  (fr .year).toNat + (fr .month).toNat + (fr .day).toNat + (fr .hour).toNat + (fr .minute).toNat

/-- All fractions spread. -/
theorem spread_all {m : FMap} {a : Amt} {lim : Nat} {fr has : RelUnit → Bool} (h : MapInv m a lim fr has)
    (hl : lim ≤ 150000 * fOne) (hdec : m.get "decade".toList = none) (hwk : m.get "week".toList = none) :
    ∃ a', MapInv (relativeUnits.foldl spreadUnit m) a' (lim + 366 * fOne) (fun _ => false) has ∧
      2 * a'.total ≤ 2 * a.total + (if fr .second then fOne else 0) + 11103380 * fEps ∧
      2 * a.total ≤ 2 * a'.total + 2 * (frCount fr * fOne) + (if fr .second then fOne else 0) + 11103380 * fEps := by
  have e0 := fOne_pos
  have hbt : ∀ b : Bool, (if b then fOne else 0) = b.toNat * fOne := by intro b; cases b <;> simp
  have o : ∀ (f : RelUnit → Bool) (u v : RelUnit), v ≠ u → off f u v = f v := fun f u v hv => by simp [off, hv]
  obtain ⟨a1, i1, p1, r1⟩ := spread_year h (by omega)
  obtain ⟨a2, i2, p2, r2⟩ := spread_month i1 (by omega)
  obtain ⟨a3, i3, p3, r3⟩ := spread_day i2 (by omega)
  obtain ⟨a4, i4, p4, r4⟩ := spread_hour i3 (by omega)
  obtain ⟨a5, i5, p5, r5⟩ := spread_minute i4 (by omega)
  obtain ⟨a6, i6, p6, r6⟩ := spread_second i5
  refine ⟨a6, ?_, ?_, ?_⟩
  · have hm : relativeUnits.foldl spreadUnit m = spreadUnit (spreadUnit (spreadUnit (spreadUnit (spreadUnit (spreadUnit m
        "year".toList) "month".toList) "day".toList) "hour".toList) "minute".toList) "second".toList := by
      unfold relativeUnits
      simp only [List.foldl_cons, List.foldl_nil]
      rw [spreadUnit_absent m _ hdec, spreadUnit_absent _ "week".toList
        (by rw [spreadUnit_get _ _ _ (by decide), spreadUnit_get _ _ _ (by decide)]; exact hwk)]
    rw [hm]
    have i7 := i6.weaken (show _ ≤ lim + 366 * fOne by omega)
    exact ⟨by simpa [off] using i7.y, by simpa [off] using i7.mo, by simpa [off] using i7.d, by simpa [off] using i7.h, by simpa [off] using i7.mi, by simpa [off] using i7.s⟩
  · simp only [hbt] at *
    rw [o _ _ _ (by decide), o _ _ _ (by decide), o _ _ _ (by decide), o _ _ _ (by decide), o _ _ _ (by decide)] at p6
    omega
  · unfold frCount
    simp only [hbt] at *
    rw [o _ _ _ (by decide), o _ _ _ (by decide), o _ _ _ (by decide), o _ _ _ (by decide), o _ _ _ (by decide)] at r6
    rw [o _ _ _ (by decide)] at r2
    rw [o _ _ _ (by decide), o _ _ _ (by decide)] at r3
    rw [o _ _ _ (by decide), o _ _ _ (by decide), o _ _ _ (by decide)] at r4
    rw [o _ _ _ (by decide), o _ _ _ (by decide), o _ _ _ (by decide), o _ _ _ (by decide)] at r5
    simp only [Nat.add_mul]
    omega

end Verif.Lemmas
