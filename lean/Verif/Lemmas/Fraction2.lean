import Verif.Lemmas.Fraction
/-! Helper lemmas: a fraction spread over the smaller units. -/
set_option autoImplicit false
namespace Verif.Lemmas
open Verif.Go Verif.Model Verif.Spec

theorem chain_minute (f x g E F : Nat) (t : x + g ≤ f * 60 + E) (r : f * 60 ≤ x + g + E) (b : g < F) :
    1 * x + 0 ≤ 60 * f + 1 * E ∧ 60 * f ≤ 1 * x + 0 + F + 1 * E := by omega
theorem chain_hour (f x g y E F : Nat) (t : x + g ≤ f * 60 + E) (r : f * 60 ≤ x + g + E)
    (h : y ≤ 60 * g + 1 * E ∧ 60 * g ≤ y + F + 1 * E) :
    60 * x + y ≤ 3600 * f + 61 * E ∧ 3600 * f ≤ 60 * x + y + F + 61 * E := by omega
theorem chain_day (f x g y E F : Nat) (t : x + g ≤ f * 24 + E) (r : f * 24 ≤ x + g + E)
    (h : y ≤ 3600 * g + 61 * E ∧ 3600 * g ≤ y + F + 61 * E) :
    3600 * x + y ≤ 86400 * f + 3661 * E ∧ 86400 * f ≤ 3600 * x + y + F + 3661 * E := by omega
theorem chain_month (f x g y E F : Nat) (t : x + g ≤ f * 30 + E) (r : f * 30 ≤ x + g + E)
    (h : y ≤ 86400 * g + 3661 * E ∧ 86400 * g ≤ y + F + 3661 * E) :
    86400 * x + y ≤ 2592000 * f + 90061 * E ∧ 2592000 * f ≤ 86400 * x + y + F + 90061 * E := by omega
theorem chain_year (f x g y E F : Nat) (t : x + g ≤ f * 12 + E) (r : f * 12 ≤ x + g + E)
    (h : y ≤ 2592000 * g + 90061 * E ∧ 2592000 * g ≤ y + F + 90061 * E) :
    2592000 * x + y ≤ 31104000 * f + 2682061 * E ∧ 31104000 * f ≤ 2592000 * x + y + F + 2682061 * E := by omega
theorem sum_step (s n n' x A A' X E c : Nat) (u : n' ≤ n + x + E) (v : n + x ≤ n' + E)
   (h : A' ≤ A + X + c * E ∧ A + X ≤ A' + c * E) : s * n' + A' ≤ (s * n + A) + (s * x + X) + (s + c) * E ∧ (s * n + A) + (s * x + X) ≤ s * n' + A' + (s + c) * E := by
  have h1 := Nat.mul_le_mul_left s u
  have h2 := Nat.mul_le_mul_left s v
  simp only [Nat.mul_add, Nat.add_mul] at *
  omega

theorem fin_step (P S v f a A A' X E F c c2 : Nat) (q : v + f = a)
    (h : A' ≤ A + X + c * E ∧ A + X ≤ A' + c * E) (g : X ≤ S * f + c2 * E ∧ S * f ≤ X + F + c2 * E) :
    P + (S * v + A') ≤ P + (S * a + A) + (c + c2) * E ∧ P + (S * a + A) ≤ P + (S * v + A') + F + (c + c2) * E := by
  subst q
  simp only [Nat.mul_add, Nat.add_mul] at *
  omega

theorem spreadUnit_year (m : FMap) (n : Nat) (hg : m.get "year".toList = some (.fin n))
    (h : ¬ (splitFraction n).2 = 0) (x1 g1 x2 g2 x3 g3 x4 g4 x5 g5 : Nat) (s1 : splitScaled (splitFraction n).2 12 = (x1, g1)) (s2 : splitScaled g1 30 = (x2, g2)) (s3 : splitScaled g2 24 = (x3, g3)) (s4 : splitScaled g3 60 = (x4, g4)) (s5 : splitScaled g4 60 = (x5, g5)) :
    spreadUnit m "year".toList = (addMapValue (addMapValue (addMapValue (addMapValue (addMapValue (m.set "year".toList (.fin (splitFraction n).1)) "month".toList x1) "day".toList x2) "hour".toList x3) "minute".toList x4) "second".toList x5) := by
  unfold spreadUnit
  rw [hg]
  simp only
  rw [if_neg h, if_pos trivial]
  simp only [s1, s2, s3, s4, s5]

theorem spreadUnit_month (m : FMap) (n : Nat) (hg : m.get "month".toList = some (.fin n))
    (h : ¬ (splitFraction n).2 = 0) (x2 g2 x3 g3 x4 g4 x5 g5 : Nat) (s2 : splitScaled (splitFraction n).2 30 = (x2, g2)) (s3 : splitScaled g2 24 = (x3, g3)) (s4 : splitScaled g3 60 = (x4, g4)) (s5 : splitScaled g4 60 = (x5, g5)) :
    spreadUnit m "month".toList = (addMapValue (addMapValue (addMapValue (addMapValue (m.set "month".toList (.fin (splitFraction n).1)) "day".toList x2) "hour".toList x3) "minute".toList x4) "second".toList x5) := by
  unfold spreadUnit
  rw [hg]
  simp only
  rw [if_neg h, if_neg (by decide), if_pos trivial]
  simp only [s2, s3, s4, s5]

theorem spreadUnit_day (m : FMap) (n : Nat) (hg : m.get "day".toList = some (.fin n))
    (h : ¬ (splitFraction n).2 = 0) (x3 g3 x4 g4 x5 g5 : Nat) (s3 : splitScaled (splitFraction n).2 24 = (x3, g3)) (s4 : splitScaled g3 60 = (x4, g4)) (s5 : splitScaled g4 60 = (x5, g5)) :
    spreadUnit m "day".toList = (addMapValue (addMapValue (addMapValue (m.set "day".toList (.fin (splitFraction n).1)) "hour".toList x3) "minute".toList x4) "second".toList x5) := by
  unfold spreadUnit
  rw [hg]
  simp only
  rw [if_neg h, if_neg (by decide), if_neg (by decide), if_pos trivial]
  simp only [s3, s4, s5]

theorem spreadUnit_hour (m : FMap) (n : Nat) (hg : m.get "hour".toList = some (.fin n))
    (h : ¬ (splitFraction n).2 = 0) (x4 g4 x5 g5 : Nat) (s4 : splitScaled (splitFraction n).2 60 = (x4, g4)) (s5 : splitScaled g4 60 = (x5, g5)) :
    spreadUnit m "hour".toList = (addMapValue (addMapValue (m.set "hour".toList (.fin (splitFraction n).1)) "minute".toList x4) "second".toList x5) := by
  unfold spreadUnit
  rw [hg]
  simp only
  rw [if_neg h, if_neg (by decide), if_neg (by decide), if_neg (by decide), if_pos trivial]
  simp only [s4, s5]

theorem spreadUnit_minute (m : FMap) (n : Nat) (hg : m.get "minute".toList = some (.fin n))
    (h : ¬ (splitFraction n).2 = 0) (x5 g5 : Nat) (s5 : splitScaled (splitFraction n).2 60 = (x5, g5)) :
    spreadUnit m "minute".toList = (addMapValue (m.set "minute".toList (.fin (splitFraction n).1)) "second".toList x5) := by
  unfold spreadUnit
  rw [hg]
  simp only
  rw [if_neg h, if_neg (by decide), if_neg (by decide), if_neg (by decide), if_neg (by decide), if_pos trivial]
  simp only [s5]

theorem spreadUnit_second (m : FMap) (n : Nat) (hg : m.get "second".toList = some (.fin n))
    (h : ¬ (splitFraction n).2 = 0) : spreadUnit m "second".toList =
      m.set "second".toList (.fin ((2 * n + fOne) / (2 * fOne) * fOne)) := by
  unfold spreadUnit
  rw [hg]
  simp only
  rw [if_neg h, if_neg (by decide), if_neg (by decide), if_neg (by decide), if_neg (by decide), if_neg (by decide), if_pos trivial]

/-- What is known of the whole map. -/
structure MapInv (m : FMap) (a : Amt) (lim : Nat) (fr has : RelUnit → Bool) : Prop where
  y : KeyInv m "year".toList a.y (11 * lim) (fr .year) (has .year)
  mo : KeyInv m "month".toList a.mo lim (fr .month) (has .month)
  d : KeyInv m "day".toList a.d (11 * lim) (fr .day) (has .day)
  h : KeyInv m "hour".toList a.h lim (fr .hour) (has .hour)
  mi : KeyInv m "minute".toList a.mi lim (fr .minute) (has .minute)
  s : KeyInv m "second".toList a.s lim (fr .second) (has .second)

/-- A unit made whole. -/
def off (fr : RelUnit → Bool) (u : RelUnit) : RelUnit → Bool := fun v => fr v && v != u

theorem MapInv.weaken {m : FMap} {a : Amt} {lim lim' : Nat} {fr has : RelUnit → Bool} (h : MapInv m a lim fr has)
    (hl : lim ≤ lim') : MapInv m a lim' fr has :=
  ⟨h.y.weaken (by omega), h.mo.weaken hl, h.d.weaken (by omega), h.h.weaken hl, h.mi.weaken hl, h.s.weaken hl⟩

theorem spread_year {m : FMap} {a : Amt} {lim : Nat} {fr has : RelUnit → Bool} (h : MapInv m a lim fr has)
    (hl : lim ≤ 200000 * fOne) : ∃ a', MapInv (spreadUnit m "year".toList) a' (lim + 61 * fOne) (off fr .year) has ∧
      a'.total ≤ a.total + 5364122 * fEps ∧
      a.total ≤ a'.total + (if fr .year then fOne else 0) + 5364122 * fEps := by
  have e0 := fOne_pos
  have hoff : ∀ v, v ≠ RelUnit.year → off fr .year v = fr v := fun v hv => by simp [off, hv]
  have hoff' : off fr .year .year = false := by simp [off]
  by_cases hd : fOne ∣ a.y
  · rw [spread_none h.y hd]
    refine ⟨a, MapInv.weaken (lim := lim) ?_ (by omega), by omega, by split <;> omega⟩
    have hq : KeyInv m "year".toList a.y _ false (has .year) := ⟨h.y.val, h.y.le, fun _ => hd, h.y.some, fun _ => rfl⟩
    exact ⟨by rw [hoff']; exact hq, by rw [hoff _ (by decide)]; exact h.mo, by rw [hoff _ (by decide)]; exact h.d, by rw [hoff _ (by decide)]; exact h.h, by rw [hoff _ (by decide)]; exact h.mi, by rw [hoff _ (by decide)]; exact h.s⟩
  · have hfr : fr .year = true := by
      cases hf : fr .year with
      | true => rfl
      | false => exact absurd (h.y.whole hf) hd
    have hg := get_of_frac h.y hd
    obtain ⟨q1, q2, q3, q4⟩ := splitFraction_eq a.y
    have q5 : ¬ (splitFraction a.y).2 = 0 := fun hx => hd (q4.mp hx)
    have k0 := h.y.set hd (splitFraction a.y).1 (by omega) q3
    obtain ⟨w1, g1, s1, l1, b1, t1, r1⟩ := splitScaled_err (splitFraction a.y).2 12 q2 (by decide)
    obtain ⟨w2, g2, s2, l2, b2, t2, r2⟩ := splitScaled_err g1 30 b1 (by decide)
    obtain ⟨w3, g3, s3, l3, b3, t3, r3⟩ := splitScaled_err g2 24 b2 (by decide)
    obtain ⟨w4, g4, s4, l4, b4, t4, r4⟩ := splitScaled_err g3 60 b3 (by decide)
    obtain ⟨w5, g5, s5, l5, b5, t5, r5⟩ := splitScaled_err g4 60 b4 (by decide)
    have K0 := (((((k0.add_other "month".toList (w1 * fOne) (by decide)).add_other "day".toList (w2 * fOne) (by decide)).add_other "hour".toList (w3 * fOne) (by decide)).add_other "minute".toList (w4 * fOne) (by decide)).add_other "second".toList (w5 * fOne) (by decide))
    obtain ⟨n1, A1, u1, v1⟩ := KeyInv.add (h.mo.set_other "year".toList (.fin (splitFraction a.y).1) (by decide)) w1 l1 (by omega)
    have K1 := ((((A1.add_other "day".toList (w2 * fOne) (by decide)).add_other "hour".toList (w3 * fOne) (by decide)).add_other "minute".toList (w4 * fOne) (by decide)).add_other "second".toList (w5 * fOne) (by decide))
    obtain ⟨n2, A2, u2, v2⟩ := KeyInv.add ((h.d.set_other "year".toList (.fin (splitFraction a.y).1) (by decide)).add_other "month".toList (w1 * fOne) (by decide)) w2 l2 (by omega)
    have K2 := (((A2.add_other "hour".toList (w3 * fOne) (by decide)).add_other "minute".toList (w4 * fOne) (by decide)).add_other "second".toList (w5 * fOne) (by decide))
    obtain ⟨n3, A3, u3, v3⟩ := KeyInv.add (((h.h.set_other "year".toList (.fin (splitFraction a.y).1) (by decide)).add_other "month".toList (w1 * fOne) (by decide)).add_other "day".toList (w2 * fOne) (by decide)) w3 l3 (by omega)
    have K3 := ((A3.add_other "minute".toList (w4 * fOne) (by decide)).add_other "second".toList (w5 * fOne) (by decide))
    obtain ⟨n4, A4, u4, v4⟩ := KeyInv.add ((((h.mi.set_other "year".toList (.fin (splitFraction a.y).1) (by decide)).add_other "month".toList (w1 * fOne) (by decide)).add_other "day".toList (w2 * fOne) (by decide)).add_other "hour".toList (w3 * fOne) (by decide)) w4 l4 (by omega)
    have K4 := (A4.add_other "second".toList (w5 * fOne) (by decide))
    obtain ⟨n5, A5, u5, v5⟩ := KeyInv.add (((((h.s.set_other "year".toList (.fin (splitFraction a.y).1) (by decide)).add_other "month".toList (w1 * fOne) (by decide)).add_other "day".toList (w2 * fOne) (by decide)).add_other "hour".toList (w3 * fOne) (by decide)).add_other "minute".toList (w4 * fOne) (by decide)) w5 l5 (by omega)
    have K5 := A5
    have hm : spreadUnit m "year".toList = (addMapValue (addMapValue (addMapValue (addMapValue (addMapValue (m.set "year".toList (.fin (splitFraction a.y).1)) "month".toList (w1 * fOne)) "day".toList (w2 * fOne)) "hour".toList (w3 * fOne)) "minute".toList (w4 * fOne)) "second".toList (w5 * fOne)) :=
      spreadUnit_year m a.y hg q5 _ _ _ _ _ _ _ _ _ _ s1 s2 s3 s4 s5
    rw [hm]
    refine ⟨⟨(splitFraction a.y).1, n1, n2, n3, n4, n5⟩, ⟨?_, ?_, ?_, ?_, ?_, ?_⟩, ?_, ?_⟩
    · rw [hoff']; exact K0.weaken (by omega)
    · rw [hoff _ (by decide)]; exact K1.weaken (by omega)
    · rw [hoff _ (by decide)]; exact K2.weaken (by omega)
    · rw [hoff _ (by decide)]; exact K3.weaken (by omega)
    · rw [hoff _ (by decide)]; exact K4.weaken (by omega)
    · rw [hoff _ (by decide)]; exact K5.weaken (by omega)
    · have := (fin_step 0 31104000 _ _ _ _ _ _ _ fOne _ _ q1 (sum_step 2592000 _ _ _ _ _ _ _ _ u1 v1 (sum_step 86400 _ _ _ _ _ _ _ _ u2 v2 (sum_step 3600 _ _ _ _ _ _ _ _ u3 v3 (sum_step 60 _ _ _ _ _ _ _ _ u4 v4 (sum_step 1 _ _ _ _ _ _ _ _ u5 v5 (by omega : (0:Nat) ≤ 0 + 0 + 0 * fEps ∧ (0:Nat) + 0 ≤ 0 + 0 * fEps)))))) (chain_year _ _ _ _ _ _ t1 r1 (chain_month _ _ _ _ _ _ t2 r2 (chain_day _ _ _ _ _ _ t3 r3 (chain_hour _ _ _ _ _ _ t4 r4 (chain_minute _ _ _ _ _ t5 r5 b5)))))).1
      simp only [Amt.total]; omega
    · have := (fin_step 0 31104000 _ _ _ _ _ _ _ fOne _ _ q1 (sum_step 2592000 _ _ _ _ _ _ _ _ u1 v1 (sum_step 86400 _ _ _ _ _ _ _ _ u2 v2 (sum_step 3600 _ _ _ _ _ _ _ _ u3 v3 (sum_step 60 _ _ _ _ _ _ _ _ u4 v4 (sum_step 1 _ _ _ _ _ _ _ _ u5 v5 (by omega : (0:Nat) ≤ 0 + 0 + 0 * fEps ∧ (0:Nat) + 0 ≤ 0 + 0 * fEps)))))) (chain_year _ _ _ _ _ _ t1 r1 (chain_month _ _ _ _ _ _ t2 r2 (chain_day _ _ _ _ _ _ t3 r3 (chain_hour _ _ _ _ _ _ t4 r4 (chain_minute _ _ _ _ _ t5 r5 b5)))))).2
      simp only [Amt.total, hfr, if_true]; omega

theorem spread_month {m : FMap} {a : Amt} {lim : Nat} {fr has : RelUnit → Bool} (h : MapInv m a lim fr has)
    (hl : lim ≤ 200000 * fOne) : ∃ a', MapInv (spreadUnit m "month".toList) a' (lim + 61 * fOne) (off fr .month) has ∧
      a'.total ≤ a.total + 180122 * fEps ∧
      a.total ≤ a'.total + (if fr .month then fOne else 0) + 180122 * fEps := by
  have e0 := fOne_pos
  have hoff : ∀ v, v ≠ RelUnit.month → off fr .month v = fr v := fun v hv => by simp [off, hv]
  have hoff' : off fr .month .month = false := by simp [off]
  by_cases hd : fOne ∣ a.mo
  · rw [spread_none h.mo hd]
    refine ⟨a, MapInv.weaken (lim := lim) ?_ (by omega), by omega, by split <;> omega⟩
    have hq : KeyInv m "month".toList a.mo _ false (has .month) := ⟨h.mo.val, h.mo.le, fun _ => hd, h.mo.some, fun _ => rfl⟩
    exact ⟨by rw [hoff _ (by decide)]; exact h.y, by rw [hoff']; exact hq, by rw [hoff _ (by decide)]; exact h.d, by rw [hoff _ (by decide)]; exact h.h, by rw [hoff _ (by decide)]; exact h.mi, by rw [hoff _ (by decide)]; exact h.s⟩
  · have hfr : fr .month = true := by
      cases hf : fr .month with
      | true => rfl
      | false => exact absurd (h.mo.whole hf) hd
    have hg := get_of_frac h.mo hd
    obtain ⟨q1, q2, q3, q4⟩ := splitFraction_eq a.mo
    have q5 : ¬ (splitFraction a.mo).2 = 0 := fun hx => hd (q4.mp hx)
    have k0 := h.mo.set hd (splitFraction a.mo).1 (by omega) q3
    obtain ⟨w2, g2, s2, l2, b2, t2, r2⟩ := splitScaled_err (splitFraction a.mo).2 30 q2 (by decide)
    obtain ⟨w3, g3, s3, l3, b3, t3, r3⟩ := splitScaled_err g2 24 b2 (by decide)
    obtain ⟨w4, g4, s4, l4, b4, t4, r4⟩ := splitScaled_err g3 60 b3 (by decide)
    obtain ⟨w5, g5, s5, l5, b5, t5, r5⟩ := splitScaled_err g4 60 b4 (by decide)
    have K0 := (((((h.y.set_other "month".toList (.fin (splitFraction a.mo).1) (by decide)).add_other "day".toList (w2 * fOne) (by decide)).add_other "hour".toList (w3 * fOne) (by decide)).add_other "minute".toList (w4 * fOne) (by decide)).add_other "second".toList (w5 * fOne) (by decide))
    have K1 := ((((k0.add_other "day".toList (w2 * fOne) (by decide)).add_other "hour".toList (w3 * fOne) (by decide)).add_other "minute".toList (w4 * fOne) (by decide)).add_other "second".toList (w5 * fOne) (by decide))
    obtain ⟨n2, A2, u2, v2⟩ := KeyInv.add (h.d.set_other "month".toList (.fin (splitFraction a.mo).1) (by decide)) w2 l2 (by omega)
    have K2 := (((A2.add_other "hour".toList (w3 * fOne) (by decide)).add_other "minute".toList (w4 * fOne) (by decide)).add_other "second".toList (w5 * fOne) (by decide))
    obtain ⟨n3, A3, u3, v3⟩ := KeyInv.add ((h.h.set_other "month".toList (.fin (splitFraction a.mo).1) (by decide)).add_other "day".toList (w2 * fOne) (by decide)) w3 l3 (by omega)
    have K3 := ((A3.add_other "minute".toList (w4 * fOne) (by decide)).add_other "second".toList (w5 * fOne) (by decide))
    obtain ⟨n4, A4, u4, v4⟩ := KeyInv.add (((h.mi.set_other "month".toList (.fin (splitFraction a.mo).1) (by decide)).add_other "day".toList (w2 * fOne) (by decide)).add_other "hour".toList (w3 * fOne) (by decide)) w4 l4 (by omega)
    have K4 := (A4.add_other "second".toList (w5 * fOne) (by decide))
    obtain ⟨n5, A5, u5, v5⟩ := KeyInv.add ((((h.s.set_other "month".toList (.fin (splitFraction a.mo).1) (by decide)).add_other "day".toList (w2 * fOne) (by decide)).add_other "hour".toList (w3 * fOne) (by decide)).add_other "minute".toList (w4 * fOne) (by decide)) w5 l5 (by omega)
    have K5 := A5
    have hm : spreadUnit m "month".toList = (addMapValue (addMapValue (addMapValue (addMapValue (m.set "month".toList (.fin (splitFraction a.mo).1)) "day".toList (w2 * fOne)) "hour".toList (w3 * fOne)) "minute".toList (w4 * fOne)) "second".toList (w5 * fOne)) :=
      spreadUnit_month m a.mo hg q5 _ _ _ _ _ _ _ _ s2 s3 s4 s5
    rw [hm]
    refine ⟨⟨a.y, (splitFraction a.mo).1, n2, n3, n4, n5⟩, ⟨?_, ?_, ?_, ?_, ?_, ?_⟩, ?_, ?_⟩
    · rw [hoff _ (by decide)]; exact K0.weaken (by omega)
    · rw [hoff']; exact K1.weaken (by omega)
    · rw [hoff _ (by decide)]; exact K2.weaken (by omega)
    · rw [hoff _ (by decide)]; exact K3.weaken (by omega)
    · rw [hoff _ (by decide)]; exact K4.weaken (by omega)
    · rw [hoff _ (by decide)]; exact K5.weaken (by omega)
    · have := (fin_step 0 2592000 _ _ _ _ _ _ _ fOne _ _ q1 (sum_step 86400 _ _ _ _ _ _ _ _ u2 v2 (sum_step 3600 _ _ _ _ _ _ _ _ u3 v3 (sum_step 60 _ _ _ _ _ _ _ _ u4 v4 (sum_step 1 _ _ _ _ _ _ _ _ u5 v5 (by omega : (0:Nat) ≤ 0 + 0 + 0 * fEps ∧ (0:Nat) + 0 ≤ 0 + 0 * fEps))))) (chain_month _ _ _ _ _ _ t2 r2 (chain_day _ _ _ _ _ _ t3 r3 (chain_hour _ _ _ _ _ _ t4 r4 (chain_minute _ _ _ _ _ t5 r5 b5))))).1
      simp only [Amt.total]; omega
    · have := (fin_step 0 2592000 _ _ _ _ _ _ _ fOne _ _ q1 (sum_step 86400 _ _ _ _ _ _ _ _ u2 v2 (sum_step 3600 _ _ _ _ _ _ _ _ u3 v3 (sum_step 60 _ _ _ _ _ _ _ _ u4 v4 (sum_step 1 _ _ _ _ _ _ _ _ u5 v5 (by omega : (0:Nat) ≤ 0 + 0 + 0 * fEps ∧ (0:Nat) + 0 ≤ 0 + 0 * fEps))))) (chain_month _ _ _ _ _ _ t2 r2 (chain_day _ _ _ _ _ _ t3 r3 (chain_hour _ _ _ _ _ _ t4 r4 (chain_minute _ _ _ _ _ t5 r5 b5))))).2
      simp only [Amt.total, hfr, if_true]; omega

theorem spread_day {m : FMap} {a : Amt} {lim : Nat} {fr has : RelUnit → Bool} (h : MapInv m a lim fr has)
    (hl : lim ≤ 200000 * fOne) : ∃ a', MapInv (spreadUnit m "day".toList) a' (lim + 61 * fOne) (off fr .day) has ∧
      a'.total ≤ a.total + 7322 * fEps ∧
      a.total ≤ a'.total + (if fr .day then fOne else 0) + 7322 * fEps := by
  have e0 := fOne_pos
  have hoff : ∀ v, v ≠ RelUnit.day → off fr .day v = fr v := fun v hv => by simp [off, hv]
  have hoff' : off fr .day .day = false := by simp [off]
  by_cases hd : fOne ∣ a.d
  · rw [spread_none h.d hd]
    refine ⟨a, MapInv.weaken (lim := lim) ?_ (by omega), by omega, by split <;> omega⟩
    have hq : KeyInv m "day".toList a.d _ false (has .day) := ⟨h.d.val, h.d.le, fun _ => hd, h.d.some, fun _ => rfl⟩
    exact ⟨by rw [hoff _ (by decide)]; exact h.y, by rw [hoff _ (by decide)]; exact h.mo, by rw [hoff']; exact hq, by rw [hoff _ (by decide)]; exact h.h, by rw [hoff _ (by decide)]; exact h.mi, by rw [hoff _ (by decide)]; exact h.s⟩
  · have hfr : fr .day = true := by
      cases hf : fr .day with
      | true => rfl
      | false => exact absurd (h.d.whole hf) hd
    have hg := get_of_frac h.d hd
    obtain ⟨q1, q2, q3, q4⟩ := splitFraction_eq a.d
    have q5 : ¬ (splitFraction a.d).2 = 0 := fun hx => hd (q4.mp hx)
    have k0 := h.d.set hd (splitFraction a.d).1 (by omega) q3
    obtain ⟨w3, g3, s3, l3, b3, t3, r3⟩ := splitScaled_err (splitFraction a.d).2 24 q2 (by decide)
    obtain ⟨w4, g4, s4, l4, b4, t4, r4⟩ := splitScaled_err g3 60 b3 (by decide)
    obtain ⟨w5, g5, s5, l5, b5, t5, r5⟩ := splitScaled_err g4 60 b4 (by decide)
    have K0 := ((((h.y.set_other "day".toList (.fin (splitFraction a.d).1) (by decide)).add_other "hour".toList (w3 * fOne) (by decide)).add_other "minute".toList (w4 * fOne) (by decide)).add_other "second".toList (w5 * fOne) (by decide))
    have K1 := ((((h.mo.set_other "day".toList (.fin (splitFraction a.d).1) (by decide)).add_other "hour".toList (w3 * fOne) (by decide)).add_other "minute".toList (w4 * fOne) (by decide)).add_other "second".toList (w5 * fOne) (by decide))
    have K2 := (((k0.add_other "hour".toList (w3 * fOne) (by decide)).add_other "minute".toList (w4 * fOne) (by decide)).add_other "second".toList (w5 * fOne) (by decide))
    obtain ⟨n3, A3, u3, v3⟩ := KeyInv.add (h.h.set_other "day".toList (.fin (splitFraction a.d).1) (by decide)) w3 l3 (by omega)
    have K3 := ((A3.add_other "minute".toList (w4 * fOne) (by decide)).add_other "second".toList (w5 * fOne) (by decide))
    obtain ⟨n4, A4, u4, v4⟩ := KeyInv.add ((h.mi.set_other "day".toList (.fin (splitFraction a.d).1) (by decide)).add_other "hour".toList (w3 * fOne) (by decide)) w4 l4 (by omega)
    have K4 := (A4.add_other "second".toList (w5 * fOne) (by decide))
    obtain ⟨n5, A5, u5, v5⟩ := KeyInv.add (((h.s.set_other "day".toList (.fin (splitFraction a.d).1) (by decide)).add_other "hour".toList (w3 * fOne) (by decide)).add_other "minute".toList (w4 * fOne) (by decide)) w5 l5 (by omega)
    have K5 := A5
    have hm : spreadUnit m "day".toList = (addMapValue (addMapValue (addMapValue (m.set "day".toList (.fin (splitFraction a.d).1)) "hour".toList (w3 * fOne)) "minute".toList (w4 * fOne)) "second".toList (w5 * fOne)) :=
      spreadUnit_day m a.d hg q5 _ _ _ _ _ _ s3 s4 s5
    rw [hm]
    refine ⟨⟨a.y, a.mo, (splitFraction a.d).1, n3, n4, n5⟩, ⟨?_, ?_, ?_, ?_, ?_, ?_⟩, ?_, ?_⟩
    · rw [hoff _ (by decide)]; exact K0.weaken (by omega)
    · rw [hoff _ (by decide)]; exact K1.weaken (by omega)
    · rw [hoff']; exact K2.weaken (by omega)
    · rw [hoff _ (by decide)]; exact K3.weaken (by omega)
    · rw [hoff _ (by decide)]; exact K4.weaken (by omega)
    · rw [hoff _ (by decide)]; exact K5.weaken (by omega)
    · have := (fin_step 0 86400 _ _ _ _ _ _ _ fOne _ _ q1 (sum_step 3600 _ _ _ _ _ _ _ _ u3 v3 (sum_step 60 _ _ _ _ _ _ _ _ u4 v4 (sum_step 1 _ _ _ _ _ _ _ _ u5 v5 (by omega : (0:Nat) ≤ 0 + 0 + 0 * fEps ∧ (0:Nat) + 0 ≤ 0 + 0 * fEps)))) (chain_day _ _ _ _ _ _ t3 r3 (chain_hour _ _ _ _ _ _ t4 r4 (chain_minute _ _ _ _ _ t5 r5 b5)))).1
      simp only [Amt.total]; omega
    · have := (fin_step 0 86400 _ _ _ _ _ _ _ fOne _ _ q1 (sum_step 3600 _ _ _ _ _ _ _ _ u3 v3 (sum_step 60 _ _ _ _ _ _ _ _ u4 v4 (sum_step 1 _ _ _ _ _ _ _ _ u5 v5 (by omega : (0:Nat) ≤ 0 + 0 + 0 * fEps ∧ (0:Nat) + 0 ≤ 0 + 0 * fEps)))) (chain_day _ _ _ _ _ _ t3 r3 (chain_hour _ _ _ _ _ _ t4 r4 (chain_minute _ _ _ _ _ t5 r5 b5)))).2
      simp only [Amt.total, hfr, if_true]; omega

theorem spread_hour {m : FMap} {a : Amt} {lim : Nat} {fr has : RelUnit → Bool} (h : MapInv m a lim fr has)
    (hl : lim ≤ 200000 * fOne) : ∃ a', MapInv (spreadUnit m "hour".toList) a' (lim + 61 * fOne) (off fr .hour) has ∧
      a'.total ≤ a.total + 122 * fEps ∧
      a.total ≤ a'.total + (if fr .hour then fOne else 0) + 122 * fEps := by
  have e0 := fOne_pos
  have hoff : ∀ v, v ≠ RelUnit.hour → off fr .hour v = fr v := fun v hv => by simp [off, hv]
  have hoff' : off fr .hour .hour = false := by simp [off]
  by_cases hd : fOne ∣ a.h
  · rw [spread_none h.h hd]
    refine ⟨a, MapInv.weaken (lim := lim) ?_ (by omega), by omega, by split <;> omega⟩
    have hq : KeyInv m "hour".toList a.h _ false (has .hour) := ⟨h.h.val, h.h.le, fun _ => hd, h.h.some, fun _ => rfl⟩
    exact ⟨by rw [hoff _ (by decide)]; exact h.y, by rw [hoff _ (by decide)]; exact h.mo, by rw [hoff _ (by decide)]; exact h.d, by rw [hoff']; exact hq, by rw [hoff _ (by decide)]; exact h.mi, by rw [hoff _ (by decide)]; exact h.s⟩
  · have hfr : fr .hour = true := by
      cases hf : fr .hour with
      | true => rfl
      | false => exact absurd (h.h.whole hf) hd
    have hg := get_of_frac h.h hd
    obtain ⟨q1, q2, q3, q4⟩ := splitFraction_eq a.h
    have q5 : ¬ (splitFraction a.h).2 = 0 := fun hx => hd (q4.mp hx)
    have k0 := h.h.set hd (splitFraction a.h).1 (by omega) q3
    obtain ⟨w4, g4, s4, l4, b4, t4, r4⟩ := splitScaled_err (splitFraction a.h).2 60 q2 (by decide)
    obtain ⟨w5, g5, s5, l5, b5, t5, r5⟩ := splitScaled_err g4 60 b4 (by decide)
    have K0 := (((h.y.set_other "hour".toList (.fin (splitFraction a.h).1) (by decide)).add_other "minute".toList (w4 * fOne) (by decide)).add_other "second".toList (w5 * fOne) (by decide))
    have K1 := (((h.mo.set_other "hour".toList (.fin (splitFraction a.h).1) (by decide)).add_other "minute".toList (w4 * fOne) (by decide)).add_other "second".toList (w5 * fOne) (by decide))
    have K2 := (((h.d.set_other "hour".toList (.fin (splitFraction a.h).1) (by decide)).add_other "minute".toList (w4 * fOne) (by decide)).add_other "second".toList (w5 * fOne) (by decide))
    have K3 := ((k0.add_other "minute".toList (w4 * fOne) (by decide)).add_other "second".toList (w5 * fOne) (by decide))
    obtain ⟨n4, A4, u4, v4⟩ := KeyInv.add (h.mi.set_other "hour".toList (.fin (splitFraction a.h).1) (by decide)) w4 l4 (by omega)
    have K4 := (A4.add_other "second".toList (w5 * fOne) (by decide))
    obtain ⟨n5, A5, u5, v5⟩ := KeyInv.add ((h.s.set_other "hour".toList (.fin (splitFraction a.h).1) (by decide)).add_other "minute".toList (w4 * fOne) (by decide)) w5 l5 (by omega)
    have K5 := A5
    have hm : spreadUnit m "hour".toList = (addMapValue (addMapValue (m.set "hour".toList (.fin (splitFraction a.h).1)) "minute".toList (w4 * fOne)) "second".toList (w5 * fOne)) :=
      spreadUnit_hour m a.h hg q5 _ _ _ _ s4 s5
    rw [hm]
    refine ⟨⟨a.y, a.mo, a.d, (splitFraction a.h).1, n4, n5⟩, ⟨?_, ?_, ?_, ?_, ?_, ?_⟩, ?_, ?_⟩
    · rw [hoff _ (by decide)]; exact K0.weaken (by omega)
    · rw [hoff _ (by decide)]; exact K1.weaken (by omega)
    · rw [hoff _ (by decide)]; exact K2.weaken (by omega)
    · rw [hoff']; exact K3.weaken (by omega)
    · rw [hoff _ (by decide)]; exact K4.weaken (by omega)
    · rw [hoff _ (by decide)]; exact K5.weaken (by omega)
    · have := (fin_step 0 3600 _ _ _ _ _ _ _ fOne _ _ q1 (sum_step 60 _ _ _ _ _ _ _ _ u4 v4 (sum_step 1 _ _ _ _ _ _ _ _ u5 v5 (by omega : (0:Nat) ≤ 0 + 0 + 0 * fEps ∧ (0:Nat) + 0 ≤ 0 + 0 * fEps))) (chain_hour _ _ _ _ _ _ t4 r4 (chain_minute _ _ _ _ _ t5 r5 b5))).1
      simp only [Amt.total]; omega
    · have := (fin_step 0 3600 _ _ _ _ _ _ _ fOne _ _ q1 (sum_step 60 _ _ _ _ _ _ _ _ u4 v4 (sum_step 1 _ _ _ _ _ _ _ _ u5 v5 (by omega : (0:Nat) ≤ 0 + 0 + 0 * fEps ∧ (0:Nat) + 0 ≤ 0 + 0 * fEps))) (chain_hour _ _ _ _ _ _ t4 r4 (chain_minute _ _ _ _ _ t5 r5 b5))).2
      simp only [Amt.total, hfr, if_true]; omega

theorem spread_minute {m : FMap} {a : Amt} {lim : Nat} {fr has : RelUnit → Bool} (h : MapInv m a lim fr has)
    (hl : lim ≤ 200000 * fOne) : ∃ a', MapInv (spreadUnit m "minute".toList) a' (lim + 61 * fOne) (off fr .minute) has ∧
      a'.total ≤ a.total + 2 * fEps ∧
      a.total ≤ a'.total + (if fr .minute then fOne else 0) + 2 * fEps := by
  have e0 := fOne_pos
  have hoff : ∀ v, v ≠ RelUnit.minute → off fr .minute v = fr v := fun v hv => by simp [off, hv]
  have hoff' : off fr .minute .minute = false := by simp [off]
  by_cases hd : fOne ∣ a.mi
  · rw [spread_none h.mi hd]
    refine ⟨a, MapInv.weaken (lim := lim) ?_ (by omega), by omega, by split <;> omega⟩
    have hq : KeyInv m "minute".toList a.mi _ false (has .minute) := ⟨h.mi.val, h.mi.le, fun _ => hd, h.mi.some, fun _ => rfl⟩
    exact ⟨by rw [hoff _ (by decide)]; exact h.y, by rw [hoff _ (by decide)]; exact h.mo, by rw [hoff _ (by decide)]; exact h.d, by rw [hoff _ (by decide)]; exact h.h, by rw [hoff']; exact hq, by rw [hoff _ (by decide)]; exact h.s⟩
  · have hfr : fr .minute = true := by
      cases hf : fr .minute with
      | true => rfl
      | false => exact absurd (h.mi.whole hf) hd
    have hg := get_of_frac h.mi hd
    obtain ⟨q1, q2, q3, q4⟩ := splitFraction_eq a.mi
    have q5 : ¬ (splitFraction a.mi).2 = 0 := fun hx => hd (q4.mp hx)
    have k0 := h.mi.set hd (splitFraction a.mi).1 (by omega) q3
    obtain ⟨w5, g5, s5, l5, b5, t5, r5⟩ := splitScaled_err (splitFraction a.mi).2 60 q2 (by decide)
    have K0 := ((h.y.set_other "minute".toList (.fin (splitFraction a.mi).1) (by decide)).add_other "second".toList (w5 * fOne) (by decide))
    have K1 := ((h.mo.set_other "minute".toList (.fin (splitFraction a.mi).1) (by decide)).add_other "second".toList (w5 * fOne) (by decide))
    have K2 := ((h.d.set_other "minute".toList (.fin (splitFraction a.mi).1) (by decide)).add_other "second".toList (w5 * fOne) (by decide))
    have K3 := ((h.h.set_other "minute".toList (.fin (splitFraction a.mi).1) (by decide)).add_other "second".toList (w5 * fOne) (by decide))
    have K4 := (k0.add_other "second".toList (w5 * fOne) (by decide))
    obtain ⟨n5, A5, u5, v5⟩ := KeyInv.add (h.s.set_other "minute".toList (.fin (splitFraction a.mi).1) (by decide)) w5 l5 (by omega)
    have K5 := A5
    have hm : spreadUnit m "minute".toList = (addMapValue (m.set "minute".toList (.fin (splitFraction a.mi).1)) "second".toList (w5 * fOne)) :=
      spreadUnit_minute m a.mi hg q5 _ _ s5
    rw [hm]
    refine ⟨⟨a.y, a.mo, a.d, a.h, (splitFraction a.mi).1, n5⟩, ⟨?_, ?_, ?_, ?_, ?_, ?_⟩, ?_, ?_⟩
    · rw [hoff _ (by decide)]; exact K0.weaken (by omega)
    · rw [hoff _ (by decide)]; exact K1.weaken (by omega)
    · rw [hoff _ (by decide)]; exact K2.weaken (by omega)
    · rw [hoff _ (by decide)]; exact K3.weaken (by omega)
    · rw [hoff']; exact K4.weaken (by omega)
    · rw [hoff _ (by decide)]; exact K5.weaken (by omega)
    · have := (fin_step 0 60 _ _ _ _ _ _ _ fOne _ _ q1 (sum_step 1 _ _ _ _ _ _ _ _ u5 v5 (by omega : (0:Nat) ≤ 0 + 0 + 0 * fEps ∧ (0:Nat) + 0 ≤ 0 + 0 * fEps)) (chain_minute _ _ _ _ _ t5 r5 b5)).1
      simp only [Amt.total]; omega
    · have := (fin_step 0 60 _ _ _ _ _ _ _ fOne _ _ q1 (sum_step 1 _ _ _ _ _ _ _ _ u5 v5 (by omega : (0:Nat) ≤ 0 + 0 + 0 * fEps ∧ (0:Nat) + 0 ≤ 0 + 0 * fEps)) (chain_minute _ _ _ _ _ t5 r5 b5)).2
      simp only [Amt.total, hfr, if_true]; omega

end Verif.Lemmas
