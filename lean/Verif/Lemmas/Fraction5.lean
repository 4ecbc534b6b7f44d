import Verif.Lemmas.Fraction4
/-! Helper lemmas: a phrase with fractions, in exact numbers. -/
set_option autoImplicit false
namespace Verif.Lemmas
open Verif.Go Verif.Model Verif.Spec

/-- Multiples of 2⁻¹⁰⁷⁴ as exact numbers. -/
def toR (n : Nat) : Rat := (n : Rat) / (fOne : Rat)

theorem fOne_posR : (0 : Rat) < (fOne : Rat) := Rat.natCast_pos.mpr fOne_pos
theorem fOne_neR : (fOne : Rat) ≠ 0 := fun h => by have := fOne_posR; rw [h] at this; exact absurd this (by decide)

theorem toR_add (a b : Nat) : toR (a + b) = toR a + toR b := by
  unfold toR; rw [Rat.natCast_add]; have := fOne_neR; grind
theorem toR_mul (k a : Nat) : toR (k * a) = (k : Rat) * toR a := by
  unfold toR; rw [Rat.natCast_mul]; have := fOne_neR; grind
theorem toR_fOne : toR fOne = 1 := by unfold toR; have := fOne_neR; grind
theorem toR_zero : toR 0 = 0 := by unfold toR; simp [Rat.div_def]
theorem toR_fEps : toR fEps * 4294967296 = 1 := by
  have h := toR_fOne
  rw [fOne_eps, toR_mul] at h
  have e : ((4294967296 : Nat) : Rat) = 4294967296 := rfl
  rw [e] at h
  grind
theorem toR_le {a b : Nat} (h : a ≤ b) : toR a ≤ toR b := by
  have h1 : toR a * (fOne : Rat) = (a : Rat) := by unfold toR; have := fOne_neR; grind
  have h2 : toR b * (fOne : Rat) = (b : Rat) := by unfold toR; have := fOne_neR; grind
  apply Rat.le_of_mul_le_mul_right (c := (fOne : Rat)) _ fOne_posR
  rw [h1, h2]
  exact Rat.natCast_le_natCast.mpr h

theorem div_le (v F d N c : Rat) (hF : 0 < F) (hd : 0 < d) (h : v * d ≤ N * F + c * F * d) : v / F ≤ N / d + c := by
  have h1 : v / F * (F * d) = v * d := by grind
  have h2 : (N / d + c) * (F * d) = N * F + c * F * d := by grind
  have := Rat.mul_pos hF hd
  apply Rat.le_of_mul_le_mul_right (c := F * d) _ this
  rw [h1, h2]; exact h
theorem le_div (v F d N c : Rat) (hF : 0 < F) (hd : 0 < d) (h : N * F ≤ v * d + c * F * d) : N / d ≤ v / F + c := by
  have h1 : N / d * (F * d) = N * F := by grind
  have h2 : (v / F + c) * (F * d) = v * d + c * F * d := by grind
  have := Rat.mul_pos hF hd
  apply Rat.le_of_mul_le_mul_right (c := F * d) _ this
  rw [h1, h2]; exact h

theorem number_nonneg_digits {s : List Char} (h : ∀ c ∈ s, c.isDigit = true) : 0 ≤ number s := by
  rw [number_eq]; exact (natOfDigits_range h).1

/-- An amount as read against its exact value. -/
theorem item_errR {i : Item} (h : i.OK) {v : Nat}
    (h1 : 32 * (v * 10 ^ i.decimals.length) ≤ 32 * ((number (i.whole ++ i.decimals)).toNat * fOne) + fEps * 10 ^ i.decimals.length)
    (h2 : 32 * ((number (i.whole ++ i.decimals)).toNat * fOne) ≤ 32 * (v * 10 ^ i.decimals.length) + fEps * 10 ^ i.decimals.length) :
    toR v ≤ i.value + toR fEps / 32 ∧ i.value ≤ toR v + toR fEps / 32 := by
  have hn : 0 ≤ number (i.whole ++ i.decimals) := number_nonneg_digits (by
    intro c hc
    rcases List.mem_append.mp hc with hc | hc
    · exact h.whole.2 c hc
    · exact item_decimals h c hc)
  have hcast : (number (i.whole ++ i.decimals) : Rat) = ((number (i.whole ++ i.decimals)).toNat : Rat) := by
    conv => lhs; rw [← Int.toNat_of_nonneg hn]
    exact Rat.intCast_natCast _
  unfold Item.value
  rw [hcast]
  generalize (number (i.whole ++ i.decimals)).toNat = N at *
  have hd : (0 : Rat) < ((10 ^ i.decimals.length : Nat) : Rat) := Rat.natCast_pos.mpr (Nat.pow_pos (by decide))
  generalize 10 ^ i.decimals.length = d at *
  have hF := fOne_posR
  have hE : (fEps : Rat) = toR fEps * (fOne : Rat) := by unfold toR; have := fOne_neR; grind
  have c1 := Rat.natCast_le_natCast.mpr h1
  have c2 := Rat.natCast_le_natCast.mpr h2
  simp only [Rat.natCast_add, Rat.natCast_mul] at c1 c2
  have e32 : ((32 : Nat) : Rat) = 32 := rfl
  rw [e32, hE] at c1 c2
  constructor
  · exact div_le _ _ _ _ _ hF hd (by grind)
  · exact le_div _ _ _ _ _ hF hd (by grind)

/-- A sum over items is a sum over units. -/
def unitSum (g : RelUnit → Rat) : Rat :=
  g .decade + g .year + g .month + g .week + g .day + g .hour + g .minute + g .second

theorem sum_units (f : Item → Rat) (l : List Item) (hd : (l.map Item.unit).Nodup) :
    (l.map f).sum = unitSum fun u => match l.find? (fun i => i.unit == u) with
      | some i => f i
      | none => 0 := by
  induction l with
  | nil => simp [unitSum]; grind
  | cons i l ih =>
    simp only [List.map_cons, List.nodup_cons] at hd
    have hn : l.find? (fun j => j.unit == i.unit) = none := by
      rw [List.find?_eq_none]
      intro x hx he
      apply hd.1
      have : x.unit = i.unit := by simpa using he
      rw [← this]
      exact List.mem_map_of_mem hx
    rw [List.map_cons, List.sum_cons, ih hd.2]
    unfold unitSum
    simp only [List.find?_cons]
    cases hu : i.unit <;> rw [hu] at hn <;> simp [hn] <;> grind

/-- Some amount of this unit is not whole. -/
def phraseFr (p : Phrase) (u : RelUnit) : Bool := p.items.any fun i => i.fractional && i.unit == u

def finVal : F64 → Nat
  | .fin v => v
  | .inf => 0

/-- Amount as read. -/
def itemRaw (i : Item) : Nat := finVal (amountValue i.amount)

def phraseRaw (p : Phrase) (u : RelUnit) : Nat :=
  match p.items.find? (fun i => i.unit == u) with
  | some i => itemRaw i
  | none => 0

theorem phrase_raw {p : Phrase} (h : p.OK) (hr : ∀ i ∈ p.items, number i.whole < 100000) :
    RawInv (foldItems p.items) (phraseRaw p) (phraseFr p) p.has := by
  intro u
  have hg : (foldItems p.items).get u.name = match p.items.find? (fun i => i.unit == u) with
      | some i => some (amountValue i.amount)
      | none => none := by
    unfold foldItems
    rw [foldItems_get p.items h.distinct u [], FMap.get_nil]
    cases p.items.find? (fun i => i.unit == u)
    · rfl
    · rfl
  unfold phraseRaw
  cases hf : p.items.find? (fun i => i.unit == u) with
  | none =>
    rw [hf] at hg
    have hh : p.has u = false := by
      unfold Phrase.has
      rw [List.find?_eq_none] at hf
      rw [List.any_eq_false]
      exact hf
    have hfr : phraseFr p u = false := by
      unfold phraseFr
      rw [List.find?_eq_none] at hf
      rw [List.any_eq_false]
      intro i hi
      have := hf i hi
      simp_all
    refine ⟨⟨?_, Nat.zero_le _, fun _ => Nat.dvd_zero _, ?_, fun _ => hfr⟩, fun _ => rfl⟩
    · unfold FMap.val; rw [hg]; exact Option.getD_none
    · rw [hg, hh]; simp
  | some i =>
    rw [hf] at hg
    have hi := List.mem_of_find?_eq_some hf
    have hiu : i.unit = u := by have := List.find?_some hf; simpa using this
    have hh : p.has u = true := by
      unfold Phrase.has
      rw [List.any_eq_true]
      exact ⟨i, hi, by have := List.find?_some hf; exact this⟩
    obtain ⟨v, hv, hle, hw, _, _⟩ := item_err (h.items i hi) (hr i hi)
    have hraw : itemRaw i = v := by unfold itemRaw; rw [hv, finVal]
    have hg : (foldItems p.items).get u.name = some (amountValue i.amount) := hg
    rw [hv] at hg
    show KeyInv _ _ (itemRaw i) _ _ _ ∧ (_ → itemRaw i = 0)
    rw [hraw]
    refine ⟨⟨?_, hle, ?_, ?_, by simp [hh]⟩, by simp [hh]⟩
    · unfold FMap.val; rw [hg]; exact Option.getD_some
    · intro hfr
      apply hw
      unfold phraseFr at hfr
      rw [List.any_eq_false] at hfr
      have := hfr i hi
      simpa [hiu] using this
    · rw [hg, hh]; simp

theorem fr_count (p : Phrase) : frCount (endFr (phraseFr p)) ≤ p.spreads := by
  have key : ∀ l : List Item, (l.any fun i => i.fractional && i.unit == .decade).toNat + (l.any fun i => i.fractional && i.unit == .year).toNat +
      (l.any fun i => i.fractional && i.unit == .month).toNat + (l.any fun i => i.fractional && i.unit == .week).toNat +
      (l.any fun i => i.fractional && i.unit == .day).toNat + (l.any fun i => i.fractional && i.unit == .hour).toNat +
      (l.any fun i => i.fractional && i.unit == .minute).toNat ≤ l.countP fun i => i.fractional && i.unit != .second := by
    intro l
    induction l with
    | nil => simp
    | cons i l ih =>
      have bq : ∀ u v : RelUnit, (u == v) = decide (u = v) := fun _ _ => rfl
      simp only [List.any_cons, List.countP_cons]
      cases hf : i.fractional with
      | false => simpa using ih
      | true =>
        cases hu : i.unit <;> simp [bq] <;> simp only [← bq] <;> try omega
  have := key p.items
  have o : ∀ a b : Bool, (a || b).toNat ≤ a.toNat + b.toNat := by decide
  unfold frCount Phrase.spreads
  simp only [endFr]
  have o1 := o (phraseFr p .year) (phraseFr p .decade)
  have o2 := o (phraseFr p .day) (phraseFr p .week)
  simp only [phraseFr] at *
  omega

/-- Years and months that are not mentioned are not made up. -/
theorem spread_keeps (m : FMap) (u : List Char) (hu : u ∈ relativeUnits) :
    (m.get "year".toList = none → (spreadUnit m u).get "year".toList = none) ∧
    (m.get "year".toList = none → m.get "month".toList = none → (spreadUnit m u).get "month".toList = none) := by
  cases hg : m.get u with
  | none => rw [spreadUnit_absent m u hg]; exact ⟨id, fun _ => id⟩
  | some x =>
  have h0 : m.get u ≠ none := by rw [hg]; simp
  cases x with
  | inf =>
    have e : spreadUnit m u = m := by unfold spreadUnit; rw [hg]
    rw [e]; exact ⟨id, fun _ => id⟩
  | fin n =>
  by_cases hf : (splitFraction n).2 = 0
  · have e : spreadUnit m u = m := by unfold spreadUnit; rw [hg]; exact if_pos hf
    rw [e]; exact ⟨id, fun _ => id⟩
  simp only [relativeUnits, List.mem_cons, List.not_mem_nil, or_false] at hu
  have a := addMapValue_get
  have pr : ∀ x : Nat × Nat, x = (x.1, x.2) := fun _ => rfl
  rcases hu with rfl | rfl | rfl | rfl | rfl | rfl | rfl | rfl
  · have e : spreadUnit m "decade".toList = m := by
      unfold spreadUnit; rw [hg]; simp only
      rw [if_neg hf, if_neg (by decide), if_neg (by decide), if_neg (by decide), if_neg (by decide), if_neg (by decide), if_neg (by decide)]
    rw [e]; exact ⟨id, fun _ => id⟩
  · exact ⟨fun h => absurd h h0, fun h _ => absurd h h0⟩
  · rw [spreadUnit_month m n hg hf _ _ _ _ _ _ _ _ (pr _) (pr _) (pr _) (pr _)]
    refine ⟨fun h => ?_, fun _ h => absurd h h0⟩
    rw [a _ _ _ _ (by decide), a _ _ _ _ (by decide), a _ _ _ _ (by decide), a _ _ _ _ (by decide), FMap.get_set, if_neg (by decide)]
    exact h
  · have e : spreadUnit m "week".toList = m := by
      unfold spreadUnit; rw [hg]; simp only
      rw [if_neg hf, if_neg (by decide), if_neg (by decide), if_neg (by decide), if_neg (by decide), if_neg (by decide), if_neg (by decide)]
    rw [e]; exact ⟨id, fun _ => id⟩
  · rw [spreadUnit_day m n hg hf _ _ _ _ _ _ (pr _) (pr _) (pr _)]
    refine ⟨fun h => ?_, fun _ h => ?_⟩ <;>
    (rw [a _ _ _ _ (by decide), a _ _ _ _ (by decide), a _ _ _ _ (by decide), FMap.get_set, if_neg (by decide)]
     exact h)
  · rw [spreadUnit_hour m n hg hf _ _ _ _ (pr _) (pr _)]
    refine ⟨fun h => ?_, fun _ h => ?_⟩ <;>
    (rw [a _ _ _ _ (by decide), a _ _ _ _ (by decide), FMap.get_set, if_neg (by decide)]
     exact h)
  · rw [spreadUnit_minute m n hg hf _ _ (pr _)]
    refine ⟨fun h => ?_, fun _ h => ?_⟩ <;>
    (rw [a _ _ _ _ (by decide), FMap.get_set, if_neg (by decide)]
     exact h)
  · rw [spreadUnit_second m n hg hf]
    refine ⟨fun h => ?_, fun _ h => ?_⟩ <;>
    (rw [FMap.get_set, if_neg (by decide)]
     exact h)

theorem fold_keeps (l : List (List Char)) (hl : ∀ u ∈ l, u ∈ relativeUnits) : ∀ m : FMap,
    (m.get "year".toList = none → (l.foldl spreadUnit m).get "year".toList = none) ∧
    (m.get "year".toList = none → m.get "month".toList = none → (l.foldl spreadUnit m).get "month".toList = none) := by
  induction l with
  | nil => intro m; exact ⟨id, fun _ => id⟩
  | cons u l ih =>
    intro m
    have h1 := spread_keeps m u (hl u (by simp))
    have h2 := ih (fun v hv => hl v (by simp [hv])) (spreadUnit m u)
    rw [List.foldl_cons]
    exact ⟨fun h => h2.1 (h1.1 h), fun h h' => h2.2 (h1.1 h) (h1.2 h h')⟩

theorem raw_absent {m : FMap} {r : RelUnit → Nat} {fr has : RelUnit → Bool} (h : RawInv m r fr has) (u : RelUnit) (hu : has u = false) :
    m.get u.name = none := by
  have h1 := (h u).1.some
  rw [hu, (h u).2 hu] at h1
  simpa using h1

theorem raw_absent_year {m : FMap} {r : RelUnit → Nat} {fr has : RelUnit → Bool} (h : RawInv m r fr has)
    (h1 : has .year = false) (h2 : has .decade = false) : (mergeWeek (mergeDecade m)).get "year".toList = none := by
  have a1 := raw_absent h .year h1
  have a2 := raw_absent h .decade h2
  have g1 := mergeWeek_get (mergeDecade m) .year
  have g2 := mergeDecade_get m .year
  simp only [RelUnit.name] at *
  rw [a1, a2] at g2
  rw [g1, g2]; rfl

theorem raw_absent_month {m : FMap} {r : RelUnit → Nat} {fr has : RelUnit → Bool} (h : RawInv m r fr has)
    (h1 : has .month = false) : (mergeWeek (mergeDecade m)).get "month".toList = none := by
  have a1 := raw_absent h .month h1
  have g1 := mergeWeek_get (mergeDecade m) .month
  have g2 := mergeDecade_get m .month
  simp only [RelUnit.name] at *
  rw [g1, g2]; exact a1

/-- What the map of a phrase holds at the end: whole amounts, whose length is that of the phrase up to rounding. -/
theorem phrase_parts {p : Phrase} (h : p.OK) (ht : TailOK p.tail) (hr : ∀ i ∈ p.items, number i.whole < 100000) :
    ∃ q : Span, MapInv (getRelativeDurations p.text)
        ⟨q.years * fOne, q.months * fOne, q.days * fOne, q.hours * fOne, q.minutes * fOne, q.seconds * fOne⟩
        (100368 * fOne) (fun _ => false) (endFr p.has) ∧
      ((p.has .decade || p.has .year) = false → q.years = 0) ∧
      ((p.has .decade || p.has .year || p.has .month) = false → q.months = 0) ∧
      (q.length : Rat) ≤ p.seconds + p.halfSecond + 1 / 50 ∧
      p.seconds ≤ (q.length : Rat) + (p.spreads : Rat) + p.halfSecond + 1 / 50 := by
  obtain ⟨a0, i0, t1, t2, g1, g2⟩ := raw_merge (phrase_raw h hr)
  have e0 := fOne_pos
  obtain ⟨a, i, s1, s2⟩ := spread_all i0 (by omega) g1 g2
  rw [durations_eq, phrase_durations h ht]
  change MapInv (relativeUnits.foldl spreadUnit (mergeWeek (mergeDecade (foldItems p.items)))) a _ _ _ at i
  obtain ⟨Y, hY⟩ := i.y.whole rfl
  obtain ⟨Mo, hMo⟩ := i.mo.whole rfl
  obtain ⟨D, hD⟩ := i.d.whole rfl
  obtain ⟨H, hH⟩ := i.h.whole rfl
  obtain ⟨Mi, hMi⟩ := i.mi.whole rfl
  obtain ⟨S, hS⟩ := i.s.whole rfl
  rw [Nat.mul_comm] at hY hMo hD hH hMi hS
  have ea : a = ⟨Y * fOne, Mo * fOne, D * fOne, H * fOne, Mi * fOne, S * fOne⟩ := by
    rw [← hY, ← hMo, ← hD, ← hH, ← hMi, ← hS]
  have hlen : a.total = (Span.mk Y Mo D H Mi S).length * fOne := by
    rw [ea]
    simp only [Amt.total, Span.length, Nat.add_mul, Nat.mul_assoc]
    omega
  have keeps := fold_keeps relativeUnits (fun _ h => h) (mergeWeek (mergeDecade (foldItems p.items)))
  have zero : ∀ (m : FMap) (k : List Char) (n : Nat), m.val k = .fin n → m.get k = none → n = 0 := by
    intro m k n hv hg
    unfold FMap.val at hv
    rw [hg] at hv
    injection hv with hv
    exact hv.symm
  refine ⟨⟨Y, Mo, D, H, Mi, S⟩, ?_, ?_, ?_, ?_⟩
  · rw [ea] at i
    exact i.weaken (by omega)
  · intro hn
    have hn' : p.has .year = false ∧ p.has .decade = false := by simp_all
    have hk := zero _ _ _ i.y.val (keeps.1 (raw_absent_year (phrase_raw h hr) hn'.1 hn'.2))
    rw [hY] at hk
    exact (Nat.mul_eq_zero.mp hk).resolve_right (by omega)
  · intro hn
    have hn' : (p.has .year = false ∧ p.has .decade = false) ∧ p.has .month = false := by simp_all
    have hk := zero _ _ _ i.mo.val (keeps.2 (raw_absent_year (phrase_raw h hr) hn'.1.1 hn'.1.2) (raw_absent_month (phrase_raw h hr) hn'.2))
    rw [hMo] at hk
    exact (Nat.mul_eq_zero.mp hk).resolve_right (by omega)
  · generalize (Span.mk Y Mo D H Mi S).length = L at *
    have hsp := fr_count p
    -- exact numbers
    have hsec : p.seconds = unitSum fun u => match p.items.find? (fun i => i.unit == u) with
        | some i => i.value * (i.unit.seconds : Rat)
        | none => 0 := sum_units _ p.items h.distinct
    have hu : ∀ u : RelUnit, ∃ x : Rat, (match p.items.find? (fun i => i.unit == u) with
        | some i => i.value * (i.unit.seconds : Rat)
        | none => 0) = x * (u.seconds : Rat) ∧ toR (phraseRaw p u) ≤ x + toR fEps / 32 ∧ x ≤ toR (phraseRaw p u) + toR fEps / 32 := by
      intro u
      have hE := toR_fEps
      cases hf : p.items.find? (fun i => i.unit == u) with
      | none =>
        have e : phraseRaw p u = 0 := by unfold phraseRaw; rw [hf]
        refine ⟨0, ?_, ?_, ?_⟩
        · simp
        · rw [e, toR_zero]; grind
        · rw [e, toR_zero]; grind
      | some i =>
        have hi := List.mem_of_find?_eq_some hf
        have hiu : i.unit = u := by have := List.find?_some hf; simpa using this
        have e : phraseRaw p u = itemRaw i := by unfold phraseRaw; rw [hf]
        obtain ⟨v, hv, _, _, v1, v2⟩ := item_err (h.items i hi) (hr i hi)
        have hraw : itemRaw i = v := by unfold itemRaw; rw [hv, finVal]
        rw [e, hraw]
        have := item_errR (h.items i hi) v1 v2
        exact ⟨i.value, by show i.value * (i.unit.seconds : Rat) = _; rw [hiu], this.1, this.2⟩
    obtain ⟨x1, q1, l1, u1⟩ := hu .decade
    obtain ⟨x2, q2, l2, u2⟩ := hu .year
    obtain ⟨x3, q3, l3, u3⟩ := hu .month
    obtain ⟨x4, q4, l4, u4⟩ := hu .week
    obtain ⟨x5, q5, l5, u5⟩ := hu .day
    obtain ⟨x6, q6, l6, u6⟩ := hu .hour
    obtain ⟨x7, q7, l7, u7⟩ := hu .minute
    obtain ⟨x8, q8, l8, u8⟩ := hu .second
    have hsec2 : p.seconds = 311040000 * x1 + 31104000 * x2 + 2592000 * x3 + 604800 * x4 + 86400 * x5 + 3600 * x6 + 60 * x7 + x8 := by
      rw [hsec]
      unfold unitSum
      simp only
      rw [q1, q2, q3, q4, q5, q6, q7, q8]
      have c1 : ((RelUnit.decade.seconds : Nat) : Rat) = 311040000 := rfl
      have c2 : ((RelUnit.year.seconds : Nat) : Rat) = 31104000 := rfl
      have c3 : ((RelUnit.month.seconds : Nat) : Rat) = 2592000 := rfl
      have c4 : ((RelUnit.week.seconds : Nat) : Rat) = 604800 := rfl
      have c5 : ((RelUnit.day.seconds : Nat) : Rat) = 86400 := rfl
      have c6 : ((RelUnit.hour.seconds : Nat) : Rat) = 3600 := rfl
      have c7 : ((RelUnit.minute.seconds : Nat) : Rat) = 60 := rfl
      have c8 : ((RelUnit.second.seconds : Nat) : Rat) = 1 := rfl
      rw [c1, c2, c3, c4, c5, c6, c7, c8]
      grind
    have hraw : toR (rawTotal (phraseRaw p)) = 311040000 * toR (phraseRaw p .decade) + 31104000 * toR (phraseRaw p .year) +
        2592000 * toR (phraseRaw p .month) + 604800 * toR (phraseRaw p .week) + 86400 * toR (phraseRaw p .day) +
        3600 * toR (phraseRaw p .hour) + 60 * toR (phraseRaw p .minute) + toR (phraseRaw p .second) := by
      unfold rawTotal
      simp only [toR_add, toR_mul]
      rfl
    have hL : toR a.total = (L : Rat) := by rw [hlen, toR_mul, toR_fOne, Rat.mul_one]
    have hhalf : toR (if endFr (phraseFr p) .second = true then fOne else 0) = 2 * p.halfSecond := by
      unfold Phrase.halfSecond endFr phraseFr
      simp only
      split
      · rw [toR_fOne]; grind
      · rw [toR_zero]; grind
    have hcount : ((frCount (endFr (phraseFr p)) : Nat) : Rat) ≤ (p.spreads : Rat) := Rat.natCast_le_natCast.mpr hsp
    have r1 := toR_le t1
    have r2 := toR_le t2
    have r3 := toR_le s1
    have r4 := toR_le s2
    simp only [toR_add, toR_mul, hhalf, hL, hraw, toR_fOne] at r1 r2 r3 r4
    have n1 : ((62380800 : Nat) : Rat) = 62380800 := rfl
    have n2 : ((11103380 : Nat) : Rat) = 11103380 := rfl
    have n3 : ((2 : Nat) : Rat) = 2 := rfl
    rw [n1] at r1 r2
    rw [n2, n3] at r3 r4
    have hE := toR_fEps
    rw [hsec2]
    generalize toR fEps = E at *
    generalize toR a0.total = A at *
    generalize p.halfSecond = hs at *
    generalize ((frCount (endFr (phraseFr p)) : Nat) : Rat) = fc at *
    generalize (p.spreads : Rat) = sp at *
    generalize toR (phraseRaw p .decade) = z1 at *
    generalize toR (phraseRaw p .year) = z2 at *
    generalize toR (phraseRaw p .month) = z3 at *
    generalize toR (phraseRaw p .week) = z4 at *
    generalize toR (phraseRaw p .day) = z5 at *
    generalize toR (phraseRaw p .hour) = z6 at *
    generalize toR (phraseRaw p .minute) = z7 at *
    generalize toR (phraseRaw p .second) = z8 at *
    generalize (L : Rat) = Lq at *
    clear t1 t2 s1 s2 hlen ea hY hMo hD hH hMi hS hu q1 q2 q3 q4 q5 q6 q7 q8 hsec hsec2 hraw hL hhalf i i0 g1 g2 hsp n1 n2 n3 e0
    constructor
    · grind
    · grind

end Verif.Lemmas
