import Verif.Lemmas.RelPhrase
/-! Helper lemmas: the durations of a relative date. -/
set_option autoImplicit false
namespace Verif.Lemmas
open Verif.Go Verif.Model Verif.Spec

theorem FMap.get_nil (k : List Char) : FMap.get [] k = none := rfl

theorem FMap.get_del (m : FMap) (k k' : List Char) : (m.del k).get k' = if k' = k then none else m.get k' := by
  unfold FMap.get FMap.del
  induction m with
  | nil => simp
  | cons e m ih =>
    rw [List.filter_cons]
    by_cases h : e.1 = k
    · have : (e.1 != k) = false := by simp [h]
      rw [this]
      simp only [Bool.false_eq_true, if_false, ih]
      split
      · rfl
      · rename_i hk
        have : (e.1 == k') = false := by rw [h]; simpa using fun h => hk h.symm
        rw [List.find?_cons, this]
    · have h1 : (e.1 != k) = true := by simp [h]
      rw [h1]
      simp only [if_true, List.find?_cons]
      by_cases hk : e.1 = k'
      · have : (e.1 == k') = true := by simp [hk]
        have hne : ¬ k' = k := by rw [← hk]; exact h
        simp [this, hne]
      · have : (e.1 == k') = false := by simp [hk]
        simp only [this]
        exact ih

theorem FMap.get_set (m : FMap) (k k' : List Char) (v : F64) :
    (m.set k v).get k' = if k' = k then some v else m.get k' := by
  unfold FMap.set
  show (List.find? (fun x => x.1 == k') ((k, v) :: m.del k)).map (·.2) = _
  rw [List.find?_cons]
  by_cases h : k' = k
  · simp [h]
  · have : (k == k') = false := by simpa using fun e => h e.symm
    have e := FMap.get_del m k k'
    rw [if_neg h] at e
    simp only [this, if_neg h]
    exact e

theorem FMap.nonempty {m : FMap} {k : List Char} (h : (m.get k).isSome = true) : m.isEmpty = false := by
  cases m with
  | nil => simp [FMap.get] at h
  | cons e m => rfl

theorem name_inj (u v : RelUnit) : u.name = v.name ↔ u = v := by
  cases u <;> cases v <;> decide

theorem foldItems_get (items : List Item) (hd : (items.map Item.unit).Nodup) (u : RelUnit) : ∀ m0 : FMap,
    (items.foldl (fun m i => m.set i.unit.name (amountValue i.amount)) m0).get u.name =
      match items.find? (fun i => i.unit == u) with
      | some i => some (amountValue i.amount)
      | none => m0.get u.name := by
  induction items with
  | nil => intro m0; rfl
  | cons i items ih =>
    intro m0
    simp only [List.map_cons, List.nodup_cons] at hd
    rw [List.foldl_cons, ih hd.2, List.find?_cons]
    by_cases h : i.unit = u
    · have hn : items.find? (fun i => i.unit == u) = none := by
        rw [List.find?_eq_none]
        intro x hx he
        apply hd.1
        rw [h]
        have : x.unit = u := by simpa using he
        rw [← this]
        exact List.mem_map_of_mem hx
      rw [hn]
      simp [h, FMap.get_set]
    · have : (i.unit == u) = false := by simpa using h
      simp only [this]
      cases items.find? (fun i => i.unit == u) with
      | some j => rfl
      | none =>
        simp only
        rw [FMap.get_set, if_neg]
        intro e
        exact h ((name_inj _ _).mp e.symm)

theorem amountValue_whole {s : List Char} (h : IsNumeral s) (hlt : number s < 2 ^ 53) :
    amountValue s = .fin ((number s).toNat * fOne) := by
  have h1 : s.takeWhile Char.isDigit = s := by
    have := List.takeWhile_append_of_pos (l₂ := []) h.2
    simpa using this
  have h2 : s.dropWhile Char.isDigit = [] := by
    have := List.dropWhile_append_of_pos (l₂ := []) h.2
    simpa using this
  unfold amountValue
  rw [h1, h2, number_eq] at *
  exact ofDecimal_whole s hlt (natOfDigits_range h.2).1

theorem amountValue_item {i : Item} (h : i.OK) : amountValue i.amount = F64.ofDecimal i.whole i.decimals := by
  have hw := h.whole
  have key : ∀ r : List Char, (∀ c, r.head? = some c → c.isDigit = false) →
      (i.whole ++ r).takeWhile Char.isDigit = i.whole ∧ (i.whole ++ r).dropWhile Char.isDigit = r := by
    intro r hr
    rw [List.takeWhile_append_of_pos hw.2, List.dropWhile_append_of_pos hw.2]
    cases r with
    | nil => simp
    | cons c r =>
      have := hr c rfl
      simp [List.takeWhile_cons, List.dropWhile_cons, this]
  unfold amountValue Item.amount Item.decimals
  cases hf : i.frac with
  | none =>
    obtain ⟨h1, h2⟩ := key [] (by simp)
    simp only
    rw [h1, h2]; rfl
  | some x =>
    obtain ⟨c, f⟩ := x
    have hc : c.isDigit = false := by rcases h.sep c f hf with rfl | rfl <;> decide
    obtain ⟨h1, h2⟩ := key (c :: f) (by intro x hx; simp only [List.head?_cons, Option.some.injEq] at hx; rw [← hx]; exact hc)
    simp only
    rw [h1, h2]; rfl

theorem item_decimals {i : Item} (h : i.OK) : Digits i.decimals := by
  intro c hc
  unfold Item.decimals at hc
  cases hf : i.frac with
  | none => rw [hf] at hc; simp at hc
  | some x => obtain ⟨s, f⟩ := x; rw [hf] at hc; exact h.digits s f hf c hc

theorem natOfDigits_zero {s : List Char} (h : ∀ c ∈ s, c = '0') : natOfDigits s = 0 := by
  induction s with
  | nil => rfl
  | cons c s ih =>
    rw [natOfDigits_cons, ih (fun x hx => h x (by simp [hx])), h c (by simp)]
    simp [digitVal]

theorem round_whole_den (a den : Nat) (hd : 0 < den) (h : a < 2 ^ 53) :
    F64.round (a * fOne * den) den = .fin (a * fOne) := by
  unfold F64.round
  simp only
  rw [Nat.mul_div_cancel _ hd]
  obtain ⟨k, hk⟩ := ulp_whole a h
  have e : roundEven (a * fOne * den) (den * ulp (a * fOne)) = k := by
    conv => lhs; arg 1; rw [hk]
    rw [show ulp (a * fOne) * k * den = k * (den * ulp (a * fOne)) by
      rw [Nat.mul_comm (ulp (a * fOne)) k, Nat.mul_assoc, Nat.mul_comm (ulp _) den]]
    exact roundEven_exact k _ (Nat.mul_pos hd (ulp_pos _))
  rw [e, Nat.mul_comm k, ← hk, if_pos]
  exact Nat.lt_of_lt_of_le (whole_lt a h) (Nat.pow_le_pow_right (by decide) (by decide))

/-- The value of a whole amount. -/
theorem item_whole {i : Item} (h : i.OK) (hf : i.fractional = false) (hlt : number i.whole < 2 ^ 53) :
    amountValue i.amount = .fin ((number i.whole).toNat * fOne) := by
  rw [amountValue_item h]
  unfold F64.ofDecimal
  have hz : natOfDigits i.decimals = 0 := by
    apply natOfDigits_zero
    intro c hc
    unfold Item.fractional at hf
    rw [List.any_eq_false] at hf
    simpa using hf c hc
  have h0 := (natOfDigits_range h.whole.2).1
  rw [natOfDigits_append, hz, Int.add_zero, number_eq] at *
  have e : (natOfDigits i.whole * 10 ^ i.decimals.length).toNat = (natOfDigits i.whole).toNat * 10 ^ i.decimals.length := by
    obtain ⟨n, hn⟩ := Int.eq_ofNat_of_zero_le h0
    rw [hn]
    have : ((n : Int) * 10 ^ i.decimals.length) = ((n * 10 ^ i.decimals.length : Nat) : Int) := by simp
    rw [this]; rfl
  rw [e, Nat.mul_right_comm]
  exact round_whole_den _ _ (Nat.pow_pos (by decide)) (by omega)

/-- Durations of decades and weeks merged into years and days. -/
def mergeDecade (m : FMap) : FMap :=
  match m.get "decade".toList with
    | some d => (m.set "year".toList ((m.val "year".toList).add (d.scale 10))).del "decade".toList
    | none => m
def mergeWeek (m : FMap) : FMap :=
  match m.get "week".toList with
    | some w => (m.set "day".toList ((m.val "day".toList).add (w.scale 7))).del "week".toList
    | none => m

theorem mergeDecade_get (m : FMap) (u : RelUnit) : (mergeDecade m).get u.name =
    if u = .decade then none
    else if u = .year then
      match m.get "decade".toList with
      | some d => some ((m.val "year".toList).add (d.scale 10))
      | none => m.get "year".toList
    else m.get u.name := by
  unfold mergeDecade
  cases hm : m.get "decade".toList with
  | none =>
    simp only
    split
    · rename_i h; subst h; exact hm
    · split
      · rename_i h; subst h; rfl
      · rfl
  | some d =>
    simp only
    rw [FMap.get_del, FMap.get_set]
    have e1 : u.name = "decade".toList ↔ u = .decade := name_inj u .decade
    have e2 : u.name = "year".toList ↔ u = .year := name_inj u .year
    simp only [e1, e2]

theorem mergeWeek_get (m : FMap) (u : RelUnit) : (mergeWeek m).get u.name =
    if u = .week then none
    else if u = .day then
      match m.get "week".toList with
      | some d => some ((m.val "day".toList).add (d.scale 7))
      | none => m.get "day".toList
    else m.get u.name := by
  unfold mergeWeek
  cases hm : m.get "week".toList with
  | none =>
    simp only
    split
    · rename_i h; subst h; exact hm
    · split
      · rename_i h; subst h; rfl
      · rfl
  | some d =>
    simp only
    rw [FMap.get_del, FMap.get_set]
    have e1 : u.name = "week".toList ↔ u = .week := name_inj u .week
    have e2 : u.name = "day".toList ↔ u = .day := name_inj u .day
    simp only [e1, e2]

theorem durations_eq (s : List Char) : getRelativeDurations s =
    relativeUnits.foldl spreadUnit (mergeWeek (mergeDecade ((rxRelativePattern.findAll s).1.foldl
      (fun (m : FMap) x => m.set (x.after.cap 2) (amountValue (x.after.cap 1))) []))) := rfl

/-- The amounts a map holds, all whole; `0` when the unit is missing. -/
def Holds (m : FMap) (has : RelUnit → Bool) (a : RelUnit → Nat) : Prop :=
  ∀ u, m.get u.name = if has u then some (.fin (a u * fOne)) else none

theorem spread_whole {m : FMap} {has : RelUnit → Bool} {a : RelUnit → Nat} (h : Holds m has a) :
    relativeUnits.foldl spreadUnit m = m := by
  have one : ∀ u : RelUnit, spreadUnit m u.name = m := by
    intro u
    unfold spreadUnit
    rw [h u]
    split
    · rfl
    · rfl
    · rename_i n e
      split at e
      · injection e with e; injection e with e; subst e
        have : (splitFraction (a u * fOne)).2 = 0 := Nat.mul_mod_left (a u) fOne
        rw [if_pos this]
      · simp at e
  have hu : relativeUnits = [RelUnit.decade, .year, .month, .week, .day, .hour, .minute, .second].map RelUnit.name := rfl
  rw [hu]
  simp only [List.map_cons, List.map_nil, List.foldl_cons, List.foldl_nil, one]

/-- What the phrase's map holds at the end. -/
def endHas (has : RelUnit → Bool) (u : RelUnit) : Bool :=
  match u with
  | .decade => false | .week => false
  | .year => has .year || has .decade
  | .day => has .day || has .week
  | u => has u
def endAmount (a : RelUnit → Nat) (u : RelUnit) : Nat :=
  match u with
  | .decade => 0 | .week => 0
  | .year => a .year + a .decade * 10
  | .day => a .day + a .week * 7
  | u => a u

/-- After decades. -/
def decHas (has : RelUnit → Bool) (u : RelUnit) : Bool :=
  match u with | .decade => false | .year => has .year || has .decade | u => has u
def decAmount (a : RelUnit → Nat) (u : RelUnit) : Nat :=
  match u with | .year => a .year + a .decade * 10 | u => a u

theorem holds_merge {m : FMap} {has : RelUnit → Bool} {a : RelUnit → Nat} (h : Holds m has a)
    (hz : ∀ u, has u = false → a u = 0) (hb : ∀ u, a u < 2 ^ 40) :
    Holds (mergeWeek (mergeDecade m)) (endHas has) (endAmount a) := by
  have val : ∀ u : RelUnit, m.val u.name = .fin (a u * fOne) := by
    intro u
    unfold FMap.val
    rw [h u]
    cases hh : has u with
    | true => rfl
    | false => simp [hz u hh]
  have hD : Holds (mergeDecade m) (decHas has) (decAmount a) := by
    intro u
    rw [mergeDecade_get]
    have hdec := h .decade
    change m.get "decade".toList = _ at hdec
    have hv := val .year
    change m.val "year".toList = _ at hv
    have hg := h .year
    change m.get "year".toList = _ at hg
    cases u
    case decade => simp [decHas]
    case year =>
      simp only [hdec, hv, hg]
      cases hh : has .decade with
      | true =>
        have h1 := hb .decade
        have h2 := hb .year
        simp only [if_true, reduceCtorEq, if_false, Bool.or_true, decHas, decAmount, hh]
        rw [scale_whole _ _ (by omega), add_whole _ _ (by omega)]
      | false =>
        have := hz _ hh
        simp [this, decHas, decAmount, hh]
    all_goals (simp only [reduceCtorEq, if_false]; exact h _)
  intro u
  rw [mergeWeek_get]
  have hweek := hD .week
  change (mergeDecade m).get "week".toList = _ at hweek
  change _ = if has .week = true then some (F64.fin (a .week * fOne)) else none at hweek
  have hg := hD .day
  change (mergeDecade m).get "day".toList = if has .day = true then some (F64.fin (a .day * fOne)) else none at hg
  have hv : (mergeDecade m).val "day".toList = .fin (a .day * fOne) := by
    unfold FMap.val
    rw [hg]
    cases hh : has .day with
    | true => rfl
    | false => simp [hz _ hh]
  cases u
  case week => simp [endHas]
  case day =>
    simp only [hweek, hv, hg]
    cases hh : has .week with
    | true =>
      have h1 := hb .week
      have h2 := hb .day
      simp only [if_true, reduceCtorEq, if_false, Bool.or_true, endHas, endAmount, hh]
      rw [scale_whole _ _ (by omega), add_whole _ _ (by omega)]
    | false =>
      have := hz _ hh
      simp [this, endHas, endAmount, hh]
  case decade => simp only [reduceCtorEq, if_false]; rw [hD]; simp only [decHas, endHas, Bool.false_eq_true, if_false]
  all_goals (simp only [reduceCtorEq, if_false]; exact hD _)

theorem amount_nat (p : Phrase) (h : p.OK) (u : RelUnit) : 0 ≤ p.amount u := by
  unfold Phrase.amount
  cases hf : p.items.find? (fun i => i.unit == u) with
  | none => simp
  | some i =>
    simp only
    rw [number_eq]
    exact (natOfDigits_range (h.items i (List.mem_of_find?_eq_some hf)).whole.2).1

/-- All amounts of the phrase are below 2⁴⁰. -/
theorem phrase_holds {p : Phrase} (h : p.OK) (hw : p.Whole) (hb : ∀ u, p.amount u < 2 ^ 40) :
    Holds (foldItems p.items) p.has (fun u => (p.amount u).toNat) := by
  intro u
  unfold foldItems
  rw [foldItems_get p.items h.distinct u [], FMap.get_nil]
  have hbu := hb u
  unfold Phrase.amount at hbu ⊢
  unfold Phrase.has
  cases hf : p.items.find? (fun i => i.unit == u) with
  | none =>
    have : p.items.any (fun i => i.unit == u) = false := by
      rw [List.find?_eq_none] at hf
      rw [List.any_eq_false]
      exact hf
    simp [this]
  | some i =>
    have hi := List.mem_of_find?_eq_some hf
    have : p.items.any (fun i => i.unit == u) = true := by
      rw [List.any_eq_true]
      exact ⟨i, hi, by have := List.find?_some hf; exact this⟩
    simp only [hf] at hbu
    simp only [this, if_true, hf]
    rw [item_whole (h.items i hi) (hw i hi) (by omega)]

theorem has_zero (p : Phrase) (u : RelUnit) (h : p.has u = false) : p.amount u = 0 := by
  unfold Phrase.has at h
  rw [List.any_eq_false] at h
  unfold Phrase.amount
  have : p.items.find? (fun i => i.unit == u) = none := by rw [List.find?_eq_none]; exact h
  rw [this]

theorem phrase_map {p : Phrase} (h : p.OK) (ht : TailOK p.tail) (hw : p.Whole) (hb : ∀ u, p.amount u < 2 ^ 40) :
    Holds (getRelativeDurations p.text) (endHas p.has) (endAmount fun u => (p.amount u).toNat) := by
  rw [durations_eq, phrase_durations h ht]
  have := holds_merge (phrase_holds h hw hb) (fun u hu => by simp [has_zero p u hu])
    (fun u => by have := hb u; have := amount_nat p h u; omega)
  rw [spread_whole this]
  exact this

theorem holds_val {m : FMap} {has : RelUnit → Bool} {a : RelUnit → Nat} (h : Holds m has a)
    (hz : ∀ u, has u = false → a u = 0) (u : RelUnit) : m.val u.name = .fin (a u * fOne) := by
  unfold FMap.val
  rw [h u]
  cases hh : has u with
  | true => rfl
  | false => simp [hz u hh]

theorem holds_period {m : FMap} {a : RelUnit → Nat} (p : Phrase) (h : Holds m (endHas p.has) a) : relPeriod m = p.period := by
  have get : ∀ u : RelUnit, (m.get u.name).isSome = endHas p.has u := by
    intro u
    rw [h u]
    cases endHas p.has u <;> rfl
  unfold relPeriod Phrase.period
  have h1 := get .second; have h2 := get .minute; have h3 := get .hour; have h4 := get .day
  have h5 := get .month; have h6 := get .year
  simp only [RelUnit.name, endHas] at h1 h2 h3 h4 h5 h6
  rw [h1, h2, h3, h4, h5, h6]
  cases e1 : p.has .second
  case true => rfl
  cases e2 : p.has .minute
  case true => rfl
  cases e3 : p.has .hour
  case true => rfl
  cases e4 : p.has .day
  case true => rfl
  cases e5 : p.has .week
  case true => rfl
  cases e6 : p.has .month
  case true => rfl
  -- some unit is mentioned
  have : (p.has .year || p.has .decade) = true := by
    have hf : p.has p.first.unit = true := by
      unfold Phrase.has; rw [List.any_eq_true]; exact ⟨p.first, by simp [Phrase.items], by simp⟩
    cases hu : p.first.unit <;> rw [hu] at hf <;> simp_all
  simp [this]

theorem holds_nonempty {m : FMap} {a : RelUnit → Nat} (p : Phrase) (h : Holds m (endHas p.has) a) : m.isEmpty = false := by
  have hf : p.has p.first.unit = true := by
    unfold Phrase.has; rw [List.any_eq_true]; exact ⟨p.first, by simp [Phrase.items], by simp⟩
  have key : ∀ u : RelUnit, endHas p.has u = true → m.isEmpty = false := by
    intro u hu
    apply FMap.nonempty (k := u.name)
    rw [h u, hu]; rfl
  cases hu : p.first.unit <;> rw [hu] at hf
  · exact key .year (by simp [endHas, hf])
  · exact key .year (by simp [endHas, hf])
  · exact key .month (by simp [endHas, hf])
  · exact key .day (by simp [endHas, hf])
  · exact key .day (by simp [endHas, hf])
  · exact key .hour (by simp [endHas, hf])
  · exact key .minute (by simp [endHas, hf])
  · exact key .second (by simp [endHas, hf])

end Verif.Lemmas
