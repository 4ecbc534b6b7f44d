import Verif.Spec.Formatted
import Verif.Lemmas.PartValue
import Verif.Lemmas.ClockText
/-! Helper lemmas: texts written by `Time.Format` are read back by `time.Parse`. -/
set_option autoImplicit false
namespace Verif.Lemmas
open Verif.Go Verif.Model Verif.Spec

/-! ## Digits -/

theorem digitOf_isDigit {n : Nat} (h : n < 10) : (digitOf n).isDigit = true := by
  have : ∀ k : Fin 10, (digitOf k.val).isDigit = true := by decide
  exact this ⟨n, h⟩

theorem digitVal_digitOf {n : Nat} (h : n < 10) : digitVal (digitOf n) = n := by
  have : ∀ k : Fin 10, digitVal (digitOf k.val) = k.val := by decide
  exact this ⟨n, h⟩

theorem digitOf_ne_sign {n : Nat} (h : n < 10) : digitOf n ≠ '-' ∧ digitOf n ≠ '+' ∧ digitOf n ≠ ' ' ∧ digitOf n ≠ 'Z' := by
  have : ∀ k : Fin 10, digitOf k.val ≠ '-' ∧ digitOf k.val ≠ '+' ∧ digitOf k.val ≠ ' ' ∧ digitOf k.val ≠ 'Z' := by decide
  exact this ⟨n, h⟩

theorem natOfDigits_snoc (s : List Char) (c : Char) : natOfDigits (s ++ [c]) = natOfDigits s * 10 + digitVal c := by
  simp [natOfDigits, List.foldl_append]

theorem digitsW_length (w n : Nat) : (digitsW w n).length = w := by
  induction w generalizing n with
  | zero => rfl
  | succ w ih => simp [digitsW, ih]

theorem digitsW_digits (w n : Nat) : ∀ c ∈ digitsW w n, c.isDigit = true := by
  induction w generalizing n with
  | zero => intro c hc; simp [digitsW] at hc
  | succ w ih =>
    intro c hc
    rw [digitsW, List.mem_append] at hc
    rcases hc with hc | hc
    · exact ih _ c hc
    · simp at hc; subst hc; exact digitOf_isDigit (by omega)

theorem digitsW_value (w n : Nat) : natOfDigits (digitsW w n) = ((n % 10 ^ w : Nat) : Int) := by
  induction w generalizing n with
  | zero => simp [digitsW, natOfDigits, Nat.mod_one]
  | succ w ih =>
    rw [digitsW, natOfDigits_snoc, ih, digitVal_digitOf (by omega)]
    have : n % 10 ^ (w + 1) = 10 * (n / 10 % 10 ^ w) + n % 10 := by
      rw [Nat.pow_succ, Nat.mul_comm (10 ^ w) 10, Nat.mod_mul]; omega
    rw [this]; omega

theorem natDigits_digits (n : Nat) : (∀ c ∈ natDigits n, c.isDigit = true) ∧ natDigits n ≠ [] ∧ natOfDigits (natDigits n) = n := by
  induction n using Nat.strongRecOn with
  | ind n ih =>
    rw [natDigits]
    split
    · rename_i h
      refine ⟨?_, by simp, ?_⟩
      · intro c hc; simp at hc; subst hc; exact digitOf_isDigit h
      · simp [natOfDigits, digitVal_digitOf h]
    · rename_i h
      obtain ⟨h1, h2, h3⟩ := ih (n / 10) (by omega)
      refine ⟨?_, by simp, ?_⟩
      · intro c hc
        rw [List.mem_append] at hc
        rcases hc with hc | hc
        · exact h1 c hc
        · simp at hc; subst hc; exact digitOf_isDigit (by omega)
      · rw [natOfDigits_snoc, h3, digitVal_digitOf (by omega)]; omega

theorem natDigits_length2 {n : Nat} (h : n < 100) : (natDigits n).length ≤ 2 := by
  rw [natDigits]
  split
  · simp
  · rw [natDigits, if_pos (by omega)]; simp

theorem natDigits_length3 {n : Nat} (h : n < 1000) : (natDigits n).length ≤ 3 := by
  rw [natDigits]
  split
  · simp
  · have := natDigits_length2 (n := n / 10) (by omega)
    simp; omega

theorem natDigits_short {n : Nat} (h : n < 100) : IsShort (natDigits n) :=
  ⟨⟨(natDigits_digits n).2.1, (natDigits_digits n).1⟩, natDigits_length2 h⟩

/-! ## Numbers -/

theorem pad2_eq {x : Int} (h0 : 0 ≤ x) (h : x < 100) : padInt 2 x = [digitOf (x.toNat / 10 % 10), digitOf (x.toNat % 10)] := by
  unfold padInt padNat
  rw [if_neg (by omega), if_pos (by omega)]
  simp [digitsW]

theorem getnum_pad2 (b : Bool) {x : Int} (h0 : 0 ≤ x) (h : x < 100) (r : List Char) : getnum b (padInt 2 x ++ r) = some (x, r) := by
  rw [pad2_eq h0 h]
  have h1 : x.toNat / 10 % 10 < 10 := by omega
  have h2 : x.toNat % 10 < 10 := by omega
  simp only [List.cons_append, List.nil_append, getnum, digitOf_isDigit h1, digitOf_isDigit h2, digitVal_digitOf h1,
    digitVal_digitOf h2, Bool.not_true, Bool.false_eq_true, if_false, if_true, Option.some.injEq, Prod.mk.injEq, and_true]
  omega

theorem pad0_eq {x : Int} (h0 : 0 ≤ x) : padInt 0 x = natDigits x.toNat := by
  unfold padInt padNat
  rw [if_neg (by omega), if_neg (by omega)]

theorem number_natDigits (n : Nat) : number (natDigits n) = n := by rw [number_eq]; exact (natDigits_digits n).2.2

theorem getnum_pad0 {x : Int} (h0 : 0 ≤ x) (h : x < 100) (r : List Char) (hr : NoDigitNext r) :
    getnum false (padInt 0 x ++ r) = some (x, r) := by
  rw [pad0_eq h0, getnum_short (natDigits_short (by omega)) r (fun c hc => hr c hc), number_natDigits]
  simp; omega

theorem takeWhile_digits_append {s r : List Char} (hs : ∀ c ∈ s, c.isDigit = true) (hr : NoDigitNext r) :
    (s ++ r).takeWhile Char.isDigit = s := by
  induction s with
  | nil =>
    cases r with
    | nil => rfl
    | cons a t => simp [hr a rfl]
  | cons a t ih =>
    rw [List.cons_append, List.takeWhile_cons, if_pos (hs a (by simp)), ih (fun c hc => hs c (by simp [hc]))]

/-- A number of three digits. -/
theorem getnum3_pad3 {x : Int} (h0 : 0 ≤ x) (h : x < 1000) (r : List Char) : getnum3 true (padInt 3 x ++ r) = some (x, r) := by
  have e : padInt 3 x = digitsW 3 x.toNat := by
    unfold padInt padNat
    rw [if_neg (by omega), if_pos (by omega)]
  rw [e]
  have hl := digitsW_length 3 x.toNat
  have ht : (digitsW 3 x.toNat ++ r).take 3 = digitsW 3 x.toNat := by
    rw [List.take_append_of_le_length (by omega), List.take_of_length_le (by omega)]
  have hw : (digitsW 3 x.toNat).takeWhile Char.isDigit = digitsW 3 x.toNat := by
    have := takeWhile_digits_append (r := []) (digitsW_digits 3 x.toNat) (fun c hc => by simp at hc)
    simpa using this
  unfold getnum3
  simp only [ht, hw, hl]
  have hne : (digitsW 3 x.toNat).isEmpty = false := by cases hd : digitsW 3 x.toNat <;> simp_all
  simp only [hne, digitsW_value]
  simp
  constructor
  · omega
  · have : List.drop 3 (digitsW 3 x.toNat) = [] := List.drop_of_length_le (by omega)
    rw [List.drop_append]; simp [this, hl]

theorem take_takeWhile_digits {s r : List Char} {k : Nat} (hs : ∀ c ∈ s, c.isDigit = true) (hl : s.length ≤ k) (hr : NoDigitNext r) :
    ((s ++ r).take k).takeWhile Char.isDigit = s := by
  rw [List.take_append, List.take_of_length_le hl]
  apply takeWhile_digits_append hs
  intro c hc
  cases r with
  | nil => simp at hc
  | cons a t =>
    cases hk : k - s.length with
    | zero => simp [hk] at hc
    | succ m => rw [hk] at hc; simp at hc; exact hr c (by simp [hc])

/-- A number of up to three digits. -/
theorem getnum3_pad0 {x : Int} (h0 : 0 ≤ x) (h : x < 1000) (r : List Char) (hr : NoDigitNext r) :
    getnum3 false (padInt 0 x ++ r) = some (x, r) := by
  obtain ⟨h1, h2, h3⟩ := natDigits_digits x.toNat
  rw [pad0_eq h0]
  unfold getnum3
  simp only [take_takeWhile_digits h1 (natDigits_length3 (by omega)) hr]
  have hne : (natDigits x.toNat).isEmpty = false := by cases hd : natDigits x.toNat <;> simp_all
  simp only [hne, h3]
  simp
  omega


/-! ## Names -/

theorem lookup_month3 {m : Int} (h1 : 1 ≤ m) (h2 : m ≤ 12) (r : List Char) :
    lookup shortMonthNames ((longMonthNames.getD (m - 1).toNat []).take 3 ++ r) = some (m - 1, r) := by
  rcases month_cases h1 h2 with h | h | h | h | h | h | h | h | h | h | h | h <;> subst h <;> rfl

theorem lookup_monthLong {m : Int} (h1 : 1 ≤ m) (h2 : m ≤ 12) (r : List Char) :
    lookup longMonthNames (longMonthNames.getD (m - 1).toNat [] ++ r) = some (m - 1, r) := by
  rcases month_cases h1 h2 with h | h | h | h | h | h | h | h | h | h | h | h <;> subst h <;> rfl

theorem wday_cases {k : Int} (h1 : 0 ≤ k) (h2 : k < 7) : k = 0 ∨ k = 1 ∨ k = 2 ∨ k = 3 ∨ k = 4 ∨ k = 5 ∨ k = 6 := by omega

theorem lookup_wday3 {k : Int} (h1 : 0 ≤ k) (h2 : k < 7) (r : List Char) :
    lookup shortDayNames ((longDayNames.getD k.toNat []).take 3 ++ r) = some (k, r) := by
  rcases wday_cases h1 h2 with h | h | h | h | h | h | h <;> subst h <;> rfl

theorem lookup_wdayLong {k : Int} (h1 : 0 ≤ k) (h2 : k < 7) (r : List Char) :
    lookup longDayNames (longDayNames.getD k.toNat [] ++ r) = some (k, r) := by
  rcases wday_cases h1 h2 with h | h | h | h | h | h | h <;> subst h <;> rfl

/-! ## Years -/

theorem pad4_eq {x : Int} (h0 : 0 ≤ x) (h : x ≤ 9999) : padInt 4 x = digitsW 4 x.toNat := by
  unfold padInt padNat
  rw [if_neg (by omega), if_pos (by omega)]

theorem atoi_pad4 {x : Int} (h0 : 0 ≤ x) (h : x ≤ 9999) : atoi (padInt 4 x) = some x := by
  rw [pad4_eq h0 h, atoi_digits (digitsW_digits _ _) (by intro hh; have := digitsW_length 4 x.toNat; simp [hh] at this), digitsW_value]
  simp; omega

theorem atoi_pad2 {x : Int} (h0 : 0 ≤ x) (h : x < 100) : atoi (padInt 2 x) = some x := by
  have e : padInt 2 x = digitsW 2 x.toNat := by
    unfold padInt padNat
    rw [if_neg (by omega), if_pos (by omega)]
  rw [e, atoi_digits (digitsW_digits _ _) (by intro hh; have := digitsW_length 2 x.toNat; simp [hh] at this), digitsW_value]
  simp; omega

/-! ## Zones -/

theorem zone_parts {off : Int} {n : Nat} (h : ExactZone off n) (hn : n = 1 ∨ n = 2 ∨ n = 3) :
    let z := Int.tdiv off 60
    let a := if z < 0 then -off else off
    0 ≤ Int.tmod a 60 ∧ Int.tmod a 60 < 60 ∧ z.natAbs / 60 ≤ 24 ∧
      (if z < 0 then -1 else 1) * ((((z.natAbs / 60 : Nat) : Int) * 60 + (if 2 ≤ n then ((z.natAbs % 60 : Nat) : Int) else 0)) * 60 +
        (if 3 ≤ n then Int.tmod a 60 else 0)) = off := by
  obtain ⟨h1, h2, h3⟩ := h
  intro z a
  have hz' : z = if off < 0 then -((-off) / 60) else off / 60 := by
    show off.tdiv 60 = _
    split
    · rename_i hneg
      rw [show off = -(-off) by omega, Int.neg_tdiv, Int.tdiv_eq_ediv_of_nonneg (by omega), Int.neg_neg]
    · rw [Int.tdiv_eq_ediv_of_nonneg (by omega)]
  have ha : a = if z < 0 then -off else off := rfl
  clear_value z a
  by_cases hneg : off < 0
  · rw [if_pos hneg] at hz'
    by_cases hz0 : z < 0
    · rw [if_pos hz0] at ha ⊢
      rw [ha, Int.tmod_eq_emod_of_nonneg (by omega)]
      rcases hn with hn | hn | hn <;> subst hn <;> simp at h3 ⊢ <;> omega
    · exfalso
      rcases hn with hn | hn | hn <;> subst hn <;> simp at h3 <;> omega
  · rw [if_neg hneg] at hz'
    rw [if_neg (by omega)] at ha ⊢
    rw [ha, Int.tmod_eq_emod_of_nonneg (by omega)]
    rcases hn with hn | hn | hn <;> subst hn <;> simp at h3 ⊢ <;> omega


theorem zoneNums_one (colon : Bool) {x : Int} (h0 : 0 ≤ x) (h : x < 100) (r : List Char) :
    zoneNums colon 1 (padInt 2 x ++ r) = some ([x], r) := by
  have := getnum_pad2 true h0 h []
  rw [pad2_eq h0 h] at this ⊢
  simp only [List.cons_append, List.nil_append] at this ⊢
  simp [zoneNums, this]

theorem zoneNums_more (colon : Bool) {n : Nat} {x : Int} (h0 : 0 ≤ x) (h : x < 100) (r : List Char) :
    zoneNums colon (n + 2) (padInt 2 x ++ ((if colon then [':'] else []) ++ r)) =
      (zoneNums colon (n + 1) r).map fun p => (x :: p.1, p.2) := by
  have := getnum_pad2 true h0 h []
  rw [pad2_eq h0 h] at this ⊢
  simp only [List.cons_append, List.nil_append] at this ⊢
  cases colon <;> simp [zoneNums, this]

/-- A zone that is written exactly is read back. -/
theorem parse_zone (iso colon : Bool) {n : Nat} {off : Int} (h : ExactZone off n) (hn : n = 1 ∨ n = 2 ∨ n = 3)
    (cs : List Chunk) (r : List Char) (st : PState) :
    parseChunk (.zone iso colon n) cs (formatZone iso colon n off ++ r) st =
      some (r, if iso = true ∧ off = 0 then { st with isUTC := true } else { st with zoneOff := off }) := by
  obtain ⟨p1, p2, p3, p4⟩ := zone_parts h hn
  unfold formatZone
  by_cases hu : iso = true ∧ off = 0
  · rw [if_pos (by simp [hu]), if_pos hu]
    simp [parseChunk, hu.1]
  · rw [if_neg (by simpa using hu), if_neg hu]
    simp only
    generalize Int.tdiv off 60 = z at *
    have eneg : (decide (z < 0) = true) = (z < 0) := by simp
    simp only [eneg]
    generalize (if z < 0 then -off else off) = a at *
    have hs : ∀ x : Char, (if z < 0 then '-' else '+') ≠ 'Z' := by intro _; split <;> decide
    have hZ : (iso && (some (if z < 0 then '-' else '+') == some 'Z')) = false := by
      have := hs ' '
      simp [this]
    have fin : ∀ ns : List Int, ns.getD 0 0 = ((z.natAbs / 60 : Nat) : Int) →
        ns.getD 1 0 = (if 2 ≤ n then ((z.natAbs % 60 : Nat) : Int) else 0) → ns.getD 2 0 = (if 3 ≤ n then Int.tmod a 60 else 0) →
        (if ns.getD 0 0 > 24 ∨ ns.getD 1 0 > 60 ∨ ns.getD 2 0 > 60 then (none : Option (List Char × PState))
          else if ((if z < 0 then '-' else '+') == '+') = true then some (r, { st with zoneOff := (ns.getD 0 0 * 60 + ns.getD 1 0) * 60 + ns.getD 2 0 })
            else if ((if z < 0 then '-' else '+') == '-') = true then some (r, { st with zoneOff := -((ns.getD 0 0 * 60 + ns.getD 1 0) * 60 + ns.getD 2 0) })
            else none) = some (r, { st with zoneOff := off }) := by
      intro ns e0 e1 e2
      rw [e0, e1, e2]
      have b1 : (if 2 ≤ n then ((z.natAbs % 60 : Nat) : Int) else 0) ≤ 60 := by split <;> omega
      have b2 : (if 3 ≤ n then Int.tmod a 60 else 0) ≤ 60 := by split <;> omega
      rw [if_neg (by omega)]
      by_cases hz : z < 0
      · simp only [hz, if_true] at p4 ⊢
        rw [if_neg (by decide), if_pos (by decide), ← p4, Int.neg_one_mul]
      · simp only [hz, if_false] at p4 ⊢
        rw [if_pos (by decide)]
        rw [Int.one_mul] at p4
        rw [p4]
    have h100 : ((z.natAbs / 60 : Nat) : Int) < 100 := by omega
    rcases hn with hn | hn | hn <;> subst hn
    · simp only [show ¬ (2 ≤ 1) by omega, show ¬ (3 ≤ 1) by omega, if_false, List.append_nil, List.cons_append]
      rw [parseChunk]
      simp only [List.head?_cons, hZ, Bool.false_eq_true, if_false, zoneNums_one colon (show (0:Int) ≤ ((z.natAbs / 60 : Nat) : Int) by omega) h100]
      exact fin _ rfl (by simp) (by simp)
    · simp only [show (2 ≤ 2) by omega, show ¬ (3 ≤ 2) by omega, if_true, if_false, List.append_nil, List.cons_append, List.append_assoc]
      rw [parseChunk]
      simp only [List.head?_cons, hZ, Bool.false_eq_true, if_false]
      rw [zoneNums_more (n := 0) colon (show (0:Int) ≤ ((z.natAbs / 60 : Nat) : Int) by omega) h100,
        zoneNums_one colon (show (0:Int) ≤ ((z.natAbs % 60 : Nat) : Int) by omega) (by omega)]
      exact fin _ rfl (by simp) (by simp)
    · simp only [show (2 ≤ 3) by omega, show (3 ≤ 3) by omega, if_true, List.cons_append, List.append_assoc]
      rw [parseChunk]
      simp only [List.head?_cons, hZ, Bool.false_eq_true, if_false]
      rw [zoneNums_more (n := 1) colon (show (0:Int) ≤ ((z.natAbs / 60 : Nat) : Int) by omega) h100,
        zoneNums_more (n := 0) colon (show (0:Int) ≤ ((z.natAbs % 60 : Nat) : Int) by omega) (by omega),
        zoneNums_one colon p1 (by omega)]
      exact fin _ rfl (by simp) (by simp)


/-! ## Fractions -/

theorem digitsW_take (a b N : Nat) : (digitsW (a + b) N).take a = digitsW a (N / 10 ^ b) := by
  induction b generalizing N with
  | zero => simp [List.take_of_length_le, digitsW_length]
  | succ b ih =>
    rw [show a + (b + 1) = (a + b) + 1 by omega, digitsW, List.take_append_of_le_length (by rw [digitsW_length]; omega), ih,
      Nat.div_div_eq_div_mul, Nat.pow_succ, Nat.mul_comm]

theorem fracDigits_eq {n : Nat} (hn : n ≤ 9) (ns : Int) : fracDigits n ns = digitsW n (ns.toNat / 10 ^ (9 - n)) := by
  have := digitsW_take n (9 - n) ns.toNat
  rw [show n + (9 - n) = 9 by omega] at this
  exact this

theorem natOfDigits_zeros (s : List Char) (k : Nat) : natOfDigits (s ++ List.replicate k '0') = natOfDigits s * 10 ^ k := by
  induction k with
  | zero => simp
  | succ k ih =>
    rw [List.replicate_succ', ← List.append_assoc, natOfDigits_snoc, ih, show digitVal '0' = 0 by decide, Int.pow_succ]
    rw [Int.add_zero, Int.mul_assoc]

theorem dropZeros_spec (ds : List Char) : ∃ k, ds = dropZeros ds ++ List.replicate k '0' := by
  have gen : ∀ l : List Char, ∃ k, l = List.replicate k '0' ++ l.dropWhile (· == '0') := by
    intro l
    induction l with
    | nil => exact ⟨0, rfl⟩
    | cons a t ih =>
      rw [List.dropWhile_cons]
      by_cases h : (a == '0') = true
      · obtain ⟨k, hk⟩ := ih
        refine ⟨k + 1, ?_⟩
        rw [if_pos h, List.replicate_succ, List.cons_append, ← hk]
        simpa using h
      · exact ⟨0, by simp [h]⟩
  obtain ⟨k, hk⟩ := gen ds.reverse
  refine ⟨k, ?_⟩
  have := congrArg List.reverse hk
  rw [List.reverse_reverse, List.reverse_append, List.reverse_replicate] at this
  exact this

/-- The fraction of a second to `n` digits, in nanoseconds. -/
def truncNs (n : Nat) (ns : Int) : Int := ns / 10 ^ (9 - n) * 10 ^ (9 - n)

theorem fracDigits_value {n : Nat} (hn : n ≤ 9) {ns : Int} (h0 : 0 ≤ ns) (h1 : ns < 1000000000) :
    natOfDigits (fracDigits n ns) = ns / 10 ^ (9 - n) := by
  rw [fracDigits_eq hn, digitsW_value]
  have hlt : ns.toNat / 10 ^ (9 - n) < 10 ^ n := by
    apply Nat.div_lt_of_lt_mul
    rw [← Nat.pow_add, show 9 - n + n = 9 by omega]; omega
  rw [Nat.mod_eq_of_lt hlt]
  have : ns = (ns.toNat : Int) := by omega
  conv => rhs; rw [this]
  simp

theorem fracDigits_length {n : Nat} (hn : n ≤ 9) (ns : Int) : (fracDigits n ns).length = n := by
  rw [fracDigits_eq hn, digitsW_length]

theorem fracDigits_digits {n : Nat} (hn : n ≤ 9) (ns : Int) : ∀ c ∈ fracDigits n ns, c.isDigit = true := by
  rw [fracDigits_eq hn]; exact digitsW_digits _ _

theorem fracDigits_min (n : Nat) (ns : Int) : fracDigits n ns = fracDigits (min n 9) ns := by
  unfold fracDigits
  rw [Nat.min_def]
  split
  · rfl
  · rw [List.take_of_length_le (by rw [digitsW_length]; omega), List.take_of_length_le (by rw [digitsW_length]; omega)]

theorem dropZeros_digits {n : Nat} (hn : n ≤ 9) (ns : Int) : ∀ c ∈ dropZeros (fracDigits n ns), c.isDigit = true := by
  obtain ⟨k, hk⟩ := dropZeros_spec (fracDigits n ns)
  intro c hc
  exact fracDigits_digits hn ns c (by rw [hk]; simp [hc])

theorem dropZeros_value {n : Nat} (hn : n ≤ 9) {ns : Int} (h0 : 0 ≤ ns) (h1 : ns < 1000000000) :
    nanosOfDigits (dropZeros (fracDigits n ns)) = truncNs n ns := by
  obtain ⟨k, hk⟩ := dropZeros_spec (fracDigits n ns)
  have hl := congrArg List.length hk
  rw [List.length_append, List.length_replicate, fracDigits_length hn] at hl
  have hv := congrArg natOfDigits hk
  rw [natOfDigits_zeros, fracDigits_value hn h0 h1] at hv
  unfold nanosOfDigits truncNs
  simp only
  rw [List.take_of_length_le (by omega), hv, Int.mul_assoc, ← Int.pow_add, show k + (9 - n) = 9 - (dropZeros (fracDigits n ns)).length by omega]

theorem dropZeros_empty {n : Nat} (hn : n ≤ 9) {ns : Int} (h0 : 0 ≤ ns) (h1 : ns < 1000000000)
    (h : (dropZeros (fracDigits n ns)).isEmpty = true) : truncNs n ns = 0 := by
  have := dropZeros_value hn h0 h1
  rw [List.isEmpty_iff] at h
  rw [h] at this
  rw [← this]; rfl

theorem fracPrefix_no {r : List Char} (h : NoFractionNext r) : fracPrefix r = none := by
  match r with
  | [] => rfl
  | [_] => rfl
  | p :: d :: x =>
    rw [fracPrefix]
    split
    · rename_i hc
      simp only [Bool.and_eq_true, Bool.or_eq_true, beq_iff_eq] at hc
      have := h p d x rfl hc.1
      simp [this] at hc
    · rfl

theorem fracPrefix_yes {sep : Char} (hsep : sep = '.' ∨ sep = ',') {f : List Char} (hne : f ≠ []) (hf : ∀ c ∈ f, c.isDigit = true)
    (r : List Char) (hr : NoDigitNext r) : fracPrefix (sep :: (f ++ r)) = some (f, r) := by
  cases f with
  | nil => exact absurd rfl hne
  | cons a t =>
    have h1 : (t ++ r).takeWhile Char.isDigit = t := takeWhile_digits_append (fun c hc => hf c (by simp [hc])) hr
    have h2 : (t ++ r).dropWhile Char.isDigit = r := by
      have := List.takeWhile_append_dropWhile (p := Char.isDigit) (l := t ++ r)
      rw [h1] at this
      exact List.append_cancel_left this
    rw [List.cons_append, fracPrefix, h1, h2, if_pos]
    rcases hsep with h | h <;> subst h <;> simp [hf a (by simp)]

theorem parse_frac9 {sep : Char} (hsep : sep = '.' ∨ sep = ',') (n : Nat) {ns : Int} (h0 : 0 ≤ ns) (h1 : ns < 1000000000)
    (cs : List Chunk) (r : List Char) (hr : NoDigitNext r) (hr2 : NoFractionNext r) (st : PState) :
    parseChunk (.frac9 sep n) cs ((if (dropZeros (fracDigits n ns)).isEmpty then [] else sep :: dropZeros (fracDigits n ns)) ++ r) st =
      some (r, if (dropZeros (fracDigits n ns)).isEmpty then st else { st with nsec := truncNs (min n 9) ns }) := by
  rw [fracDigits_min]
  by_cases h : (dropZeros (fracDigits (min n 9) ns)).isEmpty = true
  · rw [if_pos h, if_pos h, List.nil_append, parseChunk, fracPrefix_no hr2]
  · rw [if_neg h, if_neg h, parseChunk, List.cons_append, fracPrefix_yes hsep (by simpa using h) (dropZeros_digits (by omega) ns) r hr]
    simp only [dropZeros_value (n := min n 9) (by omega) h0 h1]

theorem parse_frac0 {sep : Char} (hsep : sep = '.' ∨ sep = ',') {n : Nat} (hn : n ≤ 9) (hn1 : 1 ≤ n) {ns : Int} (h0 : 0 ≤ ns) (h1 : ns < 1000000000)
    (cs : List Chunk) (r : List Char) (st : PState) :
    parseChunk (.frac0 sep n) cs (sep :: fracDigits n ns ++ r) st = some (r, { st with nsec := truncNs n ns }) := by
  have hl := fracDigits_length hn ns
  have ht : (fracDigits n ns ++ r).take n = fracDigits n ns := by
    rw [List.take_append_of_le_length (by omega), List.take_of_length_le (by omega)]
  have hd : (fracDigits n ns ++ r).drop n = r := by
    rw [List.drop_append, List.drop_of_length_le (by omega), hl]; simp
  have h9 : (fracDigits n ns).take 9 = fracDigits n ns := List.take_of_length_le (by omega)
  have hs : (sep == '.' || sep == ',') = true := by rcases hsep with h | h <;> subst h <;> rfl
  have hle : n ≤ (fracDigits n ns ++ r).length := by rw [List.length_append]; omega
  rw [List.cons_append, parseChunk]
  simp only [hs, hle, decide_true, Bool.and_self, if_true, ht, hd, h9, hl]
  rw [atoi_digits (fracDigits_digits hn ns) (by intro h; rw [h] at hl; simp at hl; omega), fracDigits_value hn h0 h1]
  have hpos : (0:Int) ≤ ns / 10 ^ (9 - n) := Int.ediv_nonneg h0 (by exact Int.pow_nonneg (by omega))
  simp only [Option.bind_some, show ¬ (ns / 10 ^ (9 - n) < 0) by omega, if_false]
  rfl

/-! ## Abbreviations -/

theorem parse_tzName {a : List Char} (ha : IsAbbr a) (cs : List Chunk) (r : List Char)
    (hr : ∀ c, r.head? = some c → ¬ ('A' ≤ c ∧ c ≤ 'Z') ∧ c ≠ '+' ∧ c ≠ '-') (st : PState) :
    parseChunk .tzName cs (a ++ r) st =
      some (r, if a = ['U', 'T', 'C'] then { st with isUTC := true } else { st with zoneName := a }) := by
  have up : ∀ c : Char, 'A' ≤ c ∧ c ≤ 'Z' → c ≠ 'h' ∧ c ≠ 'e' ∧ c ≠ '+' ∧ c ≠ '-' := by
    intro c hc
    refine ⟨?_, ?_, ?_, ?_⟩ <;> (intro h; subst h; revert hc; decide)
  have hsig : signedOffsetLen r = 0 := by
    cases r with
    | nil => rfl
    | cons x t =>
      have := hr x rfl
      simp [signedOffsetLen, this.2.1, this.2.2]
  have hr' : ∀ k : Nat, (r.take k).takeWhile (fun c => decide ('A' ≤ c) && decide (c ≤ 'Z')) = [] := by
    intro k
    cases r with
    | nil => simp
    | cons x t =>
      cases k with
      | zero => rfl
      | succ k =>
        have := (hr x rfl).1
        have hx : (decide ('A' ≤ x) && decide (x ≤ 'Z')) = false := by simpa using this
        simp [List.takeWhile_cons, hx]
  obtain ⟨h1, h2⟩ := ha
  rcases h2 with h2 | ⟨h2, h3, h4, h5⟩
  · match a, h2 with
    | [x, y, z], _ =>
      have hx := h1 x (by simp)
      have hy := h1 y (by simp)
      have hz := h1 z (by simp)
      have uy := up y hy
      have ux := up x hx
      have wx : (decide ('A' ≤ x) && decide (x ≤ 'Z')) = true := by simp [hx]
      have wy : (decide ('A' ≤ y) && decide (y ≤ 'Z')) = true := by simp [hy]
      have wz : (decide ('A' ≤ z) && decide (z ≤ 'Z')) = true := by simp [hz]
      rw [parseChunk]
      by_cases hu : [x, y, z] = ['U', 'T', 'C']
      · rw [if_pos hu, if_pos (by simpa using hu)]; simp
      · rw [if_neg hu, if_neg (by simpa using hu)]
        have : zoneNameLen ([x, y, z] ++ r) = some 3 := by
          unfold zoneNameLen
          rw [if_neg (by simp), if_neg (by simp [uy])]
          split
          · simp [hsig]
          · rw [if_neg (by simp [ux])]
            simp [List.takeWhile_cons, wx, wy, wz, hr']
        rw [this]; simp
  · match a, h2 with
    | [x, y, z, w], _ =>
      have hx := h1 x (by simp)
      have hy := h1 y (by simp)
      have hz := h1 z (by simp)
      have hw := h1 w (by simp)
      have uy := up y hy
      have ux := up x hx
      have wx : (decide ('A' ≤ x) && decide (x ≤ 'Z')) = true := by simp [hx]
      have wy : (decide ('A' ≤ y) && decide (y ≤ 'Z')) = true := by simp [hy]
      have wz : (decide ('A' ≤ z) && decide (z ≤ 'Z')) = true := by simp [hz]
      have ww : (decide ('A' ≤ w) && decide (w ≤ 'Z')) = true := by simp [hw]
      have hw' : w = 'T' := by simpa using h3
      rw [parseChunk, if_neg (by simpa using h4), if_neg (by simp)]
      have : zoneNameLen ([x, y, z, w] ++ r) = some 4 := by
        unfold zoneNameLen
        rw [if_neg (by simp), if_neg (by simp [uy]), if_neg (by simpa using h5), if_neg (by simp [ux])]
        simp [List.takeWhile_cons, wx, wy, wz, ww, hr', hw']
      rw [this]; simp


/-! ## Every element -/

/-- What `layoutChunks` yields. -/
def EltOK : Chunk → Prop
  | .lit c => c ≠ '3' ∧ c ≠ '4' ∧ c ≠ ' '
  | .spaces n => 1 ≤ n
  | .frac9 sep n | .frac0 sep n => (sep = '.' ∨ sep = ',') ∧ 1 ≤ n
  | .zone _ _ n => n = 1 ∨ n = 2 ∨ n = 3
  | _ => True

/-- What an element sets. -/
def setElt (t : Time) (st : PState) : Chunk → PState
  | .lit _ | .spaces _ | .wday3 | .wdayLong => st
  | .year2 | .year4 => { st with year := t.year }
  | .month3 | .monthLong | .month1 | .month01 => { st with month := t.month }
  | .day2 | .day02 | .dayUnder => { st with day := t.day }
  | .hour15 => { st with hour := t.hour }
  | .hour3 | .hour03 => { st with hour := if t.hour % 12 = 0 then 12 else t.hour % 12 }
  | .min4 | .min04 => { st with min := t.minute }
  | .sec5 | .sec05 => { st with sec := t.second }
  | .pm | .pmLower => if 12 ≤ t.hour then { st with pmSet := true } else { st with amSet := true }
  | .frac9 _ n => if (dropZeros (fracDigits n t.nsec)).isEmpty then st else { st with nsec := truncNs (min n 9) t.nsec }
  | .frac0 _ n => { st with nsec := truncNs n t.nsec }
  | .yday3 | .ydayUnder => { st with yday := t.yearDay }
  | .zone iso _ _ => if iso = true ∧ t.loc.off t.sec = 0 then { st with isUTC := true } else { st with zoneOff := t.loc.off t.sec }
  | .tzName => if t.loc.abbr t.sec = ['U', 'T', 'C'] then { st with isUTC := true } else { st with zoneName := t.loc.abbr t.sec }

theorem yearDay_range (t : Time) : 1 ≤ t.yearDay ∧ t.yearDay ≤ 366 := by
  obtain ⟨h1, h2, h3, h4⟩ := t.civil_valid
  have := daysBeforeMonth_nonneg t.civil.y t.civil.m
  have := daysBeforeMonth_add_daysIn_le t.civil.y t.civil.m h1 h2
  show 1 ≤ daysBeforeMonth t.civil.y t.civil.m + t.civil.d ∧ daysBeforeMonth t.civil.y t.civil.m + t.civil.d ≤ 366
  split at this <;> omega

theorem no_space_digits {x : Int} (h0 : 0 ≤ x) (r : List Char) : ∀ y, padInt 0 x ++ r ≠ ' ' :: y := by
  intro y hy
  rw [pad0_eq h0] at hy
  obtain ⟨h1, h2, _⟩ := natDigits_digits x.toNat
  cases hd : natDigits x.toNat with
  | nil => exact h2 hd
  | cons a b =>
    rw [hd] at hy h1
    simp at hy
    have := h1 a (by simp)
    rw [hy.1] at this
    revert this; decide

theorem parse_elt (t : Time) (c : Chunk) (cs : List Chunk) (hc : EltOK c) (he : EndsClearly t c cs)
    (hs : ∀ n, c ≠ .spaces n) (hw : Writable t (c :: cs)) (st : PState) :
    parseChunk c cs (formatChunk t c ++ formatWith cs t) st = some (formatWith cs t, setElt t st c) := by
  obtain ⟨m1, m2, d1, d2⟩ := t.civil_valid
  have m1 : 1 ≤ t.month := m1
  have m2 : t.month ≤ 12 := m2
  have d1 : 1 ≤ t.day := d1
  have d2 : t.day ≤ 31 := by have := daysIn_le t.civil.y t.civil.m; show t.civil.d ≤ 31; omega
  obtain ⟨c1, c2, c3, c4, c5, c6, c7, c8⟩ := t.clockOK hw.wf
  obtain ⟨y1, y2⟩ := hw.year
  have hyd := yearDay_range t
  have hwd := weekdayOfDays_range (t.wall / 86400)
  have hwd1 : 0 ≤ t.weekday := hwd.1
  have hwd2 : t.weekday < 7 := hwd.2
  have hh12 : 1 ≤ (if t.hour % 12 = 0 then 12 else t.hour % 12) ∧ (if t.hour % 12 = 0 then 12 else t.hour % 12) ≤ 12 := by split <;> omega
  cases c with
  | lit c => simp [formatChunk, parseChunk, setElt]
  | spaces n => exact absurd rfl (hs n)
  | year2 =>
    obtain ⟨s1, s2⟩ := hw.short (by simp)
    have hl : (padInt 2 (t.year % 100)).length = 2 := by rw [pad2_eq (by omega) (by omega)]; rfl
    simp only [formatChunk, show ¬ (t.year < 0) by omega, if_false]
    rw [parseChunk, if_neg (by rw [List.length_append]; omega), List.take_append_of_le_length (by omega), List.take_of_length_le (by omega),
      atoi_pad2 (by omega) (by omega), List.drop_append, List.drop_of_length_le (by omega), hl]
    simp [setElt]
    split <;> omega
  | year4 =>
    have hl : (padInt 4 t.year).length = 4 := by rw [pad4_eq (by omega) (by omega), digitsW_length]
    have hd : ((padInt 4 t.year ++ formatWith cs t).headD 'x').isDigit = true := by
      cases hp : padInt 4 t.year with
      | nil => rw [hp] at hl; simp at hl
      | cons a b =>
        rw [pad4_eq (by omega) (by omega)] at hp
        have := digitsW_digits 4 t.year.toNat a (by rw [hp]; simp)
        simpa using this
    simp only [formatChunk]
    rw [parseChunk, if_neg (by rw [List.length_append, hd]; simp; omega), List.take_append_of_le_length (by omega), List.take_of_length_le (by omega),
      atoi_pad4 (by omega) (by omega), List.drop_append, List.drop_of_length_le (by omega), hl]
    simp [setElt]
  | month3 => rw [parseChunk, formatChunk, lookup_month3 m1 m2]; simp [setElt]
  | monthLong => rw [parseChunk, formatChunk, lookup_monthLong m1 m2]; simp [setElt]
  | month1 =>
    rw [parseChunk, formatChunk, getnum_pad0 (by omega) (by omega) _ he]
    simp only [Option.bind_some]
    rw [if_neg (by omega)]; rfl
  | month01 =>
    rw [parseChunk, formatChunk, getnum_pad2 _ (by omega) (by omega)]
    simp only [Option.bind_some]
    rw [if_neg (by omega)]; rfl
  | wday3 => rw [parseChunk, formatChunk, lookup_wday3 hwd1 hwd2]; simp [setElt]
  | wdayLong => rw [parseChunk, formatChunk, lookup_wdayLong hwd1 hwd2]; simp [setElt]
  | day2 => rw [parseChunk, formatChunk, getnum_pad0 (by omega) (by omega) _ he]; rfl
  | day02 => rw [parseChunk, formatChunk, getnum_pad2 _ (by omega) (by omega)]; rfl
  | dayUnder =>
    have := no_space_digits (x := t.day) (by omega) (formatWith cs t)
    unfold parseChunk
    simp only [formatChunk]
    have fin : (getnum false (padInt 0 t.day ++ formatWith cs t)).map (fun p => (p.2, { st with day := p.1 })) =
        some (formatWith cs t, setElt t st .dayUnder) := by
      rw [getnum_pad0 (by omega) (by omega) _ he]; rfl
    by_cases h1 : t.day < 10
    · simp only [h1, if_true, List.cons_append, List.nil_append]; exact fin
    · simp only [h1, if_false, List.nil_append]
      generalize padInt 0 t.day ++ formatWith cs t = w at *
      have e : ∀ v : List Char, (∀ y, v ≠ ' ' :: y) → (match v with | ' ' :: r => r | _ => v) = v := by
        intro v hv
        split
        · exact absurd rfl (hv _)
        · rfl
      first | exact fin | (rw [e w this]; exact fin)
  | hour15 =>
    rw [parseChunk, formatChunk, getnum_pad2 _ (by omega) (by omega)]
    simp only [Option.bind_some]
    rw [if_neg (by omega)]; rfl
  | hour3 =>
    rw [parseChunk, formatChunk, getnum_pad0 (by omega) (by omega) _ he]
    simp only [Option.bind_some]
    rw [if_neg (by omega)]; rfl
  | hour03 =>
    rw [parseChunk, formatChunk, getnum_pad2 _ (by omega) (by omega)]
    simp only [Option.bind_some]
    rw [if_neg (by omega)]; rfl
  | min4 =>
    rw [parseChunk, formatChunk, getnum_pad0 (by omega) (by omega) _ he]
    simp only [Option.bind_some]
    rw [if_neg (by omega)]; rfl
  | min04 =>
    rw [parseChunk, formatChunk, getnum_pad2 _ (by omega) (by omega)]
    simp only [Option.bind_some]
    rw [if_neg (by omega)]; rfl
  | sec5 =>
    rw [parseChunk, formatChunk, getnum_pad0 (by omega) (by omega) _ he.1]
    simp only [Option.bind_some, parseChunk.secTail]
    rw [if_neg (by omega)]
    rcases he.2 with h | h
    · rw [h]; split <;> simp [setElt]
    · rw [fracPrefix_no h]; rfl
  | sec05 =>
    rw [parseChunk, formatChunk, getnum_pad2 _ (by omega) (by omega)]
    simp only [Option.bind_some, parseChunk.secTail]
    rw [if_neg (by omega)]
    rcases he with h | h
    · rw [h]; split <;> simp [setElt]
    · rw [fracPrefix_no h]; rfl
  | pm =>
    rw [parseChunk, formatChunk]
    simp only [setElt]
    split <;> simp
  | pmLower =>
    rw [parseChunk, formatChunk]
    simp only [setElt]
    split <;> simp
  | frac9 sep n =>
    simp only [formatChunk, setElt]
    exact parse_frac9 hc.1 n hw.wf.1 hw.wf.2 cs _ he.1 he.2 st
  | frac0 sep n =>
    simp only [formatChunk, setElt]
    exact parse_frac0 hc.1 he hc.2 hw.wf.1 hw.wf.2 cs _ st
  | yday3 => rw [parseChunk, formatChunk, getnum3_pad3 (by omega) (by omega)]; rfl
  | ydayUnder =>
    have := no_space_digits (x := t.yearDay) (by omega) (formatWith cs t)
    unfold parseChunk
    simp only [formatChunk]
    have fin : (getnum3 false (padInt 0 t.yearDay ++ formatWith cs t)).map (fun p => (p.2, { st with yday := p.1 })) =
        some (formatWith cs t, setElt t st .ydayUnder) := by
      rw [getnum3_pad0 (by omega) (by omega) _ he]; rfl
    by_cases h1 : t.yearDay < 100
    · by_cases h2 : t.yearDay < 10
      · simp only [h1, h2, if_true, List.cons_append, List.nil_append]; exact fin
      · simp only [h1, h2, if_true, if_false, List.cons_append, List.nil_append]
        exact fin
    · have h2 : ¬ t.yearDay < 10 := by omega
      simp only [h1, h2, if_false, List.nil_append]
      generalize padInt 0 t.yearDay ++ formatWith cs t = w at *
      have e : ∀ v : List Char, (∀ y, v ≠ ' ' :: y) → (match v with | ' ' :: r => r | _ => v) = v := by
        intro v hv
        split
        · exact absurd rfl (hv _)
        · rfl
      first | exact fin | (rw [e w this, e w this]; exact fin)
  | zone iso colon n =>
    simp only [formatChunk, setElt]
    exact parse_zone iso colon (hw.zone iso colon n (by simp)) hc cs _ st
  | tzName =>
    have ha := hw.abbr (by simp)
    have hne : t.loc.abbr t.sec ≠ [] := by
      intro h; rw [h] at ha; rcases ha.2 with h | h
      · simp at h
      · simp at h
    simp only [formatChunk, setElt, if_pos hne]
    exact parse_tzName ha cs _ he st


theorem dropSpaces_pad {x : Int} (h0 : 0 ≤ x) (pre r : List Char) (hp : ∀ c ∈ pre, c = ' ') :
    (pre ++ padInt 0 x ++ r).dropWhile (· == ' ') = padInt 0 x ++ r := by
  induction pre with
  | nil =>
    have := no_space_digits h0 r
    rw [List.nil_append]
    cases hw : padInt 0 x ++ r with
    | nil => rfl
    | cons a b =>
      rw [List.dropWhile_cons, if_neg]
      intro h
      exact this b (by rw [hw]; simpa using h)
  | cons a b ih =>
    rw [List.cons_append, List.cons_append, List.dropWhile_cons, if_pos (by simp [hp a]), ih (fun c hc => hp c (by simp [hc]))]

theorem parse_dropped (t : Time) (c : Chunk) (cs : List Chunk) (hc : c = .dayUnder ∨ c = .ydayUnder) (he : EndsClearly t c cs)
    (st : PState) :
    parseChunk c cs ((formatChunk t c ++ formatWith cs t).dropWhile (· == ' ')) st = some (formatWith cs t, setElt t st c) := by
  obtain ⟨m1, m2, d1, d2⟩ := t.civil_valid
  have d1 : 1 ≤ t.day := d1
  have d2 : t.day ≤ 31 := by have := daysIn_le t.civil.y t.civil.m; show t.civil.d ≤ 31; omega
  have hyd := yearDay_range t
  have e : ∀ v : List Char, (∀ y, v ≠ ' ' :: y) → (match v with | ' ' :: r => r | _ => v) = v := by
    intro v hv
    split
    · exact absurd rfl (hv _)
    · rfl
  rcases hc with hc | hc <;> subst hc
  · have := no_space_digits (x := t.day) (by omega) (formatWith cs t)
    simp only [formatChunk]
    rw [dropSpaces_pad (by omega) _ _ (by intro c hc; split at hc <;> simp_all)]
    unfold parseChunk
    simp only
    rw [getnum_pad0 (by omega) (by omega) _ he]; rfl
  · have := no_space_digits (x := t.yearDay) (by omega) (formatWith cs t)
    simp only [formatChunk]
    rw [dropSpaces_pad (by omega) _ _ (by intro c hc; rw [List.mem_append] at hc; rcases hc with hc | hc <;> split at hc <;> simp_all)]
    unfold parseChunk
    simp only
    rw [getnum3_pad0 (by omega) (by omega) _ he]; rfl

theorem dropSpaces_of_head {v : List Char} (h : v.head? ≠ some ' ') : v.dropWhile (· == ' ') = v := by
  cases v with
  | nil => rfl
  | cons a b =>
    rw [List.dropWhile_cons, if_neg]
    intro hh
    exact h (by simpa using hh)

theorem dropSpaces_replicate (n : Nat) (v : List Char) : (List.replicate n ' ' ++ v).dropWhile (· == ' ') = v.dropWhile (· == ' ') := by
  induction n with
  | zero => rfl
  | succ n ih => rw [List.replicate_succ, List.cons_append, List.dropWhile_cons, if_pos (by decide), ih]

theorem writable_tail {t : Time} {c : Chunk} {cs : List Chunk} (h : Writable t (c :: cs)) : Writable t cs where
  wf := h.wf
  year := h.year
  short hm := h.short (by simp [hm])
  zone i k n hm := h.zone i k n (by simp [hm])
  abbr hm := h.abbr (by simp [hm])

/-- A text that the layout writes is read back by the layout. -/
theorem parse_format (t : Time) : ∀ (cs : List Chunk) (v : List Char) (st : PState), (∀ c ∈ cs, EltOK c) → Unambiguous t cs → Writable t cs →
    (v = formatWith cs t ∨ ((cs.head? = some .dayUnder ∨ cs.head? = some .ydayUnder) ∧ v = (formatWith cs t).dropWhile (· == ' '))) →
    parseChunks cs v st = some (cs.foldl (setElt t) st)
  | [], v, st, _, _, _, hv => by
    have : v = [] := by
      rcases hv with h | ⟨_, h⟩ <;> rw [h] <;> rfl
    rw [this]; rfl
  | c :: cs, v, st, hok, hu, hw, hv => by
    have ih := parse_format t cs
    have hF : formatWith (c :: cs) t = formatChunk t c ++ formatWith cs t := by simp [formatWith]
    rw [parseChunks, List.foldl_cons]
    by_cases hsp : ∃ n, c = .spaces n
    · obtain ⟨n, hn⟩ := hsp
      subst hn
      have hn1 : 1 ≤ n := hok (.spaces n) (by simp)
      have hv' : v = List.replicate n ' ' ++ formatWith cs t := by
        rcases hv with h | ⟨h, _⟩
        · rw [h, hF]; rfl
        · simp at h
      have hp : parseChunk (.spaces n) cs v st = some ((formatWith cs t).dropWhile (· == ' '), st) := by
        rw [hv', ← dropSpaces_replicate n (formatWith cs t)]
        cases n with
        | zero => omega
        | succ n => simp [List.replicate_succ, parseChunk]
      rw [hp]
      refine ih _ _ (fun x hx => hok x (by simp [hx])) hu.2 (writable_tail hw) ?_
      by_cases hh : (formatWith cs t).head? = some ' '
      · exact Or.inr ⟨hu.1 hh, rfl⟩
      · exact Or.inl (dropSpaces_of_head hh)
    · have hp : parseChunk c cs v st = some (formatWith cs t, setElt t st c) := by
        rcases hv with h | ⟨h, h'⟩
        · rw [h, hF]; exact parse_elt t c cs (hok c (by simp)) hu.1 (fun n hn => hsp ⟨n, hn⟩) hw st
        · rw [h', hF]; exact parse_dropped t c cs (by simpa using h) hu.1 st
      rw [hp]
      exact ih _ _ (fun x hx => hok x (by simp [hx])) hu.2 (writable_tail hw) (Or.inl rfl)

end Verif.Lemmas
