import Verif.Lemmas.Calendar
import Verif.Lemmas.Tokenizer
import Verif.Lemmas.Spaces
/-! Helper lemmas: what `getDatePartValue` finds in digit tokens. -/
set_option autoImplicit false
namespace Verif.Lemmas
open Verif.Go Verif.Model

/-- All characters are ASCII digits. -/
def Digits (s : List Char) : Prop := ∀ c ∈ s, c.isDigit = true

theorem isDigit_le {c : Char} (h : c.isDigit = true) : '0' ≤ c ∧ c ≤ '9' := by
  simp only [Char.isDigit, Bool.and_eq_true, decide_eq_true_eq] at h
  exact h

theorem digitVal_range {c : Char} (h : c.isDigit = true) : 0 ≤ digitVal c ∧ digitVal c ≤ 9 := by
  have ⟨h1, h2⟩ := isDigit_le h
  have a : ('0' : Char).toNat ≤ c.toNat := h1
  have b : c.toNat ≤ ('9' : Char).toNat := h2
  have e1 : ('0' : Char).toNat = 48 := by decide
  have e2 : ('9' : Char).toNat = 57 := by decide
  unfold digitVal
  omega

theorem toLowerC_digit {c : Char} (h : c.isDigit = true) : toLowerC c = c := by
  have ⟨_, h2⟩ := isDigit_le h
  unfold toLowerC
  rw [if_neg]
  rintro ⟨h3, _⟩
  exact absurd (Char.le_trans h3 h2) (by decide)

theorem toLower_digits {s : List Char} (h : Digits s) : toLower s = s := by
  unfold toLower
  have : s.map toLowerC = s.map id := List.map_congr_left (fun c hc => toLowerC_digit (h c hc))
  rw [this, List.map_id]

theorem natOfDigits_cons_aux (s : List Char) : ∀ a : Int,
    s.foldl (fun a c => a * 10 + digitVal c) a = a * 10 ^ s.length + natOfDigits s := by
  induction s with
  | nil => intro a; simp [natOfDigits]
  | cons c cs ih =>
    intro a
    unfold natOfDigits
    simp only [List.foldl_cons, List.length_cons]
    rw [ih, ih (0 * 10 + digitVal c), Int.pow_succ', Int.zero_mul, Int.zero_add, Int.add_mul,
      Int.mul_assoc, Int.add_assoc]

theorem natOfDigits_cons (c : Char) (s : List Char) :
    natOfDigits (c :: s) = digitVal c * 10 ^ s.length + natOfDigits s := by
  have := natOfDigits_cons_aux s (0 * 10 + digitVal c)
  rw [Int.zero_mul, Int.zero_add] at this
  rw [← this]; simp [natOfDigits]

theorem natOfDigits_append (a b : List Char) : natOfDigits (a ++ b) = natOfDigits a * 10 ^ b.length + natOfDigits b := by
  unfold natOfDigits
  rw [List.foldl_append]
  exact natOfDigits_cons_aux b _

theorem natOfDigits_range {s : List Char} (h : Digits s) :
    0 ≤ natOfDigits s ∧ natOfDigits s < 10 ^ s.length := by
  induction s with
  | nil => simp [natOfDigits]
  | cons c cs ih =>
    have ⟨h1, h2⟩ := ih (fun d hd => h d (by simp [hd]))
    have ⟨h3, h4⟩ := digitVal_range (h c (by simp))
    rw [natOfDigits_cons]
    simp only [List.length_cons, Int.pow_succ']
    have hp : (0 : Int) < 10 ^ cs.length := by
      apply Int.pow_pos; omega
    constructor
    · have := Int.mul_nonneg h3 (Int.le_of_lt hp); omega
    · have := Int.mul_le_mul_of_nonneg_right h4 (Int.le_of_lt hp); omega

theorem digits_not_space {s : List Char} (h : Digits s) : ∀ c ∈ s, isSpace c = false := by
  intro c hc
  have ⟨h1, h2⟩ := isDigit_le (h c hc)
  have a : ('0' : Char).toNat ≤ c.toNat := h1
  have b : c.toNat ≤ ('9' : Char).toNat := h2
  have e1 : ('0' : Char).toNat = 48 := by decide
  have e2 : ('9' : Char).toNat = 57 := by decide
  have key : ∀ n : Nat, 48 ≤ n → n ≤ 57 → isSpace (Char.ofNat n) = false := by
    intro n n1 n2
    have : n = 48 ∨ n = 49 ∨ n = 50 ∨ n = 51 ∨ n = 52 ∨ n = 53 ∨ n = 54 ∨ n = 55 ∨ n = 56 ∨ n = 57 := by
      omega
    rcases this with h|h|h|h|h|h|h|h|h|h <;> subst h <;> decide
  have := key c.toNat (by omega) (by omega)
  rwa [Char.ofNat_toNat] at this

theorem digit_class {c : Char} (h : c.isDigit = true) : classOf c = .digit := by
  have ⟨h1, h2⟩ := isDigit_le h
  unfold classOf isDigitTok
  simp [h1, h2]

theorem digits_run {s : List Char} (h : Digits s) : Run .digit s := fun c hc => digit_class (h c hc)

theorem digit_ne_colon {c : Char} (h : c.isDigit = true) : c ≠ ':' := by
  rintro rfl; revert h; decide

theorem noJump_utc (w : Int) : Loc.utc.NoJump w := Loc.utc_isFixed.noJump w

/-- A UTC midnight is the zero time exactly on January 1st, year 1. -/
theorem isZero_midnight (y m d : Int) (hv : Civil.Valid ⟨y, m, d⟩) :
    (goDate y m d 0 0 0 0 Loc.utc).isZero = true ↔ y = 1 ∧ m = 1 ∧ d = 1 := by
  have hw := goDate_wall (l := Loc.utc) (noJump_utc (wallOf y m d 0 0 0 0))
  have hs : (goDate y m d 0 0 0 0 Loc.utc).sec = wallOf y m d 0 0 0 0 := by
    have : (goDate y m d 0 0 0 0 Loc.utc).wall = (goDate y m d 0 0 0 0 Loc.utc).sec + 0 := rfl
    omega
  have hn : (goDate y m d 0 0 0 0 Loc.utc).nsec = 0 := rfl
  unfold Time.isZero
  rw [hs, hn, wallOf_month_norm hv.1 hv.2.1]
  simp only [Bool.and_eq_true, beq_iff_eq, and_true]
  constructor
  · intro h
    have h' : (Civil.mk y m d).days = (Civil.mk 1 1 1).days := by
      have e : (Civil.mk 1 1 1).days = -719162 := by decide
      rw [e]; unfold Civil.days; dsimp only; omega
    have := Civil.days_inj hv (by decide) h'
    simpa using this
  · rintro ⟨rfl, rfl, rfl⟩; decide

theorem goDate_midnight_civil (y m d : Int) (hv : Civil.Valid ⟨y, m, d⟩) :
    (goDate y m d 0 0 0 0 Loc.utc).civil = ⟨y, m, d⟩ := goDate_civil clock0 hv (noJump_utc _)

/-- Value of a one or two digit token, as `getnum` reads it. -/
theorem getnum_digits {s : List Char} (h : Digits s) (hne : s ≠ []) :
    ∃ p, getnum false s = some p ∧
      ((s.length ≤ 2 ∧ p = (natOfDigits s, [])) ∨ (2 < s.length ∧ p.2 ≠ [])) := by
  cases s with
  | nil => exact absurd rfl hne
  | cons a r =>
    have ha := h a (by simp)
    cases r with
    | nil =>
      exact ⟨(digitVal a, []), by simp [getnum, ha], Or.inl ⟨by simp, by simp [natOfDigits]⟩⟩
    | cons b r2 =>
      have hb := h b (by simp)
      refine ⟨(digitVal a * 10 + digitVal b, r2), by simp [getnum, ha, hb], ?_⟩
      cases r2 with
      | nil => left; refine ⟨by simp, ?_⟩; simp [natOfDigits]
      | cons c r3 => right; exact ⟨by simp, by simp⟩

theorem layout_d2 : layoutChunks Dir.d2.layout = [.day2] := by decide
theorem layout_m1 : layoutChunks Dir.m1.layout = [.month1] := by decide
theorem layout_y2006 : layoutChunks Dir.y2006.layout = [.year4] := by decide
theorem layout_y06 : layoutChunks Dir.y06.layout = [.year2] := by decide

/-- `finishParse` without AM/PM and clock. -/
theorem finishParse_date (s : PState) (hp : s.pmSet = false) (ha : s.amSet = false)
    (h0 : s.hour = 0) (h1 : s.min = 0) (h2 : s.sec = 0) (h3 : s.nsec = 0) (h4 : s.yday = -1) (h5 : s.zoneOff = -1) (h6 : s.isUTC = false ∧ s.zoneName = []) (l : Loc) :
    finishParse s l =
      if (if s.day < 0 then 1 else s.day) < 1 ∨
          (if s.day < 0 then 1 else s.day) > daysIn s.year (if s.month < 0 then 1 else s.month) then none
      else some (goDate s.year (if s.month < 0 then 1 else s.month)
        (if s.day < 0 then 1 else s.day) 0 0 0 0 l) := by
  rw [finishParse_plain h4 h5 h6]
  simp only [hp, ha, h0, h1, h2, h3, Bool.false_and, Bool.false_eq_true, if_false]

theorem daysIn_jan (y : Int) : daysIn y 1 = 31 := by simp [daysIn]

/-- Day tokens: one or two digits with a value from 1 to 31. -/
theorem partValue_day {s : List Char} (h : Digits s) (hne : s ≠ []) :
    gregPartValue .day s .d2 =
      if s.length ≤ 2 ∧ 1 ≤ natOfDigits s ∧ natOfDigits s ≤ 31 then some (natOfDigits s) else none := by
  obtain ⟨p, hp, hc⟩ := getnum_digits h hne
  unfold gregPartValue timeParse timeParseIn parseWith
  rw [toLower_digits h, layout_d2]
  simp only [parseChunks, parseChunk, hp, Option.map_some]
  rcases hc with ⟨hl, rfl⟩ | ⟨hl, hp2⟩
  · have hr := natOfDigits_range h
    simp only [List.isEmpty_nil, if_true, Option.bind_some]
    rw [finishParse_date _ rfl rfl rfl rfl rfl rfl rfl rfl ⟨rfl, rfl⟩]
    have e1 : ¬ natOfDigits s < 0 := by omega
    simp only [e1, if_false, show ((-1 : Int) < 0) = True by simp, if_true, daysIn_jan]
    by_cases hv : 1 ≤ natOfDigits s ∧ natOfDigits s ≤ 31
    · have hval : Civil.Valid ⟨0, 1, natOfDigits s⟩ :=
        ⟨by simp, by simp, hv.1, by show _ ≤ daysIn 0 1; rw [daysIn_jan]; exact hv.2⟩
      have hz : (goDate 0 1 (natOfDigits s) 0 0 0 0 Loc.utc).isZero = false := by
        rw [← Bool.not_eq_true, isZero_midnight _ _ _ hval]; simp
      rw [if_neg (by omega), if_pos ⟨hl, hv⟩]
      simp only [Bool.false_and, Bool.false_eq_true, if_false, hz]
      unfold Time.day
      rw [goDate_midnight_civil _ _ _ hval]
    · rw [if_pos (by omega), if_neg (by intro hh; exact hv hh.2)]
  · have e : p.2.isEmpty = false := by cases hh : p.2 <;> simp_all
    simp only [e, Bool.false_eq_true, if_false, Option.bind_none]
    rw [if_neg (by omega)]

/-- Month tokens: one or two digits with a value from 1 to 12. -/
theorem partValue_month {s : List Char} (h : Digits s) (hne : s ≠ []) :
    gregPartValue .month s .m1 =
      if s.length ≤ 2 ∧ 1 ≤ natOfDigits s ∧ natOfDigits s ≤ 12 then some (natOfDigits s) else none := by
  obtain ⟨p, hp, hc⟩ := getnum_digits h hne
  unfold gregPartValue timeParse timeParseIn parseWith
  rw [toLower_digits h, layout_m1]
  simp only [parseChunks, parseChunk, hp, Option.bind_some]
  rcases hc with ⟨hl, rfl⟩ | ⟨hl, hp2⟩
  · by_cases hv : 1 ≤ natOfDigits s ∧ natOfDigits s ≤ 12
    · have hval : Civil.Valid ⟨0, natOfDigits s, 1⟩ :=
        ⟨hv.1, hv.2, by simp, by have := daysIn_pos 0 (natOfDigits s); show (1 : Int) ≤ daysIn 0 (natOfDigits s); omega⟩
      have hz : (goDate 0 (natOfDigits s) 1 0 0 0 0 Loc.utc).isZero = false := by
        rw [← Bool.not_eq_true, isZero_midnight _ _ _ hval]; simp
      have e1 : ¬ natOfDigits s < 0 := by omega
      have e2 : ¬ ((1:Int) > daysIn 0 (natOfDigits s)) := by
        have := daysIn_pos 0 (natOfDigits s); omega
      rw [if_neg (by omega), if_pos ⟨hl, hv⟩]
      simp only [List.isEmpty_nil, if_true, Option.bind_some]
      rw [finishParse_date _ rfl rfl rfl rfl rfl rfl rfl rfl ⟨rfl, rfl⟩]
      simp only [e1, if_true, if_false, e2,
        show ((-1 : Int) < 0) = True by simp, Int.lt_irrefl, or_self, Bool.false_and,
        Bool.false_eq_true, hz]
      unfold Time.month
      rw [goDate_midnight_civil _ _ _ hval]
    · rw [if_pos (by omega), if_neg (by intro hh; exact hv hh.2)]
      rfl
  · have e : p.2.isEmpty = false := by cases hh : p.2 <;> simp_all
    rw [if_neg (by omega : ¬ (s.length ≤ 2 ∧ _))]
    by_cases hb : p.1 ≤ 0 ∨ 12 < p.1
    · rw [if_pos hb]; rfl
    · rw [if_neg hb]; simp [e]

theorem atoi_digits {s : List Char} (h : Digits s) (hne : s ≠ []) : atoi s = some (natOfDigits s) := by
  have hall : s.all Char.isDigit = true := by rw [List.all_eq_true]; exact h
  unfold atoi
  split
  · rename_i r
    exact absurd (h '-' (by simp)) (by decide)
  · rename_i r
    exact absurd (h '+' (by simp)) (by decide)
  · simp [hall]

/-- Four digit year tokens (the year 1 is not found: it parses to the zero time). -/
theorem partValue_year4 {s : List Char} (h : Digits s) (hne : s ≠ []) :
    gregPartValue .year s .y2006 =
      if s.length = 4 ∧ natOfDigits s ≠ 1 then some (natOfDigits s) else none := by
  unfold gregPartValue timeParse timeParseIn parseWith
  rw [toLower_digits h, layout_y2006]
  simp only [parseChunks, parseChunk]
  by_cases hl : s.length < 4
  · rw [if_pos (Or.inl hl), if_neg (by omega)]; rfl
  · have hd : (s.headD 'x').isDigit = true := by
      cases s with
      | nil => exact absurd rfl hne
      | cons c cs => exact h c (by simp)
    rw [if_neg (by rintro (a | a); exact hl a; exact a hd)]
    have ht : Digits (s.take 4) := fun c hc => h c (List.mem_of_mem_take hc)
    have htne : s.take 4 ≠ [] := by
      cases s with
      | nil => exact absurd rfl hne
      | cons c cs => simp
    rw [atoi_digits ht htne]
    by_cases hl4 : s.length = 4
    · have e1 : s.take 4 = s := List.take_of_length_le (by omega)
      have e2 : s.drop 4 = [] := List.drop_eq_nil_of_le (by omega)
      rw [e1, e2]
      have hval : Civil.Valid ⟨natOfDigits s, 1, 1⟩ :=
        ⟨by simp, by simp, by simp, by show 1 ≤ daysIn _ 1; rw [daysIn_jan]; omega⟩
      have e3 : ¬ ((1:Int) > daysIn (natOfDigits s) 1) := by rw [daysIn_jan]; omega
      simp only [Option.map_some, List.isEmpty_nil, if_true, Option.bind_some]
      rw [finishParse_date _ rfl rfl rfl rfl rfl rfl rfl rfl ⟨rfl, rfl⟩]
      simp only [if_true,
        show ((-1 : Int) < 0) = True by simp, Int.lt_irrefl, e3, or_self, if_false,
        Bool.false_and, Bool.false_eq_true]
      by_cases h1 : natOfDigits s = 1
      · have hz : (goDate (natOfDigits s) 1 1 0 0 0 0 Loc.utc).isZero = true := by
          rw [isZero_midnight _ _ _ hval]; simp [h1]
        rw [if_pos hz, if_neg (by simp [h1])]
      · have hz : ¬ (goDate (natOfDigits s) 1 1 0 0 0 0 Loc.utc).isZero = true := by
          rw [isZero_midnight _ _ _ hval]; simp [h1]
        rw [if_neg hz, if_pos ⟨hl4, h1⟩]
        unfold Time.year
        rw [goDate_midnight_civil _ _ _ hval]
    · have e2 : (s.drop 4).isEmpty = false := by
        cases hh : s.drop 4 with
        | nil => have := List.drop_eq_nil_iff.mp hh; omega
        | cons _ _ => rfl
      simp only [Option.map_some, e2, Bool.false_eq_true, if_false, Option.bind_none]
      rw [if_neg (by omega)]

/-- Two digit year tokens: 69..99 are 1969..1999, 00..68 are 2000..2068. -/
theorem partValue_year2 {s : List Char} (h : Digits s) (hne : s ≠ []) :
    gregPartValue .year s .y06 =
      if s.length = 2 then
        some (if natOfDigits s ≥ 69 then natOfDigits s + 1900 else natOfDigits s + 2000)
      else none := by
  unfold gregPartValue timeParse timeParseIn parseWith
  rw [toLower_digits h, layout_y06]
  simp only [parseChunks, parseChunk]
  by_cases hl : s.length < 2
  · rw [if_pos hl, if_neg (by omega)]; rfl
  · rw [if_neg hl]
    have ht : Digits (s.take 2) := fun c hc => h c (List.mem_of_mem_take hc)
    have htne : s.take 2 ≠ [] := by
      cases s with
      | nil => exact absurd rfl hne
      | cons c cs => simp
    rw [atoi_digits ht htne]
    by_cases hl4 : s.length = 2
    · have e1 : s.take 2 = s := List.take_of_length_le (by omega)
      have e2 : s.drop 2 = [] := List.drop_eq_nil_of_le (by omega)
      rw [e1, e2]
      have hr := natOfDigits_range h
      rw [hl4] at hr
      generalize hy : (if natOfDigits s ≥ 69 then natOfDigits s + 1900 else natOfDigits s + 2000) = y
      have hy1 : y ≠ 1 := by split at hy <;> omega
      have hval : Civil.Valid ⟨y, 1, 1⟩ :=
        ⟨by simp, by simp, by simp, by show 1 ≤ daysIn _ 1; rw [daysIn_jan]; omega⟩
      have e3 : ¬ ((1:Int) > daysIn y 1) := by rw [daysIn_jan]; omega
      have hz : ¬ (goDate y 1 1 0 0 0 0 Loc.utc).isZero = true := by
        rw [isZero_midnight _ _ _ hval]; simp [hy1]
      simp only [Option.map_some, List.isEmpty_nil, if_true, Option.bind_some]
      rw [finishParse_date _ rfl rfl rfl rfl rfl rfl rfl rfl ⟨rfl, rfl⟩]
      simp only [if_true,
        show ((-1 : Int) < 0) = True by simp, Int.lt_irrefl, hy, e3, or_self, if_false,
        Bool.false_and, Bool.false_eq_true]
      rw [if_neg hz, if_pos hl4]
      unfold Time.year
      rw [goDate_midnight_civil _ _ _ hval]
    · have e2 : (s.drop 2).isEmpty = false := by
        cases hh : s.drop 2 with
        | nil => have := List.drop_eq_nil_iff.mp hh; omega
        | cons _ _ => rfl
      simp only [Option.map_some, e2, Bool.false_eq_true, if_false, Option.bind_none]
      rw [if_neg (by omega)]

end Verif.Lemmas
