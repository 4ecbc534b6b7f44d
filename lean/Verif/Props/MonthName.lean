import Verif.Lemmas.Names
import Verif.Props.Numeric
/-! # C04: dates with a month name -/
set_option autoImplicit false
namespace Verif.Props
open Verif.Go Verif.Model Verif.Lemmas Verif.Spec

/-- What the calendar says about month names (a finite table, checked by the kernel). -/
theorem monthNames_facts : ∀ p ∈ monthNames,
    p.1.all isLetterTok = true ∧ p.1 ≠ [] ∧ skippedTokens.contains p.1 = false ∧ findMeridian p.1 = [] ∧
    gregPartValue .weekday p.1 .wMonday = none ∧ gregPartValue .weekday p.1 .wMon = none ∧
    (gregPartValue .month p.1 .mJanuary = some p.2 ∨
      (gregPartValue .month p.1 .mJanuary = none ∧ gregPartValue .month p.1 .mJan = some p.2)) ∧
    1 ≤ p.2 ∧ p.2 ≤ 12 := by
  decide +kernel

theorem skipped_lower : ∀ w ∈ skippedTokens, toLower w = w := by decide

theorem not_skipped_of_lower {t : List Char} (h : skippedTokens.contains (toLower t) = false) :
    skippedTokens.contains t = false := by
  rw [← Bool.not_eq_true, List.contains_iff_mem]
  intro hm
  have e := skipped_lower t hm
  rw [e] at h
  rw [← Bool.not_eq_true, List.contains_iff_mem] at h
  exact h hm

/-- Effect of a month name token. -/
theorem letter_month (e : AEnv) (hf : e.fns.partValue = gregPartValue) (t : List Char) (n : Int)
    (ht : IsMonthName t n) (i : Nat) (s : ASt) (hs1 : s.skippedComp ≠ some .month)
    (hs2 : s.skippedComp ≠ some .weekday) :
    parseLetterToken e s t (alphaDirectives (e.monthFirst i)) =
      if s.vals.get0 .month = 0 then some (setAndReturn s .month ⟨t, .letter⟩ true, [(.month, n)])
      else match replaceMonthByDay s.autoOrder with
        | none => none
        | some ao =>
          some ({ s with autoOrder := ao,
                         ctoks := (s.ctoks.set .day ((s.ctoks.get .month).getD ⟨[], .null⟩)).set .month ⟨t, .letter⟩ },
                [(.month, n), (.day, s.vals.get0 .month)]) := by
  obtain ⟨_, _, _, _, w1, w2, hm, _⟩ := monthNames_facts _ ht
  rw [← partValue_lower] at w1 w2
  simp only [← partValue_lower] at hm
  have hw : letterDirLoop e s .weekday t [.wMonday, .wMon] = none := by
    simp [letterDirLoop, hf, w1, w2]
  by_cases h0 : s.vals.get0 .month = 0
  · have hmonth : letterDirLoop e s .month t [.mJanuary, .mJan] =
        some (setAndReturn s .month ⟨t, .letter⟩ true, [(.month, n)]) := by
      rcases hm with h | ⟨h, h'⟩
      · simp [letterDirLoop, hf, h, h0]
      · simp [letterDirLoop, hf, h, h', h0]
    unfold alphaDirectives
    split <;> simp [parseLetterToken, hs1, hs2, hw, hmonth, h0]
  · cases hao : replaceMonthByDay s.autoOrder with
    | none =>
      have hmonth : letterDirLoop e s .month t [.mJanuary, .mJan] = none := by
        rcases hm with h | ⟨h, h'⟩
        · cases hj : gregPartValue .month t .mJan <;> simp [letterDirLoop, hf, h, h0, hao, hj]
        · simp [letterDirLoop, hf, h, h', h0, hao]
      unfold alphaDirectives
      split <;> simp [parseLetterToken, hs1, hs2, hw, hmonth, h0]
    | some ao =>
      have hmonth : letterDirLoop e s .month t [.mJanuary, .mJan] =
          some ({ s with autoOrder := ao,
                         ctoks := (s.ctoks.set .day ((s.ctoks.get .month).getD ⟨[], .null⟩)).set .month ⟨t, .letter⟩ },
                [(.month, n), (.day, s.vals.get0 .month)]) := by
        rcases hm with h | ⟨h, h'⟩
        · simp [letterDirLoop, hf, h, h0, hao]
        · simp [letterDirLoop, hf, h, h', h0, hao]
      unfold alphaDirectives
      split <;> simp [parseLetterToken, hs1, hs2, hw, hmonth, h0]

/-- A word of a date with a month name: the name, or a number of at most two or exactly four
digits. -/
inductive Piece where
  | name (t : List Char) (n : Int) (h : IsMonthName t n)
  | short (t : List Char) (h : Short t)
  | four (t : List Char) (h : Four t)

def Piece.text : Piece → List Char
  | .name t _ _ => t | .short t _ => t | .four t _ => t
def Piece.wd : Piece → Wd
  | .name t _ _ => ⟨t, .letter⟩ | .short t _ => ⟨t, .digit⟩ | .four t _ => ⟨t, .digit⟩

theorem Piece.wd_text (p : Piece) : p.wd.text = p.text := by cases p <;> rfl

theorem Piece.ok (p : Piece) : p.wd.OK := by
  cases p with
  | name t n h =>
    have f := monthNames_facts _ h
    refine ⟨?_, lower_run rfl f.1, by simp [Piece.wd]⟩
    intro h0
    apply f.2.1
    have h0' : t = [] := h0
    show toLower t = []
    rw [h0']; rfl
  | short t h => exact wdOK_digits h.1
  | four t h => exact wdOK_digits h.1

theorem Piece.meridian (p : Piece) : findMeridian p.text = [] := by
  cases p with
  | name t n h => exact (findMeridian_lower t).mpr (monthNames_facts _ h).2.2.2.1
  | short t h => exact findMeridian_digits h.1.2
  | four t h => exact findMeridian_digits h.1.2

theorem Piece.noskip (p : Piece) : skippedTokens.contains p.text = false := by
  cases p with
  | name t n h => exact not_skipped_of_lower (monthNames_facts _ h).2.2.1
  | short t h => exact digits_not_skipped h.1
  | four t h => exact digits_not_skipped h.1

theorem Piece.nocolon (p : Piece) : p.text.contains ':' = false := by
  cases p with
  | name t n h => exact letter_no_colon (Piece.ok (.name t n h)).run
  | short t h => exact digits_no_colon h.1.2
  | four t h => exact digits_no_colon h.1.2

/-- Not both are short numbers. -/
def Piece.apart : Piece → Piece → Prop
  | .short _ _, .short _ _ => False
  | _, _ => True

theorem Piece.not_time (p q : Piece) (h : p.apart q) : isHourMinute (p.text ++ [':'] ++ q.text) = false := by
  have letter : ∀ t n, IsMonthName t n → ∃ c ∈ t, classOf c = .letter := by
    intro t n ht
    have o := Piece.ok (.name t n ht)
    cases h : t with
    | nil => exact absurd h o.ne
    | cons c cs => exact ⟨c, by simp, o.run c (by simp [Piece.wd, h])⟩
  cases p with
  | name t n ht => exact not_hm_letter (Or.inl (letter t n ht))
  | four t ht =>
    apply not_hm_len
    have : t.length = 4 := ht.2
    have : q.text ≠ [] := by rw [← Piece.wd_text]; exact q.ok.ne
    have := List.length_pos_iff.mpr this
    simp only [Piece.text]; simp only [Piece.text] at this; omega
  | short t ht =>
    cases q with
    | name t n ht => exact not_hm_letter (Or.inr (letter t n ht))
    | short t ht => exact absurd h (by simp [Piece.apart])
    | four u hu =>
      apply not_hm_len
      have : u.length = 4 := hu.2
      have := List.length_pos_iff.mpr ht.1.1
      simp only [Piece.text]; omega

/-- `Init` on three such words. -/
theorem absInit_pieces (e : AEnv) (p q r : Piece) (s1 s2 : List Char) (h1 : IsSeparator s1)
    (h2 : IsSeparator s2) (hpq : p.apart q) (hqr : q.apart r) (str : List Char)
    (hstr : str = p.text ++ s1 ++ q.text ++ s2 ++ r.text) :
    absInit e str =
      match valueSteps e 0 [⟨p.text, p.wd.typ⟩, ⟨q.text, q.wd.typ⟩, ⟨r.text, r.wd.typ⟩] {} with
      | none => .error .error
      | some s => .ok (fallbacks s) := by
  have := absInit_three e p.wd q.wd r.wd s1 s2 p.ok q.ok r.ok (sepOK_of h1) (sepOK_of h2) ?_
    (by simp only [Piece.wd_text]; exact ⟨p.noskip, q.noskip, r.noskip⟩) str
    (by simp only [Piece.wd_text]; exact hstr)
  · simp only [Piece.wd_text] at this
    exact this
  · intro t1 t2 r1 r2 toks fl i ft hft
    apply captureTime_none
    · match i, hft with
      | 0, hft => cases hft; simp only [Piece.wd_text]; exact p.nocolon
      | 1, hft => cases hft; simp only [Piece.wd_text]; exact q.nocolon
      | 2, hft => cases hft; simp only [Piece.wd_text]; exact r.nocolon
    · right; left
      match i, hft with
      | 0, hft => cases hft; intro n hn; cases hn; simp only [Piece.wd_text]; exact p.not_time q hpq
      | 1, hft => cases hft; intro n hn; cases hn; simp only [Piece.wd_text]; exact q.not_time r hqr
      | 2, hft => intro n hn; cases hn
    · match i, hft with
      | 0, hft => intro m hm; cases hm; simp only [Piece.wd_text]; exact q.meridian
      | 1, hft => intro m hm; cases hm; simp only [Piece.wd_text]; exact r.meridian
      | 2, hft => intro m hm; cases hm

set_option maxHeartbeats 8000000 in
/-- What the token loop finds in a date with a month name. -/
theorem monthName_steps (e : AEnv) (hfp : e.fns.partValue = gregPartValue) (o w : Order)
    (ho : toLower e.cfg.dateOrder = o.letters) (d mon y : List Char) (n : Int) (hd : Short d)
    (hmon : IsMonthName mon n) (hy : Four y) (hdate : IsDate (number y) n (number d)) (hy2 : 2 ≤ number y) :
    ∃ s : ASt, valueSteps e 0 [(w.pick ⟨d, .digit⟩ ⟨mon, .letter⟩ ⟨y, .digit⟩).1,
        (w.pick ⟨d, .digit⟩ ⟨mon, .letter⟩ ⟨y, .digit⟩).2.1, (w.pick ⟨d, .digit⟩ ⟨mon, .letter⟩ ⟨y, .digit⟩).2.2] {} =
        some s ∧
      (fallbacks s).vals = { day := some (natOfDigits d), month := some n, year := some (natOfDigits y) } ∧
      (fallbacks s).ctoks = { day := some ⟨d, .digit⟩, month := some ⟨mon, .letter⟩, year := some ⟨y, .digit⟩ } := by
  have hv := (valid_iff _ _ _).mpr hdate
  rw [number_eq, number_eq] at hv
  rw [number_eq] at hy2
  obtain ⟨v1, v2, v3, v4⟩ := hv
  dsimp only at v1 v2 v3 v4
  have v5 := daysIn_le (natOfDigits y) n
  have d_d : gregPartValue .day d .d2 = some (natOfDigits d) := by
    rw [partValue_day hd.1.2 hd.1.1, if_pos ⟨hd.2, v3, by omega⟩]
  have y_d : gregPartValue .day y .d2 = none := by
    rw [partValue_day hy.1.2 hy.1.1, if_neg]; have := hy.2; omega
  have y_m : gregPartValue .month y .m1 = none := by
    rw [partValue_month hy.1.2 hy.1.1, if_neg]; have := hy.2; omega
  have y_y : gregPartValue .year y .y2006 = some (natOfDigits y) := by
    rw [partValue_year4 hy.1.2 hy.1.1, if_pos ⟨hy.2, by omega⟩]
  have d_y : gregPartValue .year d .y2006 = none := by
    rw [partValue_year4 hd.1.2 hd.1.1, if_neg]; have := hd.2; omega
  have d_m : gregPartValue .month d .m1 = some (natOfDigits d) ∨ gregPartValue .month d .m1 = none := by
    rw [partValue_month hd.1.2 hd.1.1]; split <;> simp
  have d_y2 : (∃ v, v ≠ 0 ∧ gregPartValue .year d .y06 = some v) ∨ gregPartValue .year d .y06 = none := by
    rw [partValue_year2 hd.1.2 hd.1.1]
    split
    · left; refine ⟨_, ?_, rfl⟩; split <;> omega
    · right; rfl
  have d0 : natOfDigits d ≠ 0 := by omega
  have n0 : n ≠ 0 := by omega
  have y0 : natOfDigits y ≠ 0 := by omega
  have ly : y.length = 4 := hy.2
  have ld : d.length ≠ 4 := by have := hd.2; omega
  have dall : ∀ x : Char, x ∈ d → x.isDigit = false → 0 = natOfDigits d :=
    fun x hx h => by simp [hd.1.2 x hx] at h
  have hnd : numberDirectives e.cfg.dateOrder = o.letters.filterMap fun c =>
      if c == 'd' then some (.day, [.d2])
      else if c == 'm' then some (.month, [.m1])
      else if c == 'y' then some (.year, [.y2006, .y06])
      else none := by unfold numberDirectives; rw [ho]
  have hL := letter_month e hfp mon n hmon
  cases w
  case dmy =>
    rcases d_y2 with ⟨v, hv0, d_y2⟩ | d_y2
    · cases o <;> rcases d_m with d_m | d_m <;>
      simp [Order.pick, valueSteps, valueStep, hnd, Order.letters, parseDigitToken,
        digitDirLoop, hfp, d_d, y_d, y_m, y_y, d_y, d_m, d_y2, Vals.get0, Vals.get, setAndReturn, CToks.set,
        CToks.get, saveResults, Vals.set, d0, n0, y0, ly, ld, hL, replaceMonthByDay, fallbacks, fallback1,
        hv0]
      <;> exact dall
    · cases o <;> rcases d_m with d_m | d_m <;>
      simp [Order.pick, valueSteps, valueStep, hnd, Order.letters, parseDigitToken,
        digitDirLoop, hfp, d_d, y_d, y_m, y_y, d_y, d_m, d_y2, Vals.get0, Vals.get, setAndReturn, CToks.set,
        CToks.get, saveResults, Vals.set, d0, n0, y0, ly, ld, hL, replaceMonthByDay, fallbacks, fallback1]
  case dym =>
    rcases d_y2 with ⟨v, hv0, d_y2⟩ | d_y2
    · cases o <;> rcases d_m with d_m | d_m <;>
      simp [Order.pick, valueSteps, valueStep, hnd, Order.letters, parseDigitToken,
        digitDirLoop, hfp, d_d, y_d, y_m, y_y, d_y, d_m, d_y2, Vals.get0, Vals.get, setAndReturn, CToks.set,
        CToks.get, saveResults, Vals.set, d0, n0, y0, ly, ld, hL, replaceMonthByDay, fallbacks, fallback1,
        hv0]
      <;> exact dall
    · cases o <;> rcases d_m with d_m | d_m <;>
      simp [Order.pick, valueSteps, valueStep, hnd, Order.letters, parseDigitToken,
        digitDirLoop, hfp, d_d, y_d, y_m, y_y, d_y, d_m, d_y2, Vals.get0, Vals.get, setAndReturn, CToks.set,
        CToks.get, saveResults, Vals.set, d0, n0, y0, ly, ld, hL, replaceMonthByDay, fallbacks, fallback1]
  case mdy =>
    rcases d_y2 with ⟨v, hv0, d_y2⟩ | d_y2
    · cases o <;> rcases d_m with d_m | d_m <;>
      simp [Order.pick, valueSteps, valueStep, hnd, Order.letters, parseDigitToken,
        digitDirLoop, hfp, d_d, y_d, y_m, y_y, d_y, d_m, d_y2, Vals.get0, Vals.get, setAndReturn, CToks.set,
        CToks.get, saveResults, Vals.set, d0, n0, y0, ly, ld, hL, replaceMonthByDay, fallbacks, fallback1,
        hv0]
      <;> exact dall
    · cases o <;> rcases d_m with d_m | d_m <;>
      simp [Order.pick, valueSteps, valueStep, hnd, Order.letters, parseDigitToken,
        digitDirLoop, hfp, d_d, y_d, y_m, y_y, d_y, d_m, d_y2, Vals.get0, Vals.get, setAndReturn, CToks.set,
        CToks.get, saveResults, Vals.set, d0, n0, y0, ly, ld, hL, replaceMonthByDay, fallbacks, fallback1]
  case myd =>
    rcases d_y2 with ⟨v, hv0, d_y2⟩ | d_y2
    · cases o <;> rcases d_m with d_m | d_m <;>
      simp [Order.pick, valueSteps, valueStep, hnd, Order.letters, parseDigitToken,
        digitDirLoop, hfp, d_d, y_d, y_m, y_y, d_y, d_m, d_y2, Vals.get0, Vals.get, setAndReturn, CToks.set,
        CToks.get, saveResults, Vals.set, d0, n0, y0, ly, ld, hL, replaceMonthByDay, fallbacks, fallback1,
        hv0]
      <;> exact dall
    · cases o <;> rcases d_m with d_m | d_m <;>
      simp [Order.pick, valueSteps, valueStep, hnd, Order.letters, parseDigitToken,
        digitDirLoop, hfp, d_d, y_d, y_m, y_y, d_y, d_m, d_y2, Vals.get0, Vals.get, setAndReturn, CToks.set,
        CToks.get, saveResults, Vals.set, d0, n0, y0, ly, ld, hL, replaceMonthByDay, fallbacks, fallback1]
  case ymd =>
    rcases d_y2 with ⟨v, hv0, d_y2⟩ | d_y2
    · cases o <;> rcases d_m with d_m | d_m <;>
      simp [Order.pick, valueSteps, valueStep, hnd, Order.letters, parseDigitToken,
        digitDirLoop, hfp, d_d, y_d, y_m, y_y, d_y, d_m, d_y2, Vals.get0, Vals.get, setAndReturn, CToks.set,
        CToks.get, saveResults, Vals.set, d0, n0, y0, ly, ld, hL, replaceMonthByDay, fallbacks, fallback1,
        hv0]
      <;> exact dall
    · cases o <;> rcases d_m with d_m | d_m <;>
      simp [Order.pick, valueSteps, valueStep, hnd, Order.letters, parseDigitToken,
        digitDirLoop, hfp, d_d, y_d, y_m, y_y, d_y, d_m, d_y2, Vals.get0, Vals.get, setAndReturn, CToks.set,
        CToks.get, saveResults, Vals.set, d0, n0, y0, ly, ld, hL, replaceMonthByDay, fallbacks, fallback1]
  case ydm =>
    rcases d_y2 with ⟨v, hv0, d_y2⟩ | d_y2
    · cases o <;> rcases d_m with d_m | d_m <;>
      simp [Order.pick, valueSteps, valueStep, hnd, Order.letters, parseDigitToken,
        digitDirLoop, hfp, d_d, y_d, y_m, y_y, d_y, d_m, d_y2, Vals.get0, Vals.get, setAndReturn, CToks.set,
        CToks.get, saveResults, Vals.set, d0, n0, y0, ly, ld, hL, replaceMonthByDay, fallbacks, fallback1,
        hv0]
      <;> exact dall
    · cases o <;> rcases d_m with d_m | d_m <;>
      simp [Order.pick, valueSteps, valueStep, hnd, Order.letters, parseDigitToken,
        digitDirLoop, hfp, d_d, y_d, y_m, y_y, d_y, d_m, d_y2, Vals.get0, Vals.get, setAndReturn, CToks.set,
        CToks.get, saveResults, Vals.set, d0, n0, y0, ly, ld, hL, replaceMonthByDay, fallbacks, fallback1]

/-- **C04** day, month name and four digit year, written in any order `w` with any separators, give
exactly this day for every configured `DateOrder` `o`. -/
theorem C04_month_name (cfg : Cfg) (sysNow : Time) (mf : Nat → Bool) (tz : Option Tz) (o w : Order)
    (ho : toLower cfg.dateOrder = o.letters) (d mon y s1 s2 : List Char) (n : Int) (hd : Short d)
    (hmon : IsMonthName mon n) (hy : Four y) (hs1 : IsSeparator s1) (hs2 : IsSeparator s2)
    (hdate : IsDate (number y) n (number d)) (hy2 : 2 ≤ number y) :
    absoluteParse cfg sysNow mf (w.write d mon y s1 s2) tz =
      .ok { period := .day
            time := goDate (number y) n (number d) 0 0 0 0
              (if cfg.currentTime.isZero then sysNow else cfg.currentTime).loc } := by
  unfold absoluteParse
  simp only
  generalize he : (AEnv.mk gregFns cfg sysNow mf) = e
  have hf : e.fns = gregFns := by rw [← he]
  have hfp : e.fns.partValue = gregPartValue := by rw [hf]; rfl
  have hcfg : e.cfg = cfg := by rw [← he]
  have hnow : e.now = if cfg.currentTime.isZero then sysNow else cfg.currentTime := by rw [← he]; rfl
  rw [← hnow]
  have hv := (valid_iff _ _ _).mpr hdate
  rw [number_eq, number_eq] at hv ⊢
  rw [number_eq] at hy2
  obtain ⟨v1, v2, v3, v4⟩ := hv
  dsimp only at v1 v2 v3 v4
  have v5 := daysIn_le (natOfDigits y) n
  have y0 : natOfDigits y ≠ 0 := by omega
  obtain ⟨s, hst, hvals, hct⟩ := monthName_steps e hfp o w (by rw [hcfg]; exact ho) d mon y n hd hmon hy hdate
    (by rw [number_eq]; exact hy2)
  have hi : absInit e (w.write d mon y s1 s2) = .ok (fallbacks s) := by
    have gen : ∀ (p q r : Piece) str, p.apart q → q.apart r →
        str = p.text ++ s1 ++ q.text ++ s2 ++ r.text →
        valueSteps e 0 [⟨p.text, p.wd.typ⟩, ⟨q.text, q.wd.typ⟩, ⟨r.text, r.wd.typ⟩] {} = some s →
        absInit e str = .ok (fallbacks s) := by
      intro p q r str hpq hqr hstr h1
      rw [absInit_pieces e p q r s1 s2 hs1 hs2 hpq hqr str hstr, h1]
    cases w
    case dmy => exact gen (.short d hd) (.name mon n hmon) (.four y hy) _ (by simp [Piece.apart]) (by simp [Piece.apart]) rfl hst
    case dym => exact gen (.short d hd) (.four y hy) (.name mon n hmon) _ (by simp [Piece.apart]) (by simp [Piece.apart]) rfl hst
    case mdy => exact gen (.name mon n hmon) (.short d hd) (.four y hy) _ (by simp [Piece.apart]) (by simp [Piece.apart]) rfl hst
    case myd => exact gen (.name mon n hmon) (.four y hy) (.short d hd) _ (by simp [Piece.apart]) (by simp [Piece.apart]) rfl hst
    case ymd => exact gen (.four y hy) (.name mon n hmon) (.short d hd) _ (by simp [Piece.apart]) (by simp [Piece.apart]) rfl hst
    case ydm => exact gen (.four y hy) (.short d hd) (.name mon n hmon) _ (by simp [Piece.apart]) (by simp [Piece.apart]) rfl hst
  rw [hi]
  refine absParse_full e hf (fallbacks s) tz (natOfDigits y) n (natOfDigits d) (by rw [hvals])
    (by rw [hvals]) (by rw [hvals]) ⟨v1, v2, v3, v4⟩ y0 (by rw [hct]) ⟨d, .digit⟩ ⟨mon, .letter⟩
    (by rw [hct]) (by rw [hct]) ?_
  intro t ht
  rw [hct] at ht
  simp only [Option.some.injEq] at ht
  rw [← ht]
  show y.length ≠ 2
  have := hy.2
  omega

/-- **C04** as seen on the result. -/
theorem C04_month_name_shows (cfg : Cfg) (sysNow : Time) (mf : Nat → Bool) (tz : Option Tz) (o w : Order)
    (ho : toLower cfg.dateOrder = o.letters) (d mon y s1 s2 : List Char) (n : Int) (hd : Short d)
    (hmon : IsMonthName mon n) (hy : Four y) (hs1 : IsSeparator s1) (hs2 : IsSeparator s2)
    (hdate : IsDate (number y) n (number d)) (hy2 : 2 ≤ number y)
    (hj : (if cfg.currentTime.isZero then sysNow else cfg.currentTime).loc.NoJump
      (wallOf (number y) n (number d) 0 0 0 0)) :
    ∃ r, absoluteParse cfg sysNow mf (w.write d mon y s1 s2) tz = .ok r ∧ r.period = .day ∧
      Shows r.time (number y) n (number d) 0 0 0 0 :=
  ⟨_, C04_month_name cfg sysNow mf tz o w ho d mon y s1 s2 n hd hmon hy hs1 hs2 hdate hy2, rfl,
    shows_goDate hdate clock0 hj⟩

/-- The hypotheses are met by e.g. "12 MARch, 2015" and "12.Mar.2015". -/
example : Short "12".toList ∧ IsMonthName "MARch".toList 3 ∧ IsMonthName "Mar".toList 3 ∧
    Four "2015".toList ∧ IsSeparator " ".toList ∧ IsSeparator ", ".toList ∧ IsSeparator ".".toList ∧
    IsDate (number "2015".toList) 3 (number "12".toList) ∧ 2 ≤ number "2015".toList := by
  unfold Short Four IsNumeral IsSeparator IsMonthName
  decide

end Verif.Props
