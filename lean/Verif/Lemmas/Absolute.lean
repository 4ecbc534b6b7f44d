import Verif.Lemmas.Phrase
/-! Helper lemmas on the absolute parser. -/
set_option autoImplicit false
namespace Verif.Lemmas
open Verif.Go Verif.Model

theorem digits_no_colon {s : List Char} (h : Digits s) : s.contains ':' = false := by
  rw [← Bool.not_eq_true, List.contains_iff_mem]
  intro hm
  exact digit_ne_colon (h _ hm) rfl

theorem findMeridian_digits {s : List Char} (h : Digits s) : findMeridian s = [] := by
  induction s with
  | nil => rfl
  | cons a r ih =>
    cases r with
    | nil => rfl
    | cons b r =>
      have ha : toLowerC a = a := toLowerC_digit (h a (by simp))
      have h1 : a ≠ 'a' := by rintro rfl; exact absurd (h 'a' (by simp)) (by decide)
      have h2 : a ≠ 'p' := by rintro rfl; exact absurd (h 'p' (by simp)) (by decide)
      rw [findMeridian, ha]
      simp only [beq_iff_eq, h1, h2, beq_eq_false_iff_ne.mpr h1, beq_eq_false_iff_ne.mpr h2,
        Bool.or_self, Bool.false_and, Bool.false_eq_true, if_false]
      exact ih (fun c hc => h c (by simp [hc]))

/-- No time starts at a token without colon that is not joined to the next one and not followed by
AM/PM. -/
theorem captureTime_none (toks : List Tok) (filtered : List FTok) (index : Nat) (ft : FTok)
    (sk : List Nat) (hc : ft.tok.text.contains ':' = false)
    (hj : tokTextAt toks (ft.origIdx + 1) ≠ ['.'] ∨
      (∀ next, filtered[index + 1]? = some next →
        isHourMinute (ft.tok.text ++ [':'] ++ next.tok.text) = false) ∨
      (ft.origIdx ≠ 0 ∧ tokTextAt toks (ft.origIdx - 1) = ['.']) ∨
      (∀ next, filtered[index + 1]? = some next →
        index + 1 ≠ filtered.length - 1 ∧ tokTextAt toks (next.origIdx + 1) = ['.']))
    (hm : ∀ m, filtered[index + 1]? = some m → findMeridian m.tok.text = []) :
    captureTime toks filtered index ft sk = (none, sk) := by
  have hc' : ¬ ':' ∈ ft.tok.text := by
    rw [← List.contains_iff_mem, hc]; simp
  have hjn : joinPeriod toks filtered index ft = none := by
    unfold joinPeriod
    cases hn : filtered[index + 1]? with
    | none => rfl
    | some next =>
      rcases hj with h | h | ⟨h1, h2⟩ | h
      · have : (tokTextAt toks (ft.origIdx + 1) == ['.']) = false := by simpa using h
        simp [this]
      · have := h next hn
        simp only [this]; simp
      · simp [h1, h2]
      · obtain ⟨h1, h2⟩ := h next hn
        have : (index + 1 == filtered.length - 1) = false := by simpa using h1
        simp only [this, h2]; simp
  have hmi : captureMicro toks filtered index ft.tok.text = [] := by
    unfold captureMicro
    split <;> simp [hc']
  have hme : captureMeridian filtered (index + 1) = [] := by
    unfold captureMeridian
    cases hn : filtered[index + 1]? with
    | none => rfl
    | some next => exact hm next hn
  unfold captureTime
  simp [hjn, hmi, hme, hc']

/-- What `Parse` makes of complete valid values. -/
theorem absParse_full (e : AEnv) (hf : e.fns = gregFns) (s : ASt) (tz : Option Tz) (y m d : Int)
    (hy : s.vals.year = some y) (hm : s.vals.month = some m) (hd : s.vals.day = some d)
    (hv : Civil.Valid ⟨y, m, d⟩) (hy0 : y ≠ 0) (ht : s.ctoks.time = none)
    (td tm : Tok) (hctd : s.ctoks.day = some td) (hctm : s.ctoks.month = some tm)
    (hcty : ∀ t, s.ctoks.year = some t → t.text.length ≠ 2) :
    absParse e s tz = .ok { period := .day, time := goDate y m d 0 0 0 0 e.now.loc } := by
  obtain ⟨h1, h2, h3, h4⟩ := hv
  dsimp only at h1 h2 h3 h4
  have hmiss : missingParts s = [] := by
    simp [missingParts, Vals.get, hy, hm, hd]
  have hstrict : checkStrictParsing e.cfg ((missingParts s).map Comp.name) = true := by
    rw [hmiss]; simp [checkStrictParsing]
  have hcreate : e.fns.create e.cfg y m d 0 0 0 0 e.now.loc = .ok (goDate y m d 0 0 0 0 e.now.loc) := by
    rw [hf]
    show gregCreate _ _ _ _ _ _ _ _ _ = _
    unfold gregCreate
    have e1 : ¬ (d = 29 ∧ m = 2 ∧ (!isLeapYear y) = true) := by
      rintro ⟨hd29, hm2, hl⟩
      subst hd29 hm2
      rw [isLeapYear_eq] at hl
      simp only [Bool.not_eq_true'] at hl
      simp [daysIn, hl] at h4
    simp only [e1, if_false]
    rw [getLastDayOfMonth_valid y m h1 h2, if_neg (by omega)]
  unfold absParse
  rw [hstrict]
  simp only [Bool.not_true, Bool.false_eq_true, if_false, ht, hy, hm, hd, orNow]
  rw [if_neg hy0, if_neg (by omega), if_neg (by omega)]
  rw [hcreate]
  simp only [correctForTimeFrame, frameWeekday, frameMonth, frameYear2, frameTime, hctd, hctm, ht,
    Option.isNone_some, Bool.and_false, Bool.false_eq_true, if_false, Option.isSome_none, Bool.false_and,
    hy, correctForDay, correctForMonth, Option.isSome_some, Bool.true_or, if_true, getPeriod, hd]
  cases hw : s.ctoks.weekday <;> cases hyt : s.ctoks.year with
  | none => simp
  | some t => simp [hcty t hyt]

theorem mkToks_filter3 (a b c : Wd) (t1 t2 : List Char) (ha : a.typ ≠ .other) (hb : b.typ ≠ .other)
    (hc : c.typ ≠ .other) :
    filterToks 0 (mkToks a [(t1, b), (t2, c)]) =
      [⟨⟨a.text, a.typ⟩, 0⟩, ⟨⟨b.text, b.typ⟩, 2⟩, ⟨⟨c.text, c.typ⟩, 4⟩] := by
  simp [mkToks, filterToks, ha, hb, hc]

end Verif.Lemmas
