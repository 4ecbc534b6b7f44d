import Verif.Lemmas.CalDate
import Verif.Spec.DemoCalendars
/-! Helper lemmas: Jalali and Hijri dates, from the call to the calendar library. -/
set_option autoImplicit false
namespace Verif.Props
open Verif.Go Verif.Model Verif.Data Verif.Lemmas Verif.Spec

/-! ## The configuration -/

theorem calendar_cfg {c : PCfg} (hc : c.validate = .ok ()) (now : Time) :
    ∃ cfg, calendarCfg (some c) now = some cfg ∧ cfg.dateOrder = calendarOrder c ∧ cfg.currentTime = baseTime c now ∧ cfg.dateSource = DateSource.ofCode c.dateSource ∧
      cfg.timeAsPeriod = c.timeAsPeriod := by
  refine ⟨{ (c.initiate now).toInternal with dateOrder := calendarOrder c }, ?_, rfl, rfl, rfl, rfl⟩
  have hv : (c.initiate now).validate = .ok () := hc
  have ho : (match c.dateOrder with
    | none => "DMY".toList
    | some f => if (validateDateOrder (f [])).2 then (validateDateOrder (f [])).1 else "DMY".toList) = calendarOrder c := by
    have := localeCfg_eq c { name := [], dateOrder := "DMY".toList, noWordSpacing := false, splitterGroup := 1 }
    unfold localeCfg configFor at this
    have := congrArg Cfg.dateOrder this
    simp only at this
    unfold calendarOrder orderIn
    cases hd : c.dateOrder with
    | none => rfl
    | some f => rw [hd] at this; simpa using this
  unfold calendarCfg
  simp only [Option.getD_some, hv]
  rw [← ho]
  rfl

/-! ## Numeric texts -/

def seps : List (Nat × Char) := [(0, '/'), (0, '.'), (0, '-'), (1, '/'), (1, '.'), (2, '/'), (2, '.')]

theorem cal_passes : (seps.all fun p => (shapes p.1).all fun x =>
    let a := tmpl3 x.1 x.2.1 x.2.2 p.2
    jalaliPass a a && hijriPass a a) = true := by decide +kernel

theorem sep_mem {w : Order} {sep : Char} (h : NumericSep w sep) : (w.yearPlace, sep) ∈ seps := by
  rcases h with rfl | rfl | ⟨rfl, h0⟩
  · rcases year_place w with h | h | h <;> rw [h] <;> decide
  · rcases year_place w with h | h | h <;> rw [h] <;> decide
  · rw [h0]; decide

theorem short_any {s : List Char} (h : IsNumeral (s.map asciiDigit)) : AnyDigits s := fun c hc => h.2 _ (List.mem_map.mpr ⟨c, hc, rfl⟩)

theorem any_known {c : Char} (h : (asciiDigit c).isDigit = true) :
    toLowerC c = c ∧ plainLetter c = c ∧ isSpace c = false ∧ (c != '\u00a0') = true := by
  have hr : (48 ≤ c.toNat ∧ c.toNat ≤ 57) ∨ (0x660 ≤ c.toNat ∧ c.toNat ≤ 0x669) ∨ (0x6F0 ≤ c.toNat ∧ c.toNat ≤ 0x6F9) := by
    unfold asciiDigit at h
    split at h
    · right; right; assumption
    · split at h
      · right; left; assumption
      · left; exact digit_range h
  refine ⟨?_, ?_, ?_, ?_⟩
  · unfold toLowerC
    rw [if_neg]
    rintro ⟨h1, h2⟩
    have h1 : (65 : Nat) ≤ c.toNat := h1
    have h2 : c.toNat ≤ (90 : Nat) := h2
    omega
  · unfold plainLetter
    rw [if_neg]
    rintro rfl
    revert hr; decide
  · cases e : isSpace c with
    | false => rfl
    | true =>
      exfalso
      have : ∀ n : Fin 0x700, (48 ≤ n.1 ∧ n.1 ≤ 57) ∨ (0x660 ≤ n.1 ∧ n.1 ≤ 0x669) ∨ (0x6F0 ≤ n.1 ∧ n.1 ≤ 0x6F9) → isSpace (Char.ofNat n.1) = false := by decide +kernel
      have := this ⟨c.toNat, by omega⟩ hr
      rw [Char.ofNat_toNat, e] at this
      simp at this
  · simp only [bne_iff_ne, ne_eq]
    rintro rfl
    revert hr; decide

/-- A text without white space is not changed. -/
theorem sanitizeSpaces_one {s : List Char} (h : ∀ c ∈ s, isSpace c = false ∧ (c != '\u00a0') = true) (hne : s ≠ []) : sanitizeSpaces s = s := by
  unfold sanitizeSpaces
  rw [List.filter_eq_self.mpr fun c hc => (h c hc).2, words_fields (Or.inr ⟨hne, fun c hc => (h c hc).1⟩), if_neg hne]
  rfl

theorem numeric_normal {U : Uni} (hU : PersianUni U) (w : Order) {d m y : List Char} (hd : AnyDigits d) (hm : AnyDigits m) (hy : AnyDigits y) {sep : Char}
    (hsep : NumericSep w sep) :
    normalizeDigits U.isDigit (U.normalizeString (w.write d m y [sep] [sep])) =
      w.write (d.map asciiDigit) (m.map asciiDigit) (y.map asciiDigit) [sep] [sep] := by
  have hs : toLowerC sep = sep ∧ plainLetter sep = sep ∧ isSpace sep = false ∧ (sep != '\u00a0') = true ∧ sep.toNat < 128 := by
    rcases hsep with rfl | rfl | ⟨rfl, _⟩ <;> decide
  have hmem : ∀ c ∈ w.write d m y [sep] [sep], (asciiDigit c).isDigit = true ∨ c = sep := by
    intro c hc
    rw [write_sep] at hc
    simp only [List.mem_append, List.mem_cons] at hc
    have hp : ∀ c, (c ∈ (w.pick d m y).1 ∨ c ∈ (w.pick d m y).2.1 ∨ c ∈ (w.pick d m y).2.2) → (asciiDigit c).isDigit = true := by
      intro c hc
      have : c ∈ d ∨ c ∈ m ∨ c ∈ y := by cases w <;> simp only [Order.pick] at hc <;> grind
      rcases this with h | h | h
      · exact hd c h
      · exact hm c h
      · exact hy c h
    rcases hc with hc | hc | hc | hc | hc
    · exact Or.inl (hp c (Or.inl hc))
    · exact Or.inr hc
    · exact Or.inl (hp c (Or.inr (Or.inl hc)))
    · exact Or.inr hc
    · exact Or.inl (hp c (Or.inr (Or.inr hc)))
  have hall : ∀ c ∈ w.write d m y [sep] [sep], toLowerC c = c ∧ plainLetter c = c ∧ isSpace c = false ∧ (c != '\u00a0') = true := by
    intro c hc
    rcases hmem c hc with h | rfl
    · exact any_known h
    · exact ⟨hs.1, hs.2.1, hs.2.2.1, hs.2.2.2.1⟩
  have hplain : (w.write d m y [sep] [sep]).map plainLetter = w.write d m y [sep] [sep] := by
    rw [List.map_congr_left (g := id) (fun c hc => (hall c hc).2.1)]; simp
  have hne : w.write d m y [sep] [sep] ≠ [] := by rw [write_sep]; simp
  rw [normal_persian hU]
  · rw [hplain]
    have e : asciiDigit sep = sep := asciiDigit_low hs.2.2.2.2
    cases w <;> simp [Order.write, e]
  · intro c hc
    rcases hmem c hc with h | rfl
    · exact Or.inr (Or.inr h)
    · exact Or.inl hs.2.2.2.2
  · intro c hc; rw [(hall c hc).2.1]; exact (hall c hc).1
  · rw [hplain]; exact sanitizeSpaces_one (fun c hc => (hall c hc).2.2) hne

section
variable {E : Env} (hE : PersianSurroundings E) {c : PCfg} (hc : c.validate = .ok ())
include hE hc

theorem digits_ok : DigitsOk E.uni.isDigit := hE.persian.isDigit

/-- A numeric text, in both calendars, up to the tokens. -/
theorem cal_numeric_text (w : Order) (d m y : List Char) (hd : Short (d.map asciiDigit)) (hm : Short (m.map asciiDigit))
    (hy : Four (y.map asciiDigit)) (sep : Char) (hsep : NumericSep w sep) (am : Bool) :
    (jalaliText E.uni (w.write d m y [sep] [sep]) = w.write (d.map asciiDigit) (m.map asciiDigit) (y.map asciiDigit) [sep] [sep] ∧
    hijriText E.uni am (w.write d m y [sep] [sep]) = w.write (d.map asciiDigit) (m.map asciiDigit) (y.map asciiDigit) [sep] [sep]) ∧
    popTzOffset E.table (w.write (d.map asciiDigit) (m.map asciiDigit) (y.map asciiDigit) [sep] [sep]) =
      (w.write (d.map asciiDigit) (m.map asciiDigit) (y.map asciiDigit) [sep] [sep], none) := by
  have hnorm := numeric_normal hE.persian w (short_any hd.1) (short_any hm.1) (short_any hy.1) hsep
  generalize d.map asciiDigit = D at *
  generalize m.map asciiDigit = M at *
  generalize y.map asciiDigit = Y at *
  have hnum : IsNumeral (w.pick D M Y).1 ∧ IsNumeral (w.pick D M Y).2.1 ∧ IsNumeral (w.pick D M Y).2.2 := by
    cases w <;> simp [Order.pick, hd.1, hm.1, hy.1]
  have hsepd : sep.isDigit = false := by
    rcases hsep with rfl | rfl | ⟨rfl, _⟩ <;> decide
  have hshape : ((w.pick D M Y).1.length, (w.pick D M Y).2.1.length, (w.pick D M Y).2.2.length) ∈ shapes w.yearPlace := by
    have h4 := hy.2
    rcases short_len hd with h1 | h1 <;> rcases short_len hm with h2 | h2 <;> cases w <;> simp [Order.pick, h1, h2, h4, Order.yearPlace, shapes]
  have hone := List.all_eq_true.mp (List.all_eq_true.mp cal_passes _ (sep_mem hsep)) _ hshape
  simp only [Bool.and_eq_true] at hone
  have htext := tmpl3_sub hshape hsepd
  rw [← write_sep] at htext
  have hds : ∀ x ∈ '0' :: ((w.pick D M Y).1 ++ (w.pick D M Y).2.1 ++ (w.pick D M Y).2.2), x.isDigit = true := by
    intro x hx
    simp only [List.mem_cons, List.mem_append] at hx
    rcases hx with rfl | (hx | hx) | hx
    · decide
    · exact hnum.1.2 x hx
    · exact hnum.2.1.2 x hx
    · exact hnum.2.2.2 x hx
  obtain ⟨h1, h2⟩ := jalali_text hE.persian hds hone.1 (by rw [hnorm, htext]) hE.table
  obtain ⟨h3, _⟩ := hijri_text hE.persian hds hone.2 (by rw [hnorm, htext]) hE.table am
  rw [htext] at h1 h2 h3
  exact ⟨⟨h1, h3⟩, h2⟩

theorem cal_numeric_parse (fns : Fns) {two : Int → Int} {month : List Char → Option Int} (hfp : fns.partValue = calPartValue E.uni.isDigit two month) (cfg : Cfg)
    (o w : Order) (ho : toLower cfg.dateOrder = o.letters) (hw : o.Agrees w) (hnow : cfg.currentTime = baseTime c E.now)
    (d m y : List Char) (hd : Short d) (hm : Short m) (hy : Four y) (sep : Char) (hsep : NumericSep w sep)
    (v1 : 1 ≤ natOfDigits m) (v2 : natOfDigits m ≤ 12) (v3 : 1 ≤ natOfDigits d) (hy1 : 1 ≤ natOfDigits y)
    (hpop : popTzOffset E.table (w.write d m y [sep] [sep]) = (w.write d m y [sep] [sep], none)) :
    (natOfDigits d ≤ 30 → calParse fns E.table cfg E.now E.monthFirst (w.write d m y [sep] [sep]) =
      (fns.create cfg (natOfDigits y) (natOfDigits m) (natOfDigits d) 0 0 0 0 (baseTime c E.now).loc).map fun t => { period := .day, time := t }) ∧
    (30 < natOfDigits d → two (natOfDigits d) ≠ 0 → calParse fns E.table cfg E.now E.monthFirst (w.write d m y [sep] [sep]) = .error .error) := by
  generalize he : (AEnv.mk fns cfg E.now E.monthFirst) = e
  have hfp' : e.fns.partValue = calPartValue E.uni.isDigit two month := by rw [← he]; exact hfp
  have ho' : toLower e.cfg.dateOrder = o.letters := by rw [← he]; exact ho
  have hnum : IsNumeral (w.pick d m y).1 ∧ IsNumeral (w.pick d m y).2.1 ∧ IsNumeral (w.pick d m y).2.2 := by
    cases w <;> simp [Order.pick, hd.1, hm.1, hy.1]
  have hsp : SepPair [sep] [sep] := by
    rcases hsep with rfl | rfl | ⟨rfl, _⟩ <;> (unfold SepPair IsSeparator; decide)
  have hinit := absInit_digits3 e _ _ _ [sep] [sep] hnum.1 hnum.2.1 hnum.2.2 hsp (w.write d m y [sep] [sep]) (by cases w <;> simp [Order.write, Order.pick])
  have hloc : e.now.loc = (baseTime c E.now).loc := by
    rw [← he]
    unfold AEnv.now
    simp only [hnow, base_notZero hE.toSurroundings, Bool.false_eq_true, if_false]
  constructor
  · intro v4
    obtain ⟨s, hs, hv, hct⟩ := cal_numeric_steps e (digits_ok hE hc) hfp' o w ho' hw d m y hd hm hy v1 v2 v3 v4 hy1
    unfold calParse
    rw [hpop]
    dsimp only
    rw [he, hinit, hs]
    dsimp only
    have hfb : fallbacks s = s := by simp [fallbacks, fallback1, hv, Vals.get]
    rw [hfb, absParse_create e s none (natOfDigits y) (natOfDigits m) (natOfDigits d) (by rw [hv]) (by rw [hv]) (by rw [hv]) (by omega) (by omega) (by omega)
      (by rw [hct]) ⟨d, .digit⟩ ⟨m, .digit⟩ (by rw [hct]) (by rw [hct]) (by
        intro t ht
        rw [hct] at ht
        simp only [Option.some.injEq] at ht
        rw [← ht]
        have := hy.2
        show y.length ≠ 2
        omega)]
    rw [hloc, ← he]
    dsimp only
    cases fns.create cfg (natOfDigits y) (natOfDigits m) (natOfDigits d) 0 0 0 0 (baseTime c E.now).loc <;> rfl
  · intro v4 htwo
    have := cal_late_steps e (digits_ok hE hc) hfp' o w ho' hw d m y hd hm hy v1 v2 v4 hy1 htwo
    unfold calParse
    rw [hpop]
    dsimp only
    rw [he, hinit, this]
end

/-! ## Month names -/

/-- The name in Latin letters. -/
def latinMonth (n : Int) : List Char := ((jalaliMonths.find? fun x => x.2.2 == n).map (·.1)).getD []

/-- A number of this many digits, and the rest. -/
def dayTmpls : List (List Char) := ["1".toList, "12".toList]

theorem month_passes : (persianMonths.all fun x => dayTmpls.all fun a =>
    jalaliPass (a ++ ' ' :: (x.1.map plainLetter ++ ' ' :: "3456".toList)) (a ++ ' ' :: (latinMonth x.2 ++ ' ' :: "3456".toList))) = true := by decide +kernel

theorem month_facts : (persianMonths.all fun x => (x.1.all fun c => persianLetters.contains c) && !x.1.isEmpty && digitFree (latinMonth x.2) && (latinMonth x.2).all isLetterTok &&
    !(latinMonth x.2).isEmpty && !skippedTokens.contains (latinMonth x.2) && (findMeridian (latinMonth x.2)).isEmpty &&
    decide (jalaliMonthValue (latinMonth x.2) = some x.2) && decide (1 ≤ x.2)) = true := by decide +kernel

theorem sanitizeSpaces_three {a b e : List Char} (h : ∀ c ∈ a ++ b ++ e, isSpace c = false ∧ (c != '\u00a0') = true) (ha : a ≠ []) (hb : b ≠ []) (he : e ≠ []) :
    sanitizeSpaces (a ++ ' ' :: (b ++ ' ' :: e)) = a ++ ' ' :: (b ++ ' ' :: e) := by
  have w : ∀ x, x ≠ [] → (∀ c ∈ x, c ∈ a ++ b ++ e) → Word x := fun x hx hm => ⟨hx, fun c hc => (h c (hm c hc)).1⟩
  have wa := w a ha (by intro c hc; simp [hc])
  have wb := w b hb (by intro c hc; simp [hc])
  have we := w e he (by intro c hc; simp [hc])
  have hf : (a ++ ' ' :: (b ++ ' ' :: e)).filter (fun c => c != '\u00a0') = a ++ ' ' :: (b ++ ' ' :: e) := by
    apply List.filter_eq_self.mpr
    intro c hc
    simp only [List.mem_append, List.mem_cons] at hc
    rcases hc with hc | rfl | hc | rfl | hc
    · exact (h c (by simp [hc])).2
    · decide
    · exact (h c (by simp [hc])).2
    · decide
    · exact (h c (by simp [hc])).2
  have hj : a ++ ' ' :: (b ++ ' ' :: e) = joinWith [' '] [a, b, e] := by simp [joinWith]
  unfold sanitizeSpaces
  rw [hf, hj, fields_join]
  intro x hx
  simp only [List.mem_cons, List.not_mem_nil, or_false] at hx
  rcases hx with rfl | rfl | rfl
  · exact wa
  · exact wb
  · exact we

section
variable {E : Env} (hE : PersianSurroundings E) {c : PCfg} (hc : c.validate = .ok ())
include hE

theorem cal_name_text (d mon y : List Char) (n : Int) (hd : Short (d.map asciiDigit)) (hmon : (mon, n) ∈ persianMonths) (hy : Four (y.map asciiDigit)) :
    jalaliText E.uni (d ++ ' ' :: (mon ++ ' ' :: y)) = d.map asciiDigit ++ ' ' :: (latinMonth n ++ ' ' :: y.map asciiDigit) ∧
    popTzOffset E.table (d.map asciiDigit ++ ' ' :: (latinMonth n ++ ' ' :: y.map asciiDigit)) =
      (d.map asciiDigit ++ ' ' :: (latinMonth n ++ ' ' :: y.map asciiDigit), none) := by
  obtain ⟨a, ds, ha, hds, hda, hya⟩ := month_sub hd hy
  have hp : jalaliPass (a ++ ' ' :: (mon.map plainLetter ++ ' ' :: "3456".toList)) (a ++ ' ' :: (latinMonth n ++ ' ' :: "3456".toList)) = true := by
    refine List.all_eq_true.mp (List.all_eq_true.mp month_passes _ hmon) a ?_
    rcases ha with rfl | rfl <;> decide
  have hfact := List.all_eq_true.mp month_facts _ hmon
  simp only [Bool.and_eq_true, Bool.not_eq_true'] at hfact
  obtain ⟨⟨⟨⟨⟨⟨⟨⟨f1, f2⟩, f3⟩, f4⟩, f5⟩, f6⟩, f7⟩, f8⟩, f9⟩ := hfact
  have hmem : ∀ c ∈ mon, c ∈ persianLetters := fun c hc => List.contains_iff_mem.mp (List.all_eq_true.mp f1 c hc)
  have hknown : ∀ c ∈ persianLetters, asciiDigit c = c ∧ c.isDigit = false ∧ 128 ≤ c.toNat ∧ toLowerC c = c ∧ isSpace c = false ∧ (c != '\u00a0') = true ∧ plainLetter c ∈ persianLetters := by
    intro c hc
    have := List.all_eq_true.mp persian_known c hc
    simp only [Bool.and_eq_true, decide_eq_true_eq, Bool.not_eq_true', beq_iff_eq] at this
    obtain ⟨⟨⟨⟨⟨⟨k1, k2⟩, k3⟩, k4⟩, k5⟩, k6⟩, k7⟩ := this
    exact ⟨k1, k2, k3, k4, k5, k6, k7⟩
  have hdm : d.map plainLetter = d := by
    rw [List.map_congr_left (g := id) fun c hc => (any_known (short_any hd.1 c hc)).2.1]; simp
  have hym : y.map plainLetter = y := by
    rw [List.map_congr_left (g := id) fun c hc => (any_known (short_any hy.1 c hc)).2.1]; simp
  have hsp : plainLetter ' ' = ' ' := by decide
  have hspd : asciiDigit ' ' = ' ' := by decide
  have hmap : (d ++ ' ' :: (mon ++ ' ' :: y)).map plainLetter = d ++ ' ' :: (mon.map plainLetter ++ ' ' :: y) := by
    simp [hdm, hym, hsp]
  have hmm : (mon.map plainLetter).map asciiDigit = mon.map plainLetter := by
    rw [List.map_map]
    exact List.map_congr_left fun c hc => (hknown _ (hknown c (hmem c hc)).2.2.2.2.2.2).1
  have hms : (mon.map plainLetter).map (sub ds) = mon.map plainLetter := by
    rw [List.map_map]
    exact List.map_congr_left fun c hc => sub_other (hknown _ (hknown c (hmem c hc)).2.2.2.2.2.2).2.1
  have hnorm : normalizeDigits E.uni.isDigit (E.uni.normalizeString (d ++ ' ' :: (mon ++ ' ' :: y))) =
      (a ++ ' ' :: (mon.map plainLetter ++ ' ' :: "3456".toList)).map (sub ds) := by
    rw [normal_persian hE.persian, hmap]
    · simp only [List.map_append, List.map_cons, hspd, hmm, hda, hya, hms, sub_other (ds := ds) (show (' ' : Char).isDigit = false by decide)]
    · intro c hc
      simp only [List.mem_append, List.mem_cons] at hc
      rcases hc with hc | rfl | hc | rfl | hc
      · exact Or.inr (Or.inr (short_any hd.1 c hc))
      · left; decide
      · exact Or.inr (Or.inl (hmem c hc))
      · left; decide
      · exact Or.inr (Or.inr (short_any hy.1 c hc))
    · intro c hc
      simp only [List.mem_append, List.mem_cons] at hc
      rcases hc with hc | rfl | hc | rfl | hc
      · have := any_known (short_any hd.1 c hc); rw [this.2.1]; exact this.1
      · decide
      · exact (hknown _ (hknown c (hmem c hc)).2.2.2.2.2.2).2.2.2.1
      · decide
      · have := any_known (short_any hy.1 c hc); rw [this.2.1]; exact this.1
    · rw [hmap]
      apply sanitizeSpaces_three
      · intro c hc
        simp only [List.mem_append] at hc
        rcases hc with (hc | hc) | hc
        · exact (any_known (short_any hd.1 c hc)).2.2
        · obtain ⟨x, hx, rfl⟩ := List.mem_map.mp hc
          have := hknown _ (hknown x (hmem x hx)).2.2.2.2.2.2
          exact ⟨this.2.2.2.2.1, this.2.2.2.2.2.1⟩
        · exact (any_known (short_any hy.1 c hc)).2.2
      · intro e; apply hd.1.1; rw [e]; rfl
      · intro e; rw [List.map_eq_nil_iff] at e; rw [e] at f2; simp at f2
      · intro e; apply hy.1.1; rw [e]; rfl
  obtain ⟨h1, h2⟩ := jalali_text hE.persian hds hp hnorm hE.table
  have hout : (a ++ ' ' :: (latinMonth n ++ ' ' :: "3456".toList)).map (sub ds) = d.map asciiDigit ++ ' ' :: (latinMonth n ++ ' ' :: y.map asciiDigit) := by
    have : (latinMonth n).map (sub ds) = latinMonth n := map_sub_word (by simpa [digitFree] using f3)
    simp only [List.map_append, List.map_cons, hda, hya, this, sub_other (ds := ds) (show (' ' : Char).isDigit = false by decide)]
  rw [hout] at h1 h2
  exact ⟨h1, h2⟩
end

end Verif.Props
