import Verif.Props.TimeOnly
import Verif.Props.MonthName
/-! # C38: a date followed by a time of day -/
set_option autoImplicit false
namespace Verif.Props
open Verif.Go Verif.Model Verif.Lemmas Verif.Spec

/-- What `Parse` makes of complete values with a time. -/
theorem absParse_fullTime (e : AEnv) (hf : e.fns = gregFns) (s : ASt) (tz : Option Tz) (y m d : Int)
    (hy : s.vals.year = some y) (hm : s.vals.month = some m) (hd : s.vals.day = some d)
    (hv : IsDate y m d) (hy0 : y ≠ 0) (td tm : Tok) (hctd : s.ctoks.day = some td) (hctm : s.ctoks.month = some tm)
    (hcty : ∀ t, s.ctoks.year = some t → t.text.length ≠ 2) {H M S ns : Int} {p : Option Period}
    (hc : ClockFor s H M S ns p) :
    absParse e s tz = .ok { period := periodFor e.cfg s p, time := goDate y m d H M S ns e.now.loc } := by
  have hmiss : missingParts s = [] := by simp [missingParts, Vals.get, hy, hm, hd]
  have hstrict : checkStrictParsing e.cfg ((missingParts s).map Comp.name) = true := by
    rw [hmiss]; simp [checkStrictParsing]
  have hcr : e.fns.create e.cfg (orNow s.vals.year (e.fns.nowParts e.now).1)
        (orNow s.vals.month (e.fns.nowParts e.now).2.1) (orNow s.vals.day (e.fns.nowParts e.now).2.2)
        H M S ns e.now.loc = .ok (goDate y m d H M S ns e.now.loc) := by
    rw [hy, hm, hd]
    simp only [orNow]
    rw [if_neg hy0, if_neg (by have := hv.1; omega), if_neg (by have := hv.2.2.1; omega), hf]
    exact gregCreate_valid e.cfg y m d H M S ns _ hv.1 hv.2.1 hv
  have hctf : correctForTimeFrame e.cfg e.now s tz (goDate y m d H M S ns e.now.loc) =
      .ok (goDate y m d H M S ns e.now.loc) := by
    unfold correctForTimeFrame
    rw [frameWeekday_skip _ _ _ (by simp [hctd])]
    have h1 : ∀ t, frameMonth e.cfg e.now s t = t := by intro t; simp [frameMonth, hy]
    have h2 : ∀ t, frameYear2 e.cfg e.now s t = t := by
      intro t
      unfold frameYear2
      cases hyt : s.ctoks.year with
      | none => rfl
      | some x => simp [hcty x hyt]
    have h3 : ∀ t, frameTime e.cfg e.now s tz t = t := by intro t; simp [frameTime, hctd]
    dsimp only
    rw [h1, h2, h3]
  rw [absParse_intro hc hcr hctf hstrict]
  have h4 : ∀ t, correctForMonth e s t = t := by intro t; simp [correctForMonth, hctm]
  have h5 : ∀ t, correctForDay e s t = t := by intro t; simp [correctForDay, hctd]
  rw [h4, h5]

/-- A date in front of a time: words that are not skipped. -/
theorem preSteps_values (e : AEnv) : ∀ (ws : List Wd) (i : Nat) (s : ASt),
    (∀ w ∈ ws, skippedTokens.contains w.text = false) →
    preSteps e i ws s = valueSteps e i (ws.map fun w => ⟨w.text, w.typ⟩) s := by
  intro ws
  induction ws with
  | nil => intro i s _; rfl
  | cons w ws ih =>
    intro i s h
    rw [preSteps, List.map_cons, valueSteps]
    have : preStep e i w s = valueStep e i ⟨w.text, w.typ⟩ s := by
      unfold preStep
      have := h w (by simp)
      rw [this]; rfl
    rw [this]
    congr 1
    funext s'
    exact ih (i + 1) s' (fun x hx => h x (by simp [hx]))

/-- Setting the time does not disturb the fallbacks. -/
theorem fallback1_time (s : ASt) (c : Comp) (sk : List Nat) (tm : Option Tok) :
    fallback1 { s with skippedIdx := sk, ctoks := { s.ctoks with time := tm } } c =
      { fallback1 s c with skippedIdx := sk, ctoks := { (fallback1 s c).ctoks with time := tm } } := by
  unfold fallback1
  simp only
  split
  · rfl
  · have gen : ∀ (l : List Tok) (s : ASt),
        l.foldl (fun s ut =>
          if ut.typ = .digit then
            { s with ctoks := s.ctoks.set c ut,
                     vals := s.vals.set c (if ut.text.all Char.isDigit then natOfDigits ut.text else 0) }
          else s) { s with skippedIdx := sk, ctoks := { s.ctoks with time := tm } } =
        { l.foldl (fun s ut =>
          if ut.typ = .digit then
            { s with ctoks := s.ctoks.set c ut,
                     vals := s.vals.set c (if ut.text.all Char.isDigit then natOfDigits ut.text else 0) }
          else s) s with
          skippedIdx := sk
          ctoks := { (l.foldl (fun s ut =>
            if ut.typ = .digit then
              { s with ctoks := s.ctoks.set c ut,
                       vals := s.vals.set c (if ut.text.all Char.isDigit then natOfDigits ut.text else 0) }
            else s) s).ctoks with time := tm } } := by
      intro l
      induction l with
      | nil => intro s; rfl
      | cons u l ih =>
        intro s
        rw [List.foldl_cons, List.foldl_cons]
        by_cases hu : u.typ = .digit
        · rw [if_pos hu, if_pos hu, ← ih]
          congr 1
          cases c <;> rfl
        · rw [if_neg hu, if_neg hu, ← ih]
    exact gen s.unset s

theorem fallbacks_time (s : ASt) (sk : List Nat) (tm : Option Tok) :
    fallbacks { s with skippedIdx := sk, ctoks := { s.ctoks with time := tm } } =
      { fallbacks s with skippedIdx := sk, ctoks := { (fallbacks s).ctoks with time := tm } } := by
  have h1 := fallback1_time s .day sk tm
  have h2 := fallback1_time (fallback1 s .day) .month sk tm
  have h3 := fallback1_time (fallback1 (fallback1 s .day) .month) .year sk tm
  unfold fallbacks
  rw [h1, h2, h3]

/-- A number followed by a word with a colon, or one that cannot be joined to it. -/
theorem clockWord_next (n : Notation) (mr : Meridian) (h : n.Written mr) : findMeridian (clockWord n) = [] :=
  findMeridian_noletter (clockWord_ok n mr h).run

/-- A complete date in words, then a time. -/
theorem dateTime_core (cfg : Cfg) (sysNow : Time) (mf : Nat → Bool) (tz : Option Tz)
    (a b c : Wd) (s1 s2 s3 : List Char) (n : Notation) (mr : Meridian) (ck : Clock)
    (ha : a.OK) (hb : b.OK) (hc : c.OK) (h1 : IsSeparator s1) (h2 : IsSeparator s2) (h3 : IsSeparator s3)
    (hn : n.Written mr) (hck : (cut6 n).meaning mr = some ck)
    (hpre : PreOK [] [(a, s1), (b, s2), (c, s3)] (clockWord n))
    (hsk : ∀ w ∈ [a, b, c], skippedTokens.contains w.text = false)
    (y m d : Int) (hv : IsDate y m d) (hy0 : y ≠ 0) (s : ASt) (ty tm td : Tok)
    (hst : valueSteps { fns := gregFns, cfg := cfg, sysNow := sysNow, monthFirst := mf } 0
      [⟨a.text, a.typ⟩, ⟨b.text, b.typ⟩, ⟨c.text, c.typ⟩] {} = some s)
    (hvals : (fallbacks s).vals = { day := some d, month := some m, year := some y })
    (hct : (fallbacks s).ctoks = { day := some td, month := some tm, year := some ty })
    (hty : ty.text.length ≠ 2) :
    absoluteParse cfg sysNow mf (a.text ++ s1 ++ b.text ++ s2 ++ c.text ++ s3 ++ n.text) tz =
      .ok { period := if cfg.timeAsPeriod then ck.period else .day
            time := goDate y m d ck.hour ck.minute ck.second ck.nano (nowOf cfg sysNow).loc } := by
  unfold absoluteParse
  simp only
  generalize he : (AEnv.mk gregFns cfg sysNow mf) = e at hst
  have hf : e.fns = gregFns := by rw [← he]
  have hcfg : e.cfg = cfg := by rw [← he]
  have hnow : e.now = nowOf cfg sysNow := by rw [← he]; rfl
  obtain ⟨sk, hi⟩ := absInit_time e [(a, s1), (b, s2), (c, s3)] n mr hn
    (by
      intro x hx
      simp only [List.mem_cons, List.not_mem_nil, or_false] at hx
      rcases hx with rfl | rfl | rfl
      · exact ⟨ha, sepOK_of h1⟩
      · exact ⟨hb, sepOK_of h2⟩
      · exact ⟨hc, sepOK_of h3⟩)
    hpre (a.text ++ s1 ++ b.text ++ s2 ++ c.text ++ s3 ++ n.text) (by simp [preText])
  have hps : preSteps e 0 (List.map (·.1) [(a, s1), (b, s2), (c, s3)]) {} = some s := by
    show preSteps e 0 [a, b, c] {} = some s
    rw [preSteps_values e _ 0 {} hsk]
    exact hst
  rw [hps] at hi
  rw [hi]
  dsimp only
  rw [fallbacks_time]
  have hcf : ClockFor { fallbacks s with
        skippedIdx := sk, ctoks := { (fallbacks s).ctoks with time := some ⟨(cut6 n).text, .digit⟩ } }
      ck.hour ck.minute ck.second ck.nano (some ck.period) := clockFor_time hn hck rfl
  rw [absParse_fullTime e hf _ tz y m d (by dsimp only; rw [hvals]) (by dsimp only; rw [hvals])
    (by dsimp only; rw [hvals]) hv hy0 td tm (by dsimp only; rw [hct]) (by dsimp only; rw [hct])
    (by
      intro t ht
      dsimp only at ht
      rw [hct] at ht
      cases ht
      exact hty) hcf, hcfg, hnow]
  congr 2
  unfold periodFor
  have : getPeriod { fallbacks s with
      skippedIdx := sk, ctoks := { (fallbacks s).ctoks with time := some ⟨(cut6 n).text, .digit⟩ } } = .day := by
    unfold getPeriod; dsimp only; rw [hvals]; rfl
  rw [this]
  dsimp only
  by_cases htp : cfg.timeAsPeriod = true
  · rw [if_pos htp, if_pos htp]
    have hm : ck.period = .second ∨ ck.period = .minute ∨ ck.period = .hour := by
      cases n <;> simp only [cut6, Notation.meaning] at hck <;> split at hck <;>
        first
        | (cases hck; simp)
        | cases hck
    rcases hm with h | h | h <;> rw [h] <;> rfl
  · rw [if_neg htp, if_neg htp]

/-- **C38** A complete numeric date followed by a time of day is exactly that day and time. -/
theorem C38_numeric_date_time_order (cfg : Cfg) (sysNow : Time) (mf : Nat → Bool) (tz : Option Tz) (o w : Order)
    (ho : toLower cfg.dateOrder = o.letters) (hw : o.Agrees w) (d m y s1 s2 s3 : List Char) (hd : Short d) (hm : Short m)
    (hy : Four y) (hs : SepPair s1 s2) (hs3 : IsSeparator s3) (hs3d : '.' ∉ s3)
    (hdate : IsDate (number y) (number m) (number d)) (hy2 : 2 ≤ number y)
    (n : Notation) (mr : Meridian) (c : Clock) (hn : n.Written mr) (hc : (cut6 n).meaning mr = some c) :
    absoluteParse cfg sysNow mf (w.write d m y s1 s2 ++ s3 ++ n.text) tz =
      .ok { period := if cfg.timeAsPeriod then c.period else .day
            time := goDate (number y) (number m) (number d) c.hour c.minute c.second c.nano
              (nowOf cfg sysNow).loc } := by
  obtain ⟨s, hst, hvals, hct⟩ := numeric_steps { fns := gregFns, cfg := cfg, sysNow := sysNow, monthFirst := mf }
    rfl o w ho hw d m y hd hm hy hdate hy2
  have hnum : IsNumeral (w.pick d m y).1 ∧ IsNumeral (w.pick d m y).2.1 ∧ IsNumeral (w.pick d m y).2.2 := by
    cases w <;> simp [Order.pick, hd.1, hm.1, hy.1]
  have hfb : fallbacks s = s := by simp [fallbacks, fallback1, hvals, Vals.get]
  rw [Order.write_pick]
  rw [number_eq, number_eq, number_eq] at *
  refine dateTime_core cfg sysNow mf tz ⟨_, .digit⟩ ⟨_, .digit⟩ ⟨_, .digit⟩ s1 s2 s3 n mr c
    (wdOK_digits hnum.1) (wdOK_digits hnum.2.1) (wdOK_digits hnum.2.2) hs.1 hs.2.1 hs3 hn hc ?_ ?_ _ _ _ hdate
    (by omega) s ⟨y, .digit⟩ ⟨m, .digit⟩ ⟨d, .digit⟩ hst (by rw [hfb, hvals]) (by rw [hfb, hct]) ?_
  · refine ⟨Or.inr ⟨digits_not_skipped hnum.1, digits_no_colon hnum.1.2, findMeridian_digits hnum.2.1.2, ?_⟩,
      Or.inr ⟨digits_not_skipped hnum.2.1, digits_no_colon hnum.2.1.2, findMeridian_digits hnum.2.2.2, ?_⟩,
      Or.inr ⟨digits_not_skipped hnum.2.2, digits_no_colon hnum.2.2.2, clockWord_next n mr hn, Or.inl hs3d⟩, trivial⟩
    · rcases hs.2.2 with ⟨h, _⟩ | ⟨_, h⟩
      · exact Or.inl h
      · exact Or.inr (Or.inr (Or.inr h))
    · rcases hs.2.2 with ⟨_, h⟩ | ⟨h, _⟩
      · exact Or.inl h
      · exact Or.inr (Or.inr (Or.inl h))
  · intro x hx
    simp only [List.mem_cons, List.not_mem_nil, or_false] at hx
    rcases hx with rfl | rfl | rfl
    · exact digits_not_skipped hnum.1
    · exact digits_not_skipped hnum.2.1
    · exact digits_not_skipped hnum.2.2
  · show y.length ≠ 2
    have := hy.2
    omega

/-- **C38** in the configured order. -/
theorem C38_numeric_date_time (cfg : Cfg) (sysNow : Time) (mf : Nat → Bool) (tz : Option Tz) (o : Order)
    (ho : toLower cfg.dateOrder = o.letters) (d m y s1 s2 s3 : List Char) (hd : Short d) (hm : Short m)
    (hy : Four y) (hs : SepPair s1 s2) (hs3 : IsSeparator s3) (hs3d : '.' ∉ s3)
    (hdate : IsDate (number y) (number m) (number d)) (hy2 : 2 ≤ number y)
    (n : Notation) (mr : Meridian) (c : Clock) (hn : n.Written mr) (hc : (cut6 n).meaning mr = some c) :
    absoluteParse cfg sysNow mf (o.write d m y s1 s2 ++ s3 ++ n.text) tz =
      .ok { period := if cfg.timeAsPeriod then c.period else .day
            time := goDate (number y) (number m) (number d) c.hour c.minute c.second c.nano
              (nowOf cfg sysNow).loc } :=
  C38_numeric_date_time_order cfg sysNow mf tz o o ho o.agrees_self d m y s1 s2 s3 hd hm hy hs hs3 hs3d hdate hy2 n mr c hn hc

/-- **C38** A date with a month name, in any order, followed by a time of day is exactly that day and
time. -/
theorem C38_month_name_time (cfg : Cfg) (sysNow : Time) (mf : Nat → Bool) (tz : Option Tz) (o w : Order)
    (ho : toLower cfg.dateOrder = o.letters) (d mon y s1 s2 s3 : List Char) (k : Int) (hd : Short d)
    (hmon : IsMonthName mon k) (hy : Four y) (hs1 : IsSeparator s1) (hs2 : IsSeparator s2)
    (hs3 : IsSeparator s3) (hs3d : '.' ∉ s3)
    (hdate : IsDate (number y) k (number d)) (hy2 : 2 ≤ number y)
    (n : Notation) (mr : Meridian) (c : Clock) (hn : n.Written mr) (hc : (cut6 n).meaning mr = some c) :
    absoluteParse cfg sysNow mf (w.write d mon y s1 s2 ++ s3 ++ n.text) tz =
      .ok { period := if cfg.timeAsPeriod then c.period else .day
            time := goDate (number y) k (number d) c.hour c.minute c.second c.nano (nowOf cfg sysNow).loc } := by
  obtain ⟨s, hst, hvals, hct⟩ := monthName_steps { fns := gregFns, cfg := cfg, sysNow := sysNow, monthFirst := mf }
    rfl o w ho d mon y k hd hmon hy hdate hy2
  rw [number_eq, number_eq] at *
  have gen : ∀ (p q r : Piece) str, p.apart q → q.apart r →
      str = p.text ++ s1 ++ q.text ++ s2 ++ r.text →
      valueSteps { fns := gregFns, cfg := cfg, sysNow := sysNow, monthFirst := mf } 0
        [⟨p.wd.text, p.wd.typ⟩, ⟨q.wd.text, q.wd.typ⟩, ⟨r.wd.text, r.wd.typ⟩] {} = some s →
      absoluteParse cfg sysNow mf (str ++ s3 ++ n.text) tz =
      .ok { period := if cfg.timeAsPeriod then c.period else .day
            time := goDate (natOfDigits y) k (natOfDigits d) c.hour c.minute c.second c.nano (nowOf cfg sysNow).loc } := by
    intro p q r str hpq hqr hstr h1
    rw [hstr]
    have := dateTime_core cfg sysNow mf tz p.wd q.wd r.wd s1 s2 s3 n mr c p.ok q.ok r.ok hs1 hs2 hs3 hn hc ?_ ?_
      _ _ _ hdate (by omega) s ⟨y, .digit⟩ ⟨mon, .letter⟩ ⟨d, .digit⟩ h1 hvals hct ?_
    · simp only [Piece.wd_text] at this
      exact this
    · refine ⟨Or.inr ⟨?_, ?_, ?_, Or.inr (Or.inl ?_)⟩, Or.inr ⟨?_, ?_, ?_, Or.inr (Or.inl ?_)⟩,
        Or.inr ⟨?_, ?_, clockWord_next n mr hn, Or.inl hs3d⟩, trivial⟩ <;> simp only [Piece.wd_text, nextText]
      · exact p.noskip
      · exact p.nocolon
      · exact q.meridian
      · exact p.not_time q hpq
      · exact q.noskip
      · exact q.nocolon
      · exact r.meridian
      · exact q.not_time r hqr
      · exact r.noskip
      · exact r.nocolon
    · intro w hw
      simp only [List.mem_cons, List.not_mem_nil, or_false] at hw
      rcases hw with rfl | rfl | rfl <;> rw [Piece.wd_text] <;> apply Piece.noskip
    · show y.length ≠ 2
      have := hy.2
      omega
  cases w
  case dmy => exact gen (.short d hd) (.name mon k hmon) (.four y hy) _ (by simp [Piece.apart]) (by simp [Piece.apart]) rfl hst
  case dym => exact gen (.short d hd) (.four y hy) (.name mon k hmon) _ (by simp [Piece.apart]) (by simp [Piece.apart]) rfl hst
  case mdy => exact gen (.name mon k hmon) (.short d hd) (.four y hy) _ (by simp [Piece.apart]) (by simp [Piece.apart]) rfl hst
  case myd => exact gen (.name mon k hmon) (.four y hy) (.short d hd) _ (by simp [Piece.apart]) (by simp [Piece.apart]) rfl hst
  case ymd => exact gen (.four y hy) (.name mon k hmon) (.short d hd) _ (by simp [Piece.apart]) (by simp [Piece.apart]) rfl hst
  case ydm => exact gen (.four y hy) (.short d hd) (.name mon k hmon) _ (by simp [Piece.apart]) (by simp [Piece.apart]) rfl hst

/-- The hypotheses are met by "12.05.2015 3:04:05.25 pm" (DMY). -/
example : Short "12".toList ∧ Short "05".toList ∧ Four "2015".toList ∧ SepPair ".".toList ".".toList ∧
    IsSeparator " ".toList ∧ '.' ∉ " ".toList ∧
    (Notation.hmsFracMer "3".toList "04".toList "05".toList "25".toList "pm".toList).Written .pm ∧
    (cut6 (Notation.hmsFracMer "3".toList "04".toList "05".toList "25".toList "pm".toList)).meaning .pm =
      some { hour := 15, minute := 4, second := 5, nano := 250000000, period := .second } ∧
    dayOf (absoluteParse { dateOrder := "DMY".toList, currentTime := goDate 2016 3 20 10 0 0 0 Loc.utc }
      Time.zero (fun _ => true) "12.05.2015 3:04:05.25 pm".toList none) = some (2015, 5, 12, .day) := by
  unfold Short Four SepPair IsSeparator
  decide +kernel

end Verif.Props
