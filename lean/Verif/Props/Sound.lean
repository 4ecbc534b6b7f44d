import Verif.Lemmas.Sound
import Verif.Props.TwoDigitYear
/-! # C59: a complete date is made of words of the text -/
set_option autoImplicit false
namespace Verif.Props
open Verif.Go Verif.Model Verif.Lemmas Verif.Spec

theorem leapFor_correct (src : DateSource) (y : Int) : LeapFor src y (getCorrectLeapYear src y) := by
  cases src with
  | future => have := C02_future y; exact ⟨this.1, this.2.1, this.2.2.2⟩
  | past => have := C02_past y; exact ⟨this.1, this.2.1, this.2.2.2⟩
  | current => have := C02_current y; exact ⟨this.1, this.2.1, this.2.2.2.2⟩

theorem leapFor_leap {src : DateSource} {y r : Int} (h : LeapFor src y r) : Leap r := by
  cases src <;> exact h.1

theorem gregCreate_mended (cfg : Cfg) (Y m d H M S ns : Int) (l : Loc) (h1 : 1 ≤ m) (h2 : m ≤ 12) (h3 : 1 ≤ d) (h4 : d ≤ 31) :
    ∃ Y' d', gregCreate cfg Y m d H M S ns l = .ok (goDate Y' m d' H M S ns l) ∧ Mended cfg.dateSource Y m d Y' d' ∧ IsDate Y' m d' := by
  by_cases hd : IsDate Y m d
  · refine ⟨Y, d, gregCreate_valid cfg Y m d H M S ns l h1 h2 hd, ⟨fun _ => ⟨rfl, rfl⟩, ?_, fun h => absurd hd h⟩, hd⟩
    rintro rfl rfl hl
    exfalso
    have := hd.2.2.2
    simp [monthLen, hl] at this
  · by_cases hf : d = 29 ∧ m = 2
    · obtain ⟨rfl, rfl⟩ := hf
      have hl : ¬ Leap Y := fun hl => hd ⟨h1, h2, h3, by simp [monthLen, hl]⟩
      have hlf := leapFor_correct cfg.dateSource Y
      refine ⟨getCorrectLeapYear cfg.dateSource Y, 29, gregCreate_feb29 cfg Y H M S ns l hl (leapFor_leap hlf), ⟨fun h => absurd h hd, fun _ _ _ => ⟨hlf, rfl⟩, ?_⟩, ?_⟩
      · intro _ h; exact absurd ⟨rfl, rfl⟩ h
      · exact ⟨h1, h2, h3, by simp [monthLen, (leapFor_leap hlf)]⟩
    · have hlen : monthLen Y m < d := by
        refine Int.not_le.mp fun hc => hd ⟨h1, h2, h3, hc⟩
      have hpos : 28 ≤ monthLen Y m := by
        unfold monthLen; repeat' split
        all_goals omega
      refine ⟨Y, monthLen Y m, ?_, ⟨fun h => absurd h hd, fun a b => absurd ⟨a, b⟩ hf, fun _ _ => ⟨rfl, rfl⟩⟩, ⟨h1, h2, by omega, Int.le_refl _⟩⟩
      unfold gregCreate
      have e1 : ¬ (d = 29 ∧ m = 2 ∧ (!isLeapYear Y) = true) := fun h => hf ⟨h.1, h.2.1⟩
      rw [if_neg e1]
      dsimp only
      have e2 : getLastDayOfMonth Y m = monthLen Y m := by rw [getLastDayOfMonth_valid _ _ h1 h2, daysIn_eq]
      rw [e2, if_pos hlen]

/-- With the three parts found, only the two digit year is still corrected. -/
theorem frame_complete {cfg : Cfg} {now : Time} (hf : now.loc.IsFixed) {s : ASt} {tz : Option Tz} {y m d : Int} {ty : Tok}
    (hy : s.vals.year = some y) (hcm : s.ctoks.month.isSome = true) (hty : s.ctoks.year = some ty) {H M S ns Y D : Int} (hc : IsClock H M S ns)
    (hd : IsDate Y m D) :
    correctForTimeFrame cfg now s tz (goDate Y m D H M S ns now.loc) =
      .ok (goDate (if ty.text.length = 2 then centuryFor cfg.dateSource (now.before (goDate Y m D H M S ns now.loc)) Y else Y) m D H M S ns now.loc) := by
  have cm' : s.ctoks.month.isNone = false := by cases h : s.ctoks.month <;> simp_all
  have S1 := shows_goDate (l := now.loc) hd hc (hf.noJump _)
  have addY : ∀ k, (goDate Y m D H M S ns now.loc).addDate k 0 0 = goDate (Y + k) m D H M S ns now.loc := by
    intro k
    unfold Time.addDate
    rw [S1.year, S1.month, S1.day, S1.hour, S1.minute, S1.second, S1.nanosecond, Int.add_zero, Int.add_zero]
    rfl
  unfold correctForTimeFrame
  rw [frameWeekday_skip cfg s _ (Or.inr (Or.inl hcm))]
  simp only [frameMonth, hy, Option.isNone_some, Bool.and_false, Bool.false_eq_true, if_false, frameYear2, hty, frameTime, cm', Bool.false_and, addY]
  split
  · unfold centuryFor
    cases now.before (goDate Y m D H M S ns now.loc) <;> cases cfg.dateSource <;> simp <;> rfl
  · rfl

/-- What the date with the year `y` (written `yw`), the month `m` and the day `d` is turned into. -/
def MadeOf (cfg : Cfg) (now : Time) (y m d : Int) (yw : List Char) (t : Time) : Prop :=
  ∃ Y D H M S ns, IsClock H M S ns ∧ Mended cfg.dateSource (if y = 0 then now.year else y) m d Y D ∧
    (Four yw → Shows t Y m D H M S ns) ∧
    (Two yw → let Y' := centuryFor cfg.dateSource (now.before (goDate Y m D H M S ns now.loc)) Y
      t = goDate Y' m D H M S ns now.loc ∧ (IsDate Y' m D → Shows t Y' m D H M S ns))

/-- **C59** StrictParsing, for every string and every setting: a result is made of words of the string.  Three different words stand
for the day, the month and the year, and the result shows just these, after the preferences for two digit years have been applied and
a day the month does not have has been replaced; or (finding 4) a two digit word before a four digit year stands for a part that
has no word of its own, and the result shows these numbers if they are a date. -/
theorem C59_words (cfg : Cfg) (sysNow : Time) (mf : Nat → Bool) (tz : Option Tz) (str : List Char) (r : DateRes)
    (hstrict : cfg.strict = true) (hf : (nowOf cfg sysNow).loc.IsFixed) (hr : absoluteParse cfg sysNow mf str tz = .ok r) :
    ∃ d m y yw, (ThreeWords str d m y yw ∧ MadeOf cfg (nowOf cfg sysNow) y m d yw r.time) ∨
      (Borrowed str d m y ∧ (y ≠ 0 → IsDate y m d → ∃ H M S ns, IsClock H M S ns ∧ Shows r.time y m d H M S ns)) := by
  unfold absoluteParse at hr
  dsimp only at hr
  generalize he : (AEnv.mk gregFns cfg sysNow mf) = e at *
  have hcfg : e.cfg = cfg := by rw [← he]
  have hfn : e.fns = gregFns := by rw [← he]
  have hnow : e.now = nowOf cfg sysNow := by rw [← he]; rfl
  cases hi : absInit e str with
  | error f => rw [hi] at hr; cases hr
  | ok s =>
    rw [hi] at hr
    dsimp only at hr
    obtain ⟨H, M, S, ns, p, dt, dt2, hc, hcr, hfr, hres, hchk⟩ := absParse_ok hr
    rw [hcfg] at hchk
    rw [hfn, hcfg, hnow] at hcr
    rw [hcfg, hnow] at hfr
    have found := absInit_found hi
    generalize hnn : nowOf cfg sysNow = now at *
    -- all three parts are there
    have all3 : ∀ c ∈ [Comp.day, Comp.month, Comp.year], (s.vals.get c).isSome = true := by
      intro c hcm
      cases hv : s.vals.get c with
      | some v => rfl
      | none =>
        exfalso
        unfold checkStrictParsing at hchk
        rw [hstrict] at hchk
        have : c ∈ missingParts s := by
          unfold missingParts
          rw [List.mem_filter]
          exact ⟨hcm, by rw [hv]; rfl⟩
        cases hmp : missingParts s with
        | nil => rw [hmp] at this; simp at this
        | cons a l => rw [hmp] at hchk; simp at hchk
    obtain ⟨d, hd⟩ := Option.isSome_iff_exists.mp (all3 .day (by simp))
    obtain ⟨m, hm⟩ := Option.isSome_iff_exists.mp (all3 .month (by simp))
    obtain ⟨y, hy⟩ := Option.isSome_iff_exists.mp (all3 .year (by simp))
    have hd' : s.vals.day = some d := hd
    have hm' : s.vals.month = some m := hm
    have hy' : s.vals.year = some y := hy
    have cd : s.ctoks.day.isSome = true := by have := found.isSome .day; rw [hd] at this; exact this
    have cm : s.ctoks.month.isSome = true := by have := found.isSome .month; rw [hm] at this; exact this
    have cy : s.ctoks.year.isSome = true := by have := found.isSome .year; rw [hy] at this; exact this
    obtain ⟨ty, hty⟩ := Option.isSome_iff_exists.mp cy
    -- the outcome, for numbers that are a day and a month
    have outcome : 1 ≤ m → m ≤ 12 → 1 ≤ d → d ≤ 31 → ∃ Y D, Mended cfg.dateSource (if y = 0 then now.year else y) m d Y D ∧ IsDate Y m D ∧
        r.time = goDate (if ty.text.length = 2 then centuryFor cfg.dateSource (now.before (goDate Y m D H M S ns now.loc)) Y else Y) m D H M S ns now.loc := by
      intro a1 a2 a3 a4
      have hm0 : m ≠ 0 := by omega
      have hd0 : d ≠ 0 := by omega
      obtain ⟨Y, D, g1, g2, g3⟩ := gregCreate_mended cfg (if y = 0 then now.year else y) m d H M S ns now.loc a1 a2 a3 a4
      have hcr' : gregCreate cfg (if y = 0 then now.year else y) m d H M S ns now.loc = .ok dt := by
        simp only [hm', hd', hy', orNow, hm0, hd0, if_false] at hcr
        exact hcr
      rw [g1] at hcr'
      have hdt := Except.ok.inj hcr'
      rw [← hdt, frame_complete hf (m := m) (d := d) hy' cm hty hc.ok g3] at hfr
      have hdt2 := Except.ok.inj hfr
      refine ⟨Y, D, g2, g3, ?_⟩
      rw [hres]
      simp only [correctForDay, correctForMonth, cd, cm, Bool.true_or, if_true, ← hdt2]
    -- where the parts come from
    obtain ⟨s1, pos, i, inv, hs1⟩ := absInit_sinv hfn hi
    have word : ∀ {k : Nat} {w : Tok}, (wordsOf str)[k]? = some w → (wordList str)[k]? = some w.text := by
      intro k w h
      rw [← wordsOf_text, List.getElem?_map, h]; rfl
    by_cases hall : (s1.vals.get .day).isSome = true ∧ (s1.vals.get .month).isSome = true ∧ (s1.vals.get .year).isSome = true
    · -- every part has its word
      have hs : s = s1 := by
        rw [hs1]; unfold fallbacks
        rw [fallback1_some hall.1, fallback1_some hall.2.1, fallback1_some hall.2.2]
      subst hs
      have pd := inv.part .day
      have pm := inv.part .month
      have py := inv.part .year
      rw [hd] at pd; rw [hm] at pm; rw [hy] at py
      rcases pd with pd | ⟨d0, dw, e1, _, d3, _, d5⟩
      · exact absurd pd.1 (by simp)
      rcases pm with pm | ⟨m0, mw, e2, _, m3, _, m5⟩
      · exact absurd pm.1 (by simp)
      rcases py with py | ⟨y0, yw, e3, y2, y3, _, y5⟩
      · exact absurd py.1 (by simp)
      cases e1; cases e2; cases e3
      have ety : yw = ty := by have : s.ctoks.year = some yw := y2; rw [hty] at this; exact (Option.some.inj this).symm
      subst ety
      have mword : AsMonth mw.text m := by
        rcases m5 with ⟨_, h⟩ | ⟨_, h⟩
        · exact Or.inl h
        · exact Or.inr h
      have mr : 1 ≤ m ∧ m ≤ 12 := by
        rcases mword with ⟨_, _, h⟩ | h
        · exact h
        · exact monthName_range h
      obtain ⟨Y, D, o1, o2, o3⟩ := outcome mr.1 mr.2 d5.2.2.2.1 d5.2.2.2.2
      refine ⟨d, m, y, yw.text, Or.inl ⟨⟨pos .day, pos .month, pos .year, dw.text, mw.text, ?_, ?_, ?_, word d3, word m3, word y3, d5.2, mword, y5.2⟩,
        Y, D, H, M, S, ns, hc.ok, o1, ?_, ?_⟩⟩
      · exact inv.dist _ _ (by decide) (by rw [hd]; rfl) (by rw [hm]; rfl)
      · exact inv.dist _ _ (by decide) (by rw [hd]; rfl) (by rw [hy]; rfl)
      · exact inv.dist _ _ (by decide) (by rw [hm]; rfl) (by rw [hy]; rfl)
      · intro h4
        have : yw.text.length ≠ 2 := by have := h4.2; omega
        rw [if_neg this] at o3
        rw [o3]; exact shows_goDate o2 hc.ok (hf.noJump _)
      · intro h2
        rw [if_pos h2.2] at o3
        refine ⟨o3, fun hdate => ?_⟩
        rw [o3]; exact shows_goDate hdate hc.ok (hf.noJump _)
    · -- a part is taken from a left-over word
      rcases inv.unset with hu | ⟨u, k, hu, hut, htwo, hk, _, hky, ⟨w, hw, hw4⟩, hne⟩
      · exfalso
        have hs : s = s1 := by
          rw [hs1]; unfold fallbacks
          rw [fallback1_nil (c := .day) hu, fallback1_nil (c := .month) hu, fallback1_nil (c := .year) hu]
        subst hs
        exact hall ⟨all3 _ (by simp), all3 _ (by simp), all3 _ (by simp)⟩
      · have py := inv.part .year
        rw [hw] at py
        rcases py with py | ⟨y0, yw, y1, y2, y3, _, y5⟩
        · exact absurd py.2 (by simp)
        cases y2
        have y4 : Four w.text ∧ y0 = number w.text := by
          rcases y5.2 with h | ⟨h, _⟩
          · exact h
          · exact absurd h.2 (by omega)
        have hys : (s1.vals.get .year).isSome = true := by rw [y1]; rfl
        -- the values after the fallback
        have key : ((s1.vals.get .day = none ∧ d = natOfDigits u.text) ∨ s1.vals.get .day = some d) ∧
            ((s1.vals.get .month = none ∧ m = natOfDigits u.text) ∨ s1.vals.get .month = some m) ∧ s1.vals.get .year = some y ∧
            s.ctoks.get .year = some w := by
          cases h1 : s1.vals.get .day with
          | none =>
            have f1 := fallback1_one (c := .day) hu hut htwo.1 h1
            generalize hs2 : fallback1 s1 .day = s2 at f1
            cases h2 : s1.vals.get .month with
            | none =>
              have f2 := fallback1_one (s := s2) (c := .month) (by rw [f1]; exact hu) hut htwo.1 (by rw [f1]; exact h2)
              have f3 : fallback1 (fallback1 s2 .month) .year = fallback1 s2 .month := fallback1_some (by rw [f2, f1]; exact hys)
              have : s = fallback1 s2 .month := by rw [hs1]; unfold fallbacks; rw [hs2, f3]
              rw [this, f2, f1] at hd hm hy ⊢
              dsimp only at hd hm hy ⊢
              rw [Vals.get_set, Vals.get_set] at hd hm hy
              simp at hd hm hy
              refine ⟨Or.inl ⟨rfl, hd.symm⟩, Or.inl ⟨rfl, hm.symm⟩, hy, ?_⟩
              rw [CToks.get_set, CToks.get_set]
              simpa using hw
            | some m1 =>
              have f2 : fallback1 s2 .month = s2 := fallback1_some (by
                rw [f1]; dsimp only; rw [Vals.get_set]; simp [h2])
              have f3 : fallback1 s2 .year = s2 := fallback1_some (by rw [f1]; exact hys)
              have : s = s2 := by rw [hs1]; unfold fallbacks; rw [hs2, f2, f3]
              rw [this, f1] at hd hm hy ⊢
              dsimp only at hd hm hy ⊢
              rw [Vals.get_set] at hd hm hy
              simp [h2] at hd hm hy
              refine ⟨Or.inl ⟨rfl, hd.symm⟩, Or.inr (by rw [hm]), hy, ?_⟩
              rw [CToks.get_set]
              simpa using hw
          | some d1 =>
            have f1 : fallback1 s1 .day = s1 := fallback1_some (by rw [h1]; rfl)
            cases h2 : s1.vals.get .month with
            | none =>
              have f2 := fallback1_one (c := .month) hu hut htwo.1 h2
              have f3 : fallback1 (fallback1 s1 .month) .year = fallback1 s1 .month := fallback1_some (by rw [f2]; exact hys)
              have : s = fallback1 s1 .month := by rw [hs1]; unfold fallbacks; rw [f1, f3]
              rw [this, f2] at hd hm hy ⊢
              dsimp only at hd hm hy ⊢
              rw [Vals.get_set] at hd hm hy
              simp [h1] at hd hm hy
              refine ⟨Or.inr (by rw [hd]), Or.inl ⟨rfl, hm.symm⟩, hy, ?_⟩
              rw [CToks.get_set]
              simpa using hw
            | some m1 => exact absurd ⟨by rw [h1]; rfl, by rw [h2]; rfl, hys⟩ hall
        obtain ⟨kd, km, ky, kw⟩ := key
        have ey : y0 = y := by rw [y1] at ky; exact Option.some.inj ky
        subst ey
        have ety : w = ty := by have : s.ctoks.year = some w := kw; rw [hty] at this; exact (Option.some.inj this).symm
        subst ety
        have own : ∀ c v, s1.vals.get c = some v → ∃ t, (wordList str)[pos c]? = some t.text ∧ PW c t v ∧ pos c ≠ k := by
          intro c v hv
          rcases inv.part c with h | ⟨v', t, h1, _, h3, _, h5⟩
          · rw [h.1] at hv; cases hv
          · rw [h1] at hv; cases hv
            exact ⟨t, word h3, h5, hne c (by rw [h1]; rfl)⟩
        refine ⟨d, m, y0, w.text, Or.inr ⟨⟨k, pos .year, u.text, w.text, hky, word hk, word y3, htwo, y4.1, y4.2, ?_⟩, ?_⟩⟩
        · rcases kd with ⟨_, kd⟩ | kd
          · left
            refine ⟨by rw [number_eq]; exact kd, ?_⟩
            rcases km with ⟨_, km⟩ | km
            · left; rw [number_eq]; exact km
            · right
              obtain ⟨t, t1, t2, t3⟩ := own _ _ km
              refine ⟨pos .month, t.text, t3, inv.dist _ _ (by decide) (by rw [km]; rfl) hys, t1, ?_⟩
              rcases t2 with ⟨_, h⟩ | ⟨_, h⟩
              · exact Or.inl h
              · exact Or.inr h
          · right
            rcases km with ⟨_, km⟩ | km
            · refine ⟨by rw [number_eq]; exact km, ?_⟩
              obtain ⟨t, t1, t2, t3⟩ := own _ _ kd
              exact ⟨pos .day, t.text, t3, inv.dist _ _ (by decide) (by rw [kd]; rfl) hys, t1, t2.2⟩
            · exact absurd ⟨by rw [kd]; rfl, by rw [km]; rfl, hys⟩ hall
        · intro hy0 hdate
          have hlen : monthLen y0 m ≤ 31 := by
            unfold monthLen; repeat' split
            all_goals omega
          have b4 := hdate.2.2.2
          obtain ⟨Y, D, o1, o2, o3⟩ := outcome hdate.1 hdate.2.1 hdate.2.2.1 (by omega)
          rw [if_neg hy0] at o1
          obtain ⟨rfl, rfl⟩ := o1.exists_ hdate
          rw [if_neg (by omega)] at o3
          exact ⟨H, M, S, ns, hc.ok, by rw [o3]; exact shows_goDate hdate hc.ok (hf.noJump _)⟩

def strictCfg : Cfg := { dateOrder := "MDY".toList, strict := true, currentTime := goDate 2016 3 31 10 0 0 0 Loc.utc }

/-- Met by a date with a time and a weekday. -/
example : ∃ r, absoluteParse strictCfg Time.zero (fun _ => true) "Tuesday, 12 May 2015 10:20".toList none = .ok r ∧
    dayOf (.ok r) = some (2015, 5, 12, .day) ∧
    ∃ d m y yw, (ThreeWords "Tuesday, 12 May 2015 10:20".toList d m y yw ∧ MadeOf strictCfg (nowOf strictCfg Time.zero) y m d yw r.time) ∨
      (Borrowed "Tuesday, 12 May 2015 10:20".toList d m y ∧ (y ≠ 0 → IsDate y m d → ∃ H M S ns, IsClock H M S ns ∧ Shows r.time y m d H M S ns)) := by
  have key : dayOf (absoluteParse strictCfg Time.zero (fun _ => true) "Tuesday, 12 May 2015 10:20".toList none) = some (2015, 5, 12, .day) := by
    decide +kernel
  cases h : absoluteParse strictCfg Time.zero (fun _ => true) "Tuesday, 12 May 2015 10:20".toList none with
  | error f => rw [h] at key; cases key
  | ok r =>
    rw [h] at key
    exact ⟨r, rfl, key, C59_words _ _ _ _ _ r rfl Loc.utc_isFixed h⟩

/-- The words of that text. -/
example : wordList "Tuesday, 12 May 2015 10:20".toList =
    ["Tuesday".toList, "12".toList, "May".toList, "2015".toList, "10:20".toList] := by decide +kernel

/-- The month's number is known to be a day only when the name comes; the words "5" and "6" then are a left-over and the day. -/
example : dayOf (absoluteParse { strictCfg with dateOrder := "DMY".toList } Time.zero (fun _ => true) "5 6 May 2015".toList none) =
    some (2015, 5, 6, .day) := by decide +kernel

/-- **C59** (finding 62) StrictParsing does not refuse a date that does not exist: it becomes another one.  31 April becomes 30 April,
and 29 February 2015 a 29 February of another year, even for CurrentPeriod. -/
theorem C59_changed :
    dayOf (absoluteParse strictCfg Time.zero (fun _ => true) "31 April 2015".toList none) = some (2015, 4, 30, .day) ∧
    dayOf (absoluteParse strictCfg Time.zero (fun _ => true) "29 February 2015".toList none) = some (2016, 2, 29, .day) := by
  decide +kernel

/-- … and one word can be both the day and the month. -/
theorem C59_one_word :
    dayOf (absoluteParse { strictCfg with dateOrder := "YMD".toList } Time.zero (fun _ => true) "10 2015".toList none) = some (2015, 10, 10, .day) := by
  decide +kernel

end Verif.Props
