import Verif.Lemmas.CalZonePass
import Verif.Props.CalendarTimes
/-! # C35: Jalali and Hijri dates with a time of day and an offset -/
set_option autoImplicit false
namespace Verif.Props
open Verif.Go Verif.Model Verif.Data Verif.Lemmas Verif.Spec

/-- The offset as it is written: ±hh:mm or ±hhmm. -/
def offsetText (neg : Bool) (h m : Nat) (colon : Bool) : List Char := signChar neg :: (two h ++ (if colon then [':'] else []) ++ two m)

theorem calDigit_digit : ∀ n : Fin 10, (digitChar n.val).isDigit = true := by decide

theorem calOffset_template {h m : Nat} (hh : h < 100) (hm : m < 100) (neg colon : Bool) :
    ∃ e ∈ offsetEnds, Rel2 (TagRel fun _ _ => True) e (offsetText neg h m colon) := by
  have dg : ∀ n, n < 10 → (digitChar n).isDigit = true := fun n hn => calDigit_digit ⟨n, hn⟩
  have t : ∀ (x : Char), x.isDigit = true → x.toNat < 128 → ∀ n, n < 10 → TagRel (fun _ _ => True) x (digitChar n) :=
    fun x h1 h2 n hn => ⟨h2, Or.inl ⟨h1, dg n hn, trivial⟩⟩
  have p : ∀ x : Char, x.toNat < 128 → x.isDigit = false → TagRel (fun _ _ => True) x x := fun x h1 h2 => tag_self h1 h2
  have h1 : h / 10 < 10 := by omega
  have h2 : h % 10 < 10 := by omega
  have m1 : m / 10 < 10 := by omega
  have m2 : m % 10 < 10 := by omega
  cases neg <;> cases colon
  · exact ⟨"+1234".toList, by decide, .cons (p _ (by decide) (by decide)) (.cons (t _ (by decide) (by decide) _ h1) (.cons (t _ (by decide) (by decide) _ h2)
      (.cons (t _ (by decide) (by decide) _ m1) (.cons (t _ (by decide) (by decide) _ m2) .nil))))⟩
  · exact ⟨"+12:34".toList, by decide, .cons (p _ (by decide) (by decide)) (.cons (t _ (by decide) (by decide) _ h1) (.cons (t _ (by decide) (by decide) _ h2)
      (.cons (p _ (by decide) (by decide)) (.cons (t _ (by decide) (by decide) _ m1) (.cons (t _ (by decide) (by decide) _ m2) .nil)))))⟩
  · exact ⟨"-1234".toList, by decide, .cons (p _ (by decide) (by decide)) (.cons (t _ (by decide) (by decide) _ h1) (.cons (t _ (by decide) (by decide) _ h2)
      (.cons (t _ (by decide) (by decide) _ m1) (.cons (t _ (by decide) (by decide) _ m2) .nil))))⟩
  · exact ⟨"-12:34".toList, by decide, .cons (p _ (by decide) (by decide)) (.cons (t _ (by decide) (by decide) _ h1) (.cons (t _ (by decide) (by decide) _ h2)
      (.cons (p _ (by decide) (by decide)) (.cons (t _ (by decide) (by decide) _ m1) (.cons (t _ (by decide) (by decide) _ m2) .nil)))))⟩

theorem calOffset_chars {h m : Nat} (hh : h < 100) (hm : m < 100) (neg colon : Bool) : ∀ c ∈ offsetText neg h m colon, c.isDigit = true ∨ c = ':' ∨ c = '+' ∨ c = '-' := by
  have dg : ∀ n, n < 10 → (digitChar n).isDigit = true := fun n hn => calDigit_digit ⟨n, hn⟩
  intro c hc
  simp only [offsetText, two, List.mem_cons, List.mem_append, List.not_mem_nil, or_false] at hc
  rcases hc with rfl | ((rfl | rfl) | hc) | rfl | rfl
  · cases neg
    · exact Or.inr (Or.inr (Or.inl rfl))
    · exact Or.inr (Or.inr (Or.inr rfl))
  · exact Or.inl (dg _ (by omega))
  · exact Or.inl (dg _ (by omega))
  · cases colon
    · simp at hc
    · simp only [if_true, List.mem_singleton] at hc; exact Or.inr (Or.inl hc)
  · exact Or.inl (dg _ (by omega))
  · exact Or.inl (dg _ (by omega))

section
variable {E : Env} (hE : PersianSurroundings E)
include hE

theorem cal_zone_normal (w : Order) (d m y : List Char) (hd : Short (d.map asciiDigit)) (hm : Short (m.map asciiDigit))
    (hy : Four (y.map asciiDigit)) (sep : Char) (hsep : NumericSep w sep) {h mi : List Char} {s : Option (List Char)} (hck : ClockOk h mi s none)
    {oh om : Nat} (hoh : oh < 100) (hom : om < 100) (neg colon : Bool) :
    normalizeDigits E.uni.isDigit (E.uni.normalizeString (w.write d m y [sep] [sep] ++ ' ' :: (clockText h mi s ++ offsetText neg oh om colon))) =
      w.write (d.map asciiDigit) (m.map asciiDigit) (y.map asciiDigit) [sep] [sep] ++
        ' ' :: (clockText (h.map asciiDigit) (mi.map asciiDigit) (s.map (·.map asciiDigit)) ++ offsetText neg oh om colon) := by
  have hch := calOffset_chars hoh hom neg colon
  have dig : ∀ c : Char, c.isDigit = true → c.toNat < 128 ∧ plainLetter c = c ∧ asciiDigit c = c ∧ ¬ (65 ≤ c.toNat ∧ c.toNat ≤ 90) ∧ isSpace c = false ∧ (c != '\u00a0') = true := by
    intro c hc
    have hr := digit_range hc
    have ha := asciiDigit_low (c := c) (by omega)
    have := any_known (c := c) (by rw [ha]; exact hc)
    exact ⟨by omega, this.2.1, ha, by omega, this.2.2⟩
  have all : ∀ c ∈ offsetText neg oh om colon, c.toNat < 128 ∧ plainLetter c = c ∧ asciiDigit c = c ∧ ¬ (65 ≤ c.toNat ∧ c.toNat ≤ 90) ∧ isSpace c = false ∧ (c != '\u00a0') = true := by
    intro c hc
    rcases hch c hc with h | rfl | rfl | rfl
    · exact dig c h
    · decide
    · decide
    · decide
  refine cal_tail_normal hE w d m y hd hm hy sep hsep hck _ ?_ ?_
  · intro c hc
    have := all c hc
    exact ⟨Or.inl this.1, this.2.1, this.2.2.1, this.2.2.2.1⟩
  · intro A hA hne
    refine (tidy_word (A := A ++ offsetText neg oh om colon) ?_ (by simp [hne]) true).1
    intro c hc
    rcases List.mem_append.mp hc with h | h
    · exact hA c h
    · exact (all c h).2.2.2.2

theorem cal_zone_text (w : Order) (D M Y : List Char) (hd : Short D) (hm : Short M)
    (hy : Four Y) (sep : Char) (hsep : NumericSep w sep) {H Mi : List Char} {S : Option (List Char)} (hh : IsShort H)
    (hmi : IsShort Mi ∧ Mi.length = 2) (hs : ∀ x, S = some x → IsShort x ∧ x.length = 2)
    {oh om : Nat} (neg colon : Bool) (hk : KnownOffset neg oh om) :
    let t := w.write D M Y [sep] [sep] ++ ' ' :: (clockText H Mi S ++ offsetText neg oh om colon)
    ((jalaliStages t = t ∧ ∀ am, replaceMeridians am t = t) ∧ stripBraces (sanitizeDate E.uni t) = t) ∧
      ∃ z : Tz, popTzOffset E.table t = (w.write D M Y [sep] [sep] ++ ' ' :: clockText H Mi S, some z) ∧ z.offset = seconds neg oh om := by
  intro t
  have hoh := hk.1
  have hom := hk.2.1
  have hnum : IsNumeral (w.pick D M Y).1 ∧ IsNumeral (w.pick D M Y).2.1 ∧ IsNumeral (w.pick D M Y).2.2 := by
    cases w <;> simp [Order.pick, hd.1, hm.1, hy.1]
  have hsepd : sep.isDigit = false ∧ (foldC sep).isAlpha = false := by
    rcases hsep with rfl | rfl | ⟨rfl, _⟩ <;> decide
  have hshape : ((w.pick D M Y).1.length, (w.pick D M Y).2.1.length, (w.pick D M Y).2.2.length) ∈ shapes w.yearPlace := by
    have h4 := hy.2
    rcases short_len hd with h1 | h1 <;> rcases short_len hm with h2 | h2 <;> cases w <;> simp [Order.pick, h1, h2, h4, Order.yearPlace, shapes]
  obtain ⟨T, hT, es, hes, hTe⟩ := clock_template hh hmi hs
  obtain ⟨e, he, r3⟩ := calOffset_template (h := oh) (m := om) (by omega) (by omega) neg colon
  have hone := List.all_eq_true.mp (List.all_eq_true.mp (List.all_eq_true.mp (offsets_pass (sep_mem hsep)) _ hshape) T hT) _ he
  have htext := tmpl3_sub hshape hsepd.1
  rw [← write_sep] at htext
  have hds : ∀ x ∈ '0' :: ((w.pick D M Y).1 ++ (w.pick D M Y).2.1 ++ (w.pick D M Y).2.2), x.isDigit = true := by
    intro x hx
    simp only [List.mem_cons, List.mem_append] at hx
    rcases hx with rfl | (hx | hx) | hx
    · decide
    · exact hnum.1.2 x hx
    · exact hnum.2.1.2 x hx
    · exact hnum.2.2.2 x hx
  have hasc : isAscii (tmpl3 (w.pick D M Y).1.length (w.pick D M Y).2.1.length (w.pick D M Y).2.2.length sep ++ ' ' :: (T ++ e)) = true := by
    simp only [stagePass, Bool.and_eq_true] at hone
    exact hone.1.1.1.1.1.1.1.1
  simp only [isAscii, List.all_append, List.all_cons, Bool.and_eq_true] at hasc
  have r1 : Rel2 (TagRel fun _ _ => True) (tmpl3 (w.pick D M Y).1.length (w.pick D M Y).2.1.length (w.pick D M Y).2.2.length sep) (w.write D M Y [sep] [sep]) := by
    rw [← htext]
    exact (tag_sub hds hasc.1).mono fun _ _ h => ⟨h.left, h.same.imp (fun h => ⟨h.1, h.2.1, trivial⟩) id⟩
  have r2 : Rel2 (TagRel fun _ _ => True) T (clockText H Mi S) := by
    rw [← hTe]
    exact (tag_sub hes hasc.2.2.1).mono fun _ _ h => ⟨h.left, h.same.imp (fun h => ⟨h.1, h.2.1, trivial⟩) id⟩
  have r := r1.append (.cons (tag_self (x := ' ') (by decide) (by decide)) (r2.append r3))
  refine ⟨stage_pass hE.persian hone r, ?_⟩
  -- the zone
  have hdl : ∀ c : Char, c.isDigit = true → (foldC c).isAlpha = false := fun c hc => by rw [foldC_digit c hc]; exact alpha_digit c hc
  have hl : Letterless (w.write D M Y [sep] [sep] ++ ' ' :: clockText H Mi S) := by
    intro x hx
    simp only [List.mem_append, List.mem_cons] at hx
    rcases hx with hx | rfl | hx
    · rw [write_sep] at hx
      simp only [List.mem_append, List.mem_cons] at hx
      rcases hx with hx | rfl | hx | rfl | hx
      · exact hdl x (hnum.1.2 x hx)
      · exact hsepd.2
      · exact hdl x (hnum.2.1.2 x hx)
      · exact hsepd.2
      · exact hdl x (hnum.2.2.2 x hx)
    · decide
    · unfold clockText at hx
      simp only [List.mem_append, List.mem_cons] at hx
      rcases hx with hx | rfl | hx | hx
      · exact hdl x (hh.1.2 x hx)
      · decide
      · exact hdl x (hmi.1.1.2 x hx)
      · cases S with
        | none => cases hx
        | some q =>
          simp only [List.mem_cons] at hx
          rcases hx with rfl | hx
          · decide
          · exact hdl x ((hs q rfl).1.1.2 x hx)
  -- the last character is a digit
  obtain ⟨b, c, hbc, hcd⟩ : ∃ b c, clockText H Mi S = b ++ [c] ∧ c.isDigit = true := by
    have last : ∀ (q : List Char), IsShort q → ∃ b c, q = b ++ [c] ∧ c.isDigit = true := by
      intro q hq
      refine ⟨q.dropLast, q.getLast hq.1.1, (List.dropLast_concat_getLast hq.1.1).symm, hq.1.2 _ (List.getLast_mem hq.1.1)⟩
    cases S with
    | none =>
      obtain ⟨b, c, e1, e2⟩ := last Mi hmi.1
      exact ⟨H ++ ':' :: b, c, by simp [clockText, e1], e2⟩
    | some q =>
      obtain ⟨b, c, e1, e2⟩ := last q (hs q rfl).1
      exact ⟨H ++ ':' :: (Mi ++ ':' :: b), c, by simp [clockText, e1], e2⟩
  have hfb : firstByte c = c := by
    unfold firstByte
    have := digit_range hcd
    simp [show c.toNat < 128 by omega]
  obtain ⟨z, hz, hzo⟩ := C20_offset_at_end hE.table (b := w.write D M Y [sep] [sep] ++ ' ' :: b) (c := c) (by rw [hbc] at hl; simpa using hl)
    (by rintro rfl; revert hcd; decide) hk colon
  refine ⟨z, ?_, hzo⟩
  rw [hfb] at hz
  have e1 : t = w.write D M Y [sep] [sep] ++ ' ' :: b ++ c :: (signChar neg :: (two oh ++ (if colon then [':'] else []) ++ two om)) := by
    show w.write D M Y [sep] [sep] ++ ' ' :: (clockText H Mi S ++ offsetText neg oh om colon) = _
    rw [hbc]; simp [offsetText]
  rw [e1, hz, hbc]
  simp

variable {c : PCfg} (hc : c.validate = .ok ())
include hc

/-- **C35** With an offset after the time of day the result has this offset and the same clock: the date and the time as they are in
the zone of the base time. -/
theorem C35_jalali_offset (lib : JalaliLib) (o w : Order) (ho : toLower (calendarOrder c) = o.letters) (hw : o.Agrees w)
    (d m y : List Char) (hd : Short (d.map asciiDigit)) (hm : Short (m.map asciiDigit)) (hy : Four (y.map asciiDigit))
    (sep : Char) (hsep : NumericSep w sep) (v1 : 1 ≤ number (m.map asciiDigit)) (v2 : number (m.map asciiDigit) ≤ 12)
    (v3 : 1 ≤ number (d.map asciiDigit)) (v4 : number (d.map asciiDigit) ≤ 30) (hy1 : 1 ≤ number (y.map asciiDigit)) (g : Int × Int × Int)
    (hj : IsJalali lib (number (y.map asciiDigit)) (number (m.map asciiDigit)) (number (d.map asciiDigit)) g)
    (h mi : List Char) (s : Option (List Char)) (hck : ClockOk h mi s none) (neg colon : Bool) (oh om : Nat) (hk : KnownOffset neg oh om)
    (t : Time) (ht : t = goDate g.1 g.2.1 g.2.2 (anyNumber h) (anyNumber mi) (clockSecond s) 0 (baseTime c E.now).loc) (hnz : t.isZero = false) :
    ∃ zone, E.parseJalali lib (some c) (w.write d m y [sep] [sep] ++ ' ' :: (clockText h mi s ++ offsetText neg oh om colon)) =
      .ok { period := if c.timeAsPeriod then clockPeriod s else .day
            time := goDate t.year t.month t.day t.hour t.minute t.second t.nsec (Loc.fixed zone (seconds neg oh om)) } := by
  obtain ⟨cfg, h1, h2, h3, h4, h5⟩ := calendar_cfg hc E.now
  have hmi : IsShort (mi.map asciiDigit) ∧ (mi.map asciiDigit).length = 2 := by rw [List.length_map]; exact hck.minutes
  have hsx : ∀ x, s.map (·.map asciiDigit) = some x → IsShort x ∧ x.length = 2 := by
    intro x hx
    cases s with
    | none => simp at hx
    | some z =>
      simp only [Option.map_some, Option.some.injEq] at hx
      subst hx
      have := hck.seconds z rfl
      rwa [← List.length_map (f := asciiDigit)] at this
  have hoh := hk.1
  have hom := hk.2.1
  have hnorm := cal_zone_normal hE w d m y hd hm hy sep hsep hck (oh := oh) (om := om) (by omega) (by omega) neg colon
  obtain ⟨⟨⟨t1, _⟩, t2⟩, z, t3, t4⟩ := cal_zone_text hE w _ _ _ hd hm hy sep hsep hck.hours hmi hsx neg colon hk
  obtain ⟨k1, k2⟩ := clockNotation_ok hck
  have ktext := clockNotation_text (h.map asciiDigit) (mi.map asciiDigit) (s.map (·.map asciiDigit)) none
  simp only [latinMeridian, List.append_nil] at ktext
  refine ⟨z.name, ?_⟩
  unfold Env.parseJalali
  rw [h1]
  dsimp only
  unfold jalaliParse
  rw [jalaliText_stages, hnorm, t1, t2, cal_zone_parse hE hc (jalaliFns E.uni lib) rfl cfg o w (by rw [h2]; exact ho) hw h3 _ _ _ hd hm hy sep hsep
    (by have : _ := v1; rw [number_eq] at this; omega) (by have : _ := v2; rw [number_eq] at this; omega)
    (by have : _ := v3; rw [number_eq] at this; omega) (by have : _ := v4; rw [number_eq] at this; omega) (by have : _ := hy1; rw [number_eq] at this; omega)
    _ _ _ k1 k2 _ (some z) (by rw [ktext]; exact t3) t (by rw [ht]; exact jalali_create (by exact hj) _ _ _ _ _ _), h5]
  unfold applyPopped
  dsimp only
  rw [if_neg (by unfold DateRes.isZero clockPeriod; simp only [hnz, Bool.or_false]; cases c.timeAsPeriod <;> cases s <;> simp), ← t4]

/-- **C35** … and of a Hijri date. -/
theorem C35_hijri_offset (lib : HijriLib) (am : Bool) (o w : Order) (ho : toLower (calendarOrder c) = o.letters) (hw : o.Agrees w)
    (d m y : List Char) (hd : Short (d.map asciiDigit)) (hm : Short (m.map asciiDigit)) (hy : Four (y.map asciiDigit))
    (sep : Char) (hsep : NumericSep w sep) (v1 : 1 ≤ number (m.map asciiDigit)) (v2 : number (m.map asciiDigit) ≤ 12)
    (v3 : 1 ≤ number (d.map asciiDigit)) (hy1 : 1 ≤ number (y.map asciiDigit))
    (v4 : number (d.map asciiDigit) ≤ 29 ∨ (number (d.map asciiDigit) = 30 ∧
      (number (m.map asciiDigit) % 2 = 1 ∨ (number (m.map asciiDigit) = 12 ∧ isHijriLeap lib (number (y.map asciiDigit)) = true))))
    (g : Int × Int × Int) (hg : g = lib.toGregorian (number (y.map asciiDigit)) (number (m.map asciiDigit)) (number (d.map asciiDigit)))
    (h mi : List Char) (s : Option (List Char)) (hck : ClockOk h mi s none) (neg colon : Bool) (oh om : Nat) (hk : KnownOffset neg oh om)
    (t : Time) (ht : t = goDate g.1 g.2.1 g.2.2 (anyNumber h) (anyNumber mi) (clockSecond s) 0 (baseTime c E.now).loc) (hnz : t.isZero = false) :
    ∃ zone, E.parseHijri lib am (some c) (w.write d m y [sep] [sep] ++ ' ' :: (clockText h mi s ++ offsetText neg oh om colon)) =
      .ok { period := if c.timeAsPeriod then clockPeriod s else .day
            time := goDate t.year t.month t.day t.hour t.minute t.second t.nsec (Loc.fixed zone (seconds neg oh om)) } := by
  obtain ⟨cfg, h1, h2, h3, h4, h5⟩ := calendar_cfg hc E.now
  have hmi : IsShort (mi.map asciiDigit) ∧ (mi.map asciiDigit).length = 2 := by rw [List.length_map]; exact hck.minutes
  have hsx : ∀ x, s.map (·.map asciiDigit) = some x → IsShort x ∧ x.length = 2 := by
    intro x hx
    cases s with
    | none => simp at hx
    | some z =>
      simp only [Option.map_some, Option.some.injEq] at hx
      subst hx
      have := hck.seconds z rfl
      rwa [← List.length_map (f := asciiDigit)] at this
  have hoh := hk.1
  have hom := hk.2.1
  have v30 : number (d.map asciiDigit) ≤ 30 := by omega
  have hnorm := cal_zone_normal hE w d m y hd hm hy sep hsep hck (oh := oh) (om := om) (by omega) (by omega) neg colon
  obtain ⟨⟨⟨_, t1⟩, t2⟩, z, t3, t4⟩ := cal_zone_text hE w _ _ _ hd hm hy sep hsep hck.hours hmi hsx neg colon hk
  obtain ⟨k1, k2⟩ := clockNotation_ok hck
  have ktext := clockNotation_text (h.map asciiDigit) (mi.map asciiDigit) (s.map (·.map asciiDigit)) none
  simp only [latinMeridian, List.append_nil] at ktext
  refine ⟨z.name, ?_⟩
  unfold Env.parseHijri
  rw [h1]
  dsimp only
  unfold hijriParse hijriText
  rw [hnorm, t1, t2, cal_zone_parse hE hc (hijriFns E.uni lib) rfl cfg o w (by rw [h2]; exact ho) hw h3 _ _ _ hd hm hy sep hsep
    (by have : _ := v1; rw [number_eq] at this; omega) (by have : _ := v2; rw [number_eq] at this; omega)
    (by have : _ := v3; rw [number_eq] at this; omega) (by have : _ := v30; rw [number_eq] at this; omega) (by have : _ := hy1; rw [number_eq] at this; omega)
    _ _ _ k1 k2 _ (some z) (by rw [ktext]; exact t3) t (by
      rw [ht, hg]
      exact hijri_create (lib := lib) v1 v2 v4 _ _ _ _ _ _), h5]
  unfold applyPopped
  dsimp only
  rw [if_neg (by unfold DateRes.isZero clockPeriod; simp only [hnz, Bool.or_false]; cases c.timeAsPeriod <;> cases s <;> simp), ← t4]
end

/-! ## Examples -/

/-- "1/1/1394 10:11:12+03:30". -/
example : ∃ zone, persianEnv.parseJalali demoJalali (some {}) "۱/۱/۱۳۹۴ ۱۰:۱۱:۱۲+03:30".toList =
    .ok { period := .day, time := goDate 2015 3 21 10 11 12 0 (Loc.fixed zone 12600) } := by
  have := C35_jalali_offset persian_sound (c := {}) rfl demoJalali .dmy .dmy (by decide) (Order.agrees_self _) "۱".toList "۱".toList "۱۳۹۴".toList
    ⟨by unfold IsNumeral; decide, by decide⟩ ⟨by unfold IsNumeral; decide, by decide⟩ ⟨by unfold IsNumeral; decide, by decide⟩ '/' (Or.inl rfl)
    (by decide) (by decide) (by decide) (by decide) (by decide) (2015, 3, 21)
    ⟨⟨31, by decide +kernel, by decide⟩, ⟨false, by decide +kernel, by decide⟩, by decide +kernel⟩ "۱۰".toList "۱۱".toList (some "۱۲".toList)
    ⟨⟨by unfold IsNumeral; decide, by decide⟩, ⟨⟨by unfold IsNumeral; decide, by decide⟩, by decide⟩,
      fun x hx => by cases hx; exact ⟨⟨by unfold IsNumeral; decide, by decide⟩, by decide⟩, by decide, by decide, fun x hx => by cases hx; decide⟩
    false true 3 30 ⟨by decide, by decide, by decide +kernel⟩ (goDate 2015 3 21 10 11 12 0 Loc.utc) rfl (by decide +kernel)
  exact this

/-- "1/9/1445 8:05 in the evening". -/
example : persianEnv.parseHijri demoHijri true (some { timeAsPeriod := true }) "١/٩/١٤٤٥ ٨:٠٥ مساء".toList =
    .ok { period := .minute, time := goDate 2024 3 11 20 5 0 0 Loc.utc } :=
  C35_hijri_date_time persian_sound rfl demoHijri true .dmy .dmy (by decide) (Order.agrees_self _) "١".toList "٩".toList "١٤٤٥".toList
    ⟨by unfold IsNumeral; decide, by decide⟩ ⟨by unfold IsNumeral; decide, by decide⟩ ⟨by unfold IsNumeral; decide, by decide⟩ '/' (Or.inl rfl)
    (by decide) (by decide) (by decide) (by decide) (Or.inl (by decide)) "٨".toList "٠٥".toList none (some .pm)
    ⟨⟨by unfold IsNumeral; decide, by decide⟩, ⟨⟨by unfold IsNumeral; decide, by decide⟩, by decide⟩,
      (fun x hx => nomatch hx), by decide, by decide, (fun x hx => nomatch hx)⟩

end Verif.Props
