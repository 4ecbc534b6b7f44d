import Verif.Props.Words
import Verif.Props.LocaleTimes
/-! # C53: dates with the name of a month in the language of the locale and a time of day -/
set_option autoImplicit false
namespace Verif.Props
open Verif.Go Verif.Model Verif.Data Verif.Lemmas Verif.Spec

theorem hours_tail {n : Notation} (hn : Hours n) (c : Bool) : (∃ ts, IsTail (lead c ++ n.text) (' ' :: n.text) ts) ∧ IsClockText n.text := by
  cases hn with
  | hm h m hh hm lm =>
    refine ⟨⟨_, by simpa [Notation.text] using IsTail.hm c h m hh.1 hm⟩, ?_⟩
    obtain ⟨m1, m2, rfl⟩ := len2 lm
    have d := hm.2
    have d' := hh.1.2
    rcases short_len hh with e | e
    · obtain ⟨h1, rfl⟩ := len1 e
      exact .hm1 _ _ _ (d' _ (by simp)) (d _ (by simp)) (d _ (by simp))
    · obtain ⟨h1, h2, rfl⟩ := len2 e
      exact .hm2 _ _ _ _ (d' _ (by simp)) (d' _ (by simp)) (d _ (by simp)) (d _ (by simp))
  | hms h m s hh hm lm hs ls =>
    refine ⟨⟨_, by simpa [Notation.text] using IsTail.hms c h m s hh.1 hm hs⟩, ?_⟩
    obtain ⟨m1, m2, rfl⟩ := len2 lm
    obtain ⟨s1, s2, rfl⟩ := len2 ls
    have d := hm.2
    have d' := hh.1.2
    have d2 := hs.2
    rcases short_len hh with e | e
    · obtain ⟨h1, rfl⟩ := len1 e
      exact .hms1 _ _ _ _ _ (d' _ (by simp)) (d _ (by simp)) (d _ (by simp)) (d2 _ (by simp)) (d2 _ (by simp))
    · obtain ⟨h1, h2, rfl⟩ := len2 e
      exact .hms2 _ _ _ _ _ _ (d' _ (by simp)) (d' _ (by simp)) (d _ (by simp)) (d _ (by simp)) (d2 _ (by simp)) (d2 _ (by simp))

theorem hours_clock {t : Notation} (ht : Hours t) {k : Clock} (hk : t.meaning .am = some k) : IsClock k.hour k.minute k.second k.nano ∧ k.period ≠ .none := by
  cases ht with
  | hm h m hh hm' _ =>
    simp only [Notation.meaning] at hk
    split at hk
    · cases hk
      have h1 := number_nonneg hh.1; have h2 := number_nonneg hm'
      refine ⟨?_, by simp⟩
      unfold IsClock
      dsimp only
      omega
    · cases hk
  | hms h m s hh hm' _ hs' _ =>
    simp only [Notation.meaning] at hk
    split at hk
    · cases hk
      have h1 := number_nonneg hh.1; have h2 := number_nonneg hm'; have h3 := number_nonneg hs'
      refine ⟨?_, by simp⟩
      unfold IsClock
      dsimp only
      omega
    · cases hk

/-- **C53** `Parse` asked for a locale that separates words by spaces and has its own list of words, on a day, the name of a month as the data of the locale have it,
and a year, written in any of five ways, then a time of day on the 24 hour clock after a space or a comma and a space, gives exactly that day at that time, with that
locale, whatever the date order; the period is the day, or that of the time if the time may be the period. -/
theorem C53_month_name_time {E : Env} (hE : Surroundings E) (hD : HasLocaleData E) {l : LocaleInfo} {s : ParserSt} {c : PCfg} (hc : AsksOnly l s c) (hl : ReadsWords l.name) (o : Order)
    (ho : orderLetters (orderIn l.name l.dateOrder c) = o.letters) (f : WordForm) (d W y w : List Char) (m : Int) (hd : Short d) (hy : Four y)
    (hW : IsWord E.uni W) (hWr : ∀ c ∈ W, c ∉ replacedChars) (hw : IsWord E.uni w) (h1 : ReadAs E.uni W w) (h2 : ReadAs E.uni w w)
    (hm : MonthWord l.name w m) (hu : (l.name, w) ∉ unreadMonths) (hdate : IsDate (number y) m (number d)) (hy2 : 2 ≤ number y)
    (comma : Bool) (t : Notation) (ht : Hours t) (k : Clock) (hk : t.meaning .am = some k)
    (hz : ZonesOk c E.now (wallOf (number y) m (number d) k.hour k.minute k.second k.nano)) :
    ∃ r, YieldsIn l.name E s c (f.write d W y ++ ((if comma then [',', ' '] else [' ']) ++ t.text)) (if c.timeAsPeriod then k.period else .day)
      (number y) m (number d) k.hour k.minute k.second k.nano r := by
  obtain ⟨⟨ts, hZ⟩, hT⟩ := hours_tail ht comma
  obtain ⟨hp, hn⟩ := word_passed hE hD hl f hZ (Or.inr ⟨_, hT, rfl⟩) hd hy hW hWr hw h1 h2 hm hu
  obtain ⟨_, _, _, _, _, _, f7⟩ := english_facts m (english_month hm.1 hm.2.1)
  have hw : ∃ (w : Order) (s1 : List Char), IsSeparator s1 ∧ f.writeOut d (englishMonth m) y ++ ' ' :: t.text = w.write d (englishMonth m) y s1 [' '] ++ [' '] ++ t.text := by
    have hsd : IsSeparator ['.', ' '] := by unfold IsSeparator; decide
    cases f
    · exact ⟨.dmy, [' '], isSep_space, by simp [WordForm.writeOut, WordForm.write, Order.write]⟩
    · exact ⟨.dmy, ['.', ' '], hsd, by simp [WordForm.writeOut, WordForm.write, Order.write]⟩
    · exact ⟨.mdy, [' '], isSep_space, by simp [WordForm.writeOut, Order.write]⟩
    · exact ⟨.mdy, [' '], isSep_space, by simp [WordForm.writeOut, WordForm.write, Order.write]⟩
    · exact ⟨.ymd, [' '], isSep_space, by simp [WordForm.writeOut, WordForm.write, Order.write]⟩
  obtain ⟨w', s1, hs1, hww⟩ := hw
  have hcut : cut6 t = t := by cases ht <;> rfl
  have habs := C38_month_name_time { cfgIn l c E.now with dateOrder := o.letters } E.now E.monthFirst none o w' (letters_lower o) d (englishMonth m) y s1 [' '] [' '] m hd f7 hy
    hs1 isSep_space isSep_space (by decide) hdate hy2 t .am k (hours_written ht .am) (by rw [hcut]; exact hk)
  rw [absolute_letters _ o (by rw [cfgIn_order]; exact ho)] at habs
  rw [show nowOf ({ cfgIn l c E.now with dateOrder := o.letters } : Cfg) E.now = nowOf (cfgIn l c E.now) E.now from rfl, ← hww] at habs
  obtain ⟨hcl, hper⟩ := hours_clock ht hk
  have e : lead comma = (if comma then [',', ' '] else [' ']) := by cases comma <;> rfl
  rw [e] at hp
  refine locale_yields hE hc.picks hp hn (by simp) ?_ hdate hcl hy2 ?_ hz
  · split
    · exact hper
    · decide
  · rw [habs, callNow_in hE]
    rfl

/-- **C53** The same for a name of ASCII letters, in any mix of capitals and small letters. -/
theorem C53_ascii_time {E : Env} (hE : Surroundings E) (hD : HasLocaleData E) {l : LocaleInfo} {s : ParserSt} {c : PCfg} (hc : AsksOnly l s c) (hl : ReadsWords l.name) (o : Order)
    (ho : orderLetters (orderIn l.name l.dateOrder c) = o.letters) (f : WordForm) (d W y : List Char) (m : Int) (hd : Short d) (hy : Four y)
    (hW : ∀ c ∈ W, c.isAlpha = true) (hne : W ≠ []) (hm : MonthWord l.name (toLower W) m) (hu : (l.name, toLower W) ∉ unreadMonths)
    (hdate : IsDate (number y) m (number d)) (hy2 : 2 ≤ number y) (comma : Bool) (t : Notation) (ht : Hours t) (k : Clock) (hk : t.meaning .am = some k)
    (hz : ZonesOk c E.now (wallOf (number y) m (number d) k.hour k.minute k.second k.nano)) :
    ∃ r, YieldsIn l.name E s c (f.write d W y ++ ((if comma then [',', ' '] else [' ']) ++ t.text)) (if c.timeAsPeriod then k.period else .day)
      (number y) m (number d) k.hour k.minute k.second k.nano r := by
  have hne' : toLower W ≠ [] := by intro e; exact hne (List.map_eq_nil_iff.mp e)
  have e : toLower (toLower W) = toLower W := by
    unfold toLower
    rw [List.map_map]
    exact List.map_congr_left fun c _ => toLowerC_idem c
  have h2 := ascii_readAs hE.uni (alpha_lower hW)
  rw [e] at h2
  exact C53_month_name_time hE hD hc hl o ho f d W y (toLower W) m hd hy (ascii_word hE.uni hne hW) (fun c hc => alpha_kept (hW c hc))
    (ascii_word hE.uni hne' (alpha_lower hW)) (ascii_readAs hE.uni hW) h2 hm hu hdate hy2 comma t ht k hk hz

/-! ## Examples -/

example : ∃ r, YieldsIn "de".toList (fullEnv demoEnv) {} (asked "de") "5. Dezember 2015, 10:11".toList .day 2015 12 5 10 11 0 0 r := by
  have h : getLocaleData "de".toList = some ⟨"de".toList, "DMY".toList, false, 1⟩ := by decide +kernel
  exact C53_ascii_time full_ok (full_hasData _) (asked_only h (by decide +kernel)) ⟨by decide +kernel, by decide⟩ .dmy (by decide) .dotted
    "5".toList "Dezember".toList "2015".toList 12 ⟨by unfold IsNumeral; decide, by decide⟩ ⟨by unfold IsNumeral; decide, by decide⟩ (by decide) (by decide)
    ⟨by decide, by decide, (deLang, none), List.mem_of_getElem? (i := 68) rfl, by decide +kernel, by decide +kernel⟩ (by decide +kernel) (by decide) (by decide)
    true (.hm "10".toList "11".toList) (.hm _ _ ⟨by decide, by decide⟩ (by decide) rfl) { hour := 10, minute := 11, period := .minute } (by decide) (demo_zones _ _)

/-- The time as the period. -/
example : ∃ r, YieldsIn "ru".toList cyrillicEnv {} { asked "ru" with timeAsPeriod := true } "5 Марта 2015 9:05:07".toList .second 2015 3 5 9 5 7 0 r := by
  have h : getLocaleData "ru".toList = some ⟨"ru".toList, "DMY".toList, false, 1⟩ := by decide +kernel
  have ha : AsksOnly ⟨"ru".toList, "DMY".toList, false, 1⟩ ({} : ParserSt) { asked "ru" with timeAsPeriod := true } := by
    exact ⟨⟨by decide +kernel, Or.inl ⟨rfl, rfl⟩, rfl, rfl, rfl, Or.inl rfl⟩, h, fun h' => by cases h'⟩
  exact C53_month_name_time cyrillic_ok (full_hasData _) ha ⟨by decide +kernel, by decide⟩ .dmy (by decide) .dayFirst
    "5".toList "Марта".toList "2015".toList "марта".toList 3 ⟨by unfold IsNumeral; decide, by decide⟩ ⟨by unfold IsNumeral; decide, by decide⟩
    ⟨cyrillic_wordChars (by decide +kernel), by decide +kernel⟩ (by decide +kernel)
    ⟨cyrillic_wordChars (by decide +kernel), by decide +kernel⟩
    (cyrillic_readAs (by decide +kernel)) (cyrillic_readAs (by decide +kernel))
    ⟨by decide, by decide, (ruLang, none), List.mem_of_getElem? (i := 413) rfl, by decide +kernel, by decide +kernel⟩ (by decide +kernel) (by decide) (by decide)
    false (.hms "9".toList "05".toList "07".toList) (.hms _ _ _ ⟨by decide, by decide⟩ (by decide) rfl (by decide) rfl)
    { hour := 9, minute := 5, second := 7, period := .second } (by decide) ⟨rfl, fun t => by show (-86400 : Int) ≤ 0 ∧ (0 : Int) ≤ 86400; decide, fun l h => by cases h⟩

end Verif.Props
