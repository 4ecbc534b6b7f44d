import Verif.Lemmas.IsoClasses
import Verif.Props.Iso
import Verif.Props.LocaleTimes
/-! # C45 in any of the supported locales -/
set_option autoImplicit false
namespace Verif.Props
open Verif.Go Verif.Model Verif.Data Verif.Lemmas Verif.Spec

/-- ISO dates and times reach the individual parsers in all locales but Finnish. -/
theorem locale_ready {E : Env} (hE : Surroundings E) (hD : HasLocaleData E) {l : LocaleInfo} (hl : getLocaleData l.name = some l) (hfi : l.name ≠ "fi".toList) :
    IsoReady E (E.lang l.name) := by
  intro ds es hds hes a b a' b' hq x hx s hs h
  have hK := iso_sep
  rw [over_append] at hK
  have hone := List.all_eq_true.mp (iso_in hq) _ (between_mem hx)
  simp only [Bool.and_eq_true] at hone
  obtain ⟨⟨⟨⟨⟨h1, h2⟩, h3⟩, h4⟩, h5⟩, h6⟩ := hone
  have hrel := tag_sub2 hds hes h1 h4
  rw [← h] at hrel
  have hall : ∀ d ∈ isoClasses, Reached E.uni (d.lang E.uni) [['t']] s (List.zipWith (sub2 ds es) (isoDateA ' ' a') (isoDateB ' ' b')) ∧
      Rel2 (TagRel (wild ds)) (isoDateA ' ' a') (List.zipWith (sub2 ds es) (isoDateA ' ' a') (isoDateB ' ' b')) := by
    intro d hd
    have hu := List.all_eq_true.mp iso_uniform d (List.mem_cons_of_mem _ hd)
    have ha := List.all_eq_true.mp iso_ascii d (List.mem_cons_of_mem _ hd)
    obtain ⟨t, ht, hpass⟩ := reachesWith_all hE.uni hu ha (by decide +kernel) (fun c hc => by cases hc) (List.all_eq_true.mp h2 d hd) hs hrel.1
    obtain ⟨u, hu', hpass'⟩ := reachesWith_all hE.uni hu ha (by decide +kernel) (fun c hc => by cases hc) (List.all_eq_true.mp h3 d hd) hs hrel.2
    have : t = u := by
      have h1 := hpass.translate
      rw [hpass'.translate] at h1
      simp only [Option.some.injEq, List.cons.injEq, and_true] at h1
      exact h1.symm
    subst this
    rw [← of_tag_sub2 h5 ht hu']
    exact ⟨hpass, ht⟩
  have hd0 : isoData [] true true (some 3) [] ∈ isoClasses := by simp [isoClasses]
  have htidy : tidy (toLower s) = true := by
    rw [← tidy_rel (hrel.1.mono fun _ _ hxy => hxy.case)]
    have := List.all_eq_true.mp h2 _ hd0
    simp only [reachesWith, cleanDate, Bool.and_eq_true] at this
    exact this.1.1.1.1.1.1.1.1.1.1
  have hcl : isoClasses.all (closed isoAlphabet) = true := by
    have := iso_closed
    rw [List.all_cons, Bool.and_eq_true] at this
    exact this.2
  refine ⟨everywhere_other hE.uni hD iso_reduces hK.1 hcl hl hfi hs htidy ?_ fun d hd => (hall d hd).1, (hall _ hd0).2⟩
  rw [h]
  exact over_zip hK.2 hds hes h4 h6

/-- **C45** `Parse` asked for any one of the 503 supported locales other than Finnish, with a date order that has the month before the day, on an ISO
8601 date and time without zone, with or without milliseconds, gives exactly that time. -/
theorem C45_local_everywhere {E : Env} (hE : Surroundings E) (hD : HasLocaleData E) {l : LocaleInfo} {s : ParserSt} {c : PCfg} (hc : AsksOnly l s c)
    (hfi : l.name ≠ "fi".toList) (hm : MonthBeforeDayIn l c) {st : IsoStamp} (h : st.OK)
    {b : Char} (hb : IsBetween b) (hz : ZonesOk c E.now (wallOf st.year st.month st.day st.hour st.minute st.second st.nano)) :
    ∃ r, YieldsIn l.name E s c (st.write b) (if c.timeAsPeriod then .second else .day) st.year st.month st.day st.hour st.minute st.second st.nano r :=
  local_in hE (locale_ready hE hD hc.supported hfi) hc.picks hm h hb hz

/-- **C45** The same with "Z" at the end is that time in UTC. -/
theorem C45_utc_everywhere {E : Env} (hE : Surroundings E) (hD : HasLocaleData E) {l : LocaleInfo} {s : ParserSt} {c : PCfg} (hc : AsksOnly l s c)
    (hfi : l.name ≠ "fi".toList) (hm : MonthBeforeDayIn l c) {st : IsoStamp} (h : st.OK) {b : Char} (hb : IsBetween b) {z : Char} (hz : z = 'Z' ∨ z = 'z')
    (hnj : (baseTime c E.now).loc.NoJump (wallOf st.year st.month st.day st.hour st.minute st.second st.nano))
    (hso : SmallOffsets (baseTime c E.now).loc) :
    ∃ r, YieldsAtIn l.name E s c (st.write b ++ [z]) (if c.timeAsPeriod then .second else .day) st 0 r :=
  utc_in hE (locale_ready hE hD hc.supported hfi) hc.picks hm h hb hz hnj hso

/-- **C45** The same with an offset in use at the end is that time in a zone with this offset. -/
theorem C45_offset_everywhere {E : Env} (hE : Surroundings E) (hD : HasLocaleData E) {l : LocaleInfo} {s : ParserSt} {c : PCfg} (hc : AsksOnly l s c)
    (hfi : l.name ≠ "fi".toList) (hm : MonthBeforeDayIn l c) {st : IsoStamp} (h : st.OK)
    (hms : st.milli = none) {b : Char} (hb : IsBetween b) {neg : Bool} {oh om : Nat} (hk : KnownOffset neg oh om) (colon : Bool)
    (hnj : (baseTime c E.now).loc.NoJump (wallOf st.year st.month st.day st.hour st.minute st.second st.nano))
    (hso : SmallOffsets (baseTime c E.now).loc) :
    ∃ r, YieldsAtIn l.name E s c (st.write b ++ offsetText neg oh om colon) (if c.timeAsPeriod then .second else .day) st (seconds neg oh om) r :=
  offset_in hE (locale_ready hE hD hc.supported hfi) hc.picks hm h hms hb hk colon hnj hso

/-! ## Cases -/

theorem hu_month_first : MonthBeforeDayIn ⟨"hu".toList, "YMD.".toList, false, 1⟩ (asked "hu") := ⟨.ymd, by decide, by decide⟩

theorem hu_asked : AsksOnly ⟨"hu".toList, "YMD.".toList, false, 1⟩ {} (asked "hu") := asked_only (by decide +kernel) (by decide +kernel)

theorem full_fixed (n : String) : (baseTime (asked n) (fullEnv demoEnv).now).loc.IsFixed ∧ SmallOffsets (baseTime (asked n) (fullEnv demoEnv).now).loc := demo_fixed

example : ∃ r, YieldsIn "hu".toList (fullEnv demoEnv) {} (asked "hu") "2015-03-05T10:11:12.345".toList .day 2015 3 5 10 11 12 345000000 r :=
  C45_local_everywhere full_ok (full_hasData _) hu_asked (by decide) hu_month_first (some_stamp_ok (some 345) (by simp)) (Or.inl rfl) (demo_zones _ _)
example : ∃ r, YieldsAtIn "hu".toList (fullEnv demoEnv) {} (asked "hu") "2015-03-05 10:11:12Z".toList .day (someStamp none) 0 r :=
  C45_utc_everywhere full_ok (full_hasData _) hu_asked (by decide) hu_month_first (some_stamp_ok none (by simp)) (Or.inr (Or.inr rfl)) (Or.inl rfl) ((full_fixed _).1.noJump _) (full_fixed _).2
example : ∃ r, YieldsAtIn "hu".toList (fullEnv demoEnv) {} (asked "hu") "2015-03-05T10:11:12+05:30".toList .day (someStamp none) 19800 r :=
  C45_offset_everywhere full_ok (full_hasData _) hu_asked (by decide) hu_month_first (some_stamp_ok none (by simp)) rfl (Or.inl rfl) known_half_past_five true
    ((full_fixed _).1.noJump _) (full_fixed _).2

/-! ## Finnish -/

theorem finnish_reached {E : Env} (hU : AsciiUni E.uni) (hD : HasLocaleData E) {l : LocaleInfo} (hl : getLocaleData l.name = some l) (hfi : l.name = "fi".toList)
    {s t : List Char} (hs : ∀ c ∈ s, c.toNat < 128) (ht : tidy (toLower s) = true) (ho : over isoAlphabet (toLower s) = true)
    (h : Reached E.uni (isoFinnish.lang E.uni) [['t']] s t) : Reached E.uni (E.lang l.name) [['t']] s t := by
  have hK := iso_sep
  rw [over_append] at hK
  obtain ⟨x, hx, e⟩ := locale_lang hl
  have hone := List.all_eq_true.mp iso_reduces x hx
  rw [reducedC_eq, if_pos (show x.1.name = ['f', 'i'] from e.trans hfi)] at hone
  have hone : reduce isoAlphabet (mergeLang x.2 x.1) = isoFinnish := by simpa using hone
  have ha : ∀ s, over isoAlphabet (normalizeToken E.uni s) = true → AgreeOn E.uni (isoFinnish.lang E.uni) (E.lang l.name) [['t']] s := by
    intro s hs
    rw [← hone, ← e, hD x hx]
    exact reduce_agree _ hK.1 (by rw [hone]; exact List.all_eq_true.mp iso_closed _ (by simp)) _ hs
  have e1 := normalizeToken_ascii hU hs ht
  have hl2 : toLower (toLower s) = toLower s := by
    unfold toLower
    rw [List.map_map]
    exact List.map_congr_left fun c _ => toLowerC_idem c
  have e2 : normalizeToken E.uni (E.uni.normalizeString s) = toLower s := by
    rw [normalizeString_ascii hU hs ht, normalizeToken_ascii hU (lower_ascii hs) (by rw [hl2]; exact ht), hl2]
  exact (ha s (by rw [e1]; exact ho)).reached (ha _ (by rw [e2]; exact ho)) h

/-- **C45, not in Finnish.** In Finnish "t" is the hour (data/fi.go:159) and, unlike in the other locales, not skipped (language/utils.go:18):
`2015-03-05T10:11:12` becomes `2015-03-05 hour 10:11:12` and is read as "5 hours", so that the result is the base time less five hours. -/
theorem C45_finnish : ∃ r, ((fullEnv demoEnv).parse {} (some (asked "fi")) "2015-03-05T10:11:12".toList []).2 = .ok r ∧ r.locale = "fi".toList ∧
    r.time.sec = (goDate 2024 3 15 7 0 0 0 Loc.utc).sec ∧ (fullEnv demoEnv).now.sec = (goDate 2024 3 15 12 0 0 0 Loc.utc).sec := by
  have h : getLocaleData "fi".toList = some ⟨"fi".toList, "DMY".toList, false, 1⟩ := by decide +kernel
  have hc : AsksOnly ⟨"fi".toList, "DMY".toList, false, 1⟩ {} (asked "fi") := asked_only h (by decide +kernel)
  have hs : ∀ c ∈ "2015-03-05T10:11:12".toList, c.toNat < 128 := by decide
  have hr : Reached (fullEnv demoEnv).uni ((fullEnv demoEnv).lang "fi".toList) [['t']] "2015-03-05T10:11:12".toList "2015-03-05 hour 10:11:12".toList := by
    refine finnish_reached (l := ⟨"fi".toList, "DMY".toList, false, 1⟩) full_ok.uni (full_hasData _) h rfl hs (by decide +kernel) (by decide +kernel) ?_
    obtain ⟨t, ht, hp⟩ := reachesWith_all (g := fun x y => y = sub "0123456789".toList x) full_ok.uni (List.all_eq_true.mp iso_uniform isoFinnish (by simp)) (List.all_eq_true.mp iso_ascii isoFinnish (by simp))
      (by decide +kernel) (fun c hc => by cases hc) (show reachesWith [] isoFinnish [['t']] "2015-03-05t10:11:12".toList "2015-03-05 hour 10:11:12".toList = true by decide +kernel) hs
      (by
        have := tag_sub (ds := "0123456789".toList) (a := "2015-03-05t10:11:12".toList) (by decide) (by decide)
        rwa [show "2015-03-05t10:11:12".toList.map (sub "0123456789".toList) = toLower "2015-03-05T10:11:12".toList by decide +kernel] at this)
    rwa [of_tag_sub ht, show "2015-03-05 hour 10:11:12".toList.map (sub "0123456789".toList) = "2015-03-05 hour 10:11:12".toList by decide +kernel] at hp
  have hz : popTzOffset (fullEnv demoEnv).table "2015-03-05 hour 10:11:12".toList = ("2015-03-05 hour 10:11:12".toList, none) :=
    pop_none full_ok.table (by decide +kernel) (by decide +kernel)
  refine ⟨_, locale_relative full_ok hc.picks hr _ rfl ?_, rfl, ?_, by decide +kernel⟩
  · unfold relativeParse
    rw [hr.braces, hz]
    decide +kernel
  · unfold relativeParse
    rw [hr.braces, hz]
    decide +kernel

end Verif.Props
