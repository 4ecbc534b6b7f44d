import Verif.Spec.FormatCall
import Verif.Spec.Demo
import Verif.Lemmas.LayoutHas
import Verif.Lemmas.WholeParse
import Verif.Props.Missing
import Verif.Props.Parser
/-!
# C36: layouts given by the caller
-/
set_option autoImplicit false
namespace Verif.Props
open Verif.Go Verif.Model Verif.Spec Verif.Lemmas Verif.Data

/-! ## The call -/

theorem formattedLoop_skip {cfg : Cfg} {now : Time} {l : Loc} {str : List Char} {before after : List (List Char)}
    (h : ∀ f ∈ before, timeParseIn f str l = none) :
    formattedLoop cfg now l str (before ++ after) = formattedLoop cfg now l str after := by
  induction before with
  | nil => rfl
  | cons f r ih =>
    rw [List.cons_append, formattedLoop, h f (by simp)]
    exact ih fun g hg => h g (by simp [hg])

theorem find_types {s : ParserSt} (h : ∀ k ∈ s.types, k ≤ 5) : s.types.find? (fun t => decide (t > 5)) = none := by
  rw [List.find?_eq_none]
  intro k hk
  have := h k hk
  simp; omega

/-- The configuration inside. -/
abbrev inner (c : PCfg) (now : Time) : Cfg := (c.initiate now).toInternal

theorem inner_now {E : Env} (hE : Surroundings E) (c : PCfg) : formattedNow (inner c E.now) E.now = baseTime c E.now := by
  unfold formattedNow
  have : (inner c E.now).currentTime = baseTime c E.now := rfl
  rw [this, base_notZero hE]
  rfl

/-- What is filled in. -/
abbrev filledIn (E : Env) (c : PCfg) (layout : List Char) (t : Time) : Time × Period :=
  formattedFill (inner c E.now) E.now layout t .day

theorem reads {E : Env} (hE : Surroundings E) {s : ParserSt} {c : PCfg} (hc : Accepted s c) {str : List Char} {before after : List (List Char)}
    {layout : List Char} {t : Time} (hb : ∀ f ∈ before, DoesNotFit E c str f)
    (ht : timeParseIn layout str (readingZone E c str) = some t)
    (hz : (formattedYear (baseTime c E.now) (filledIn E c layout t).1).isZero = false) :
    ReadsAs E s c str (before ++ layout :: after) (filledIn E c layout t).2
      (formattedYear (baseTime c E.now) (filledIn E c layout t).1) := by
  have hf : E.parts.formatted (inner c E.now) str (before ++ layout :: after) =
      { period := (filledIn E c layout t).2, time := formattedYear (baseTime c E.now) (filledIn E c layout t).1 } := by
    show formattedLoop _ _ (formattedZone (inner c E.now) (popTzOffset E.table str).2) _ _ = _
    have e : formattedZone (inner c E.now) (popTzOffset E.table str).2 = readingZone E c str := by
      unfold formattedZone readingZone
      cases (popTzOffset E.table str).2 <;> rfl
    rw [e, formattedLoop_skip hb, formattedLoop, ht]
    simp only
    rw [inner_now hE]
  unfold ReadsAs Env.parse
  rw [parse_eq (find_types hc.types)]
  unfold parseWithTypes
  rw [show ((some c).getD {}).initiate E.now = c.initiate E.now from rfl, show (c.initiate E.now).validate = .ok () from hc.valid]
  have hnz : DateRes.isZero { period := (filledIn E c layout t).2, time := formattedYear (baseTime c E.now) (filledIn E c layout t).1 } = false := by
    have hp : (filledIn E c layout t).2 ≠ .none := by
      unfold filledIn formattedFill
      (repeat' split) <;> simp
    unfold DateRes.isZero
    rw [hz]
    simp [hp]
  simp only [hf, hnz]
  rfl

/-- A layout with a month and a day. -/
theorem filled_full {E : Env} {c : PCfg} {layout : List Char} {t : Time} (hm : (layoutChunks layout).any isMonthElt = true)
    (hd : (layoutChunks layout).any isDayElt = true ∨ (layoutChunks layout).any isYearDayElt = true) :
    filledIn E c layout t = (t, .day) := by
  have h2 : formatHasDay layout = true := by
    rw [hasDay_iff, List.any_eq_true]
    rcases hd with h | h <;> obtain ⟨x, hx, h⟩ := List.any_eq_true.mp h <;> exact ⟨x, hx, by simp [h]⟩
  unfold filledIn formattedFill
  rw [hasMonth_of _ hm, h2]
  rfl

theorem year_kept {now t : Time} (h : t.year ≠ 0) : formattedYear now t = t := by unfold formattedYear; rw [if_neg h]

/-- The text written for a time. -/
theorem read_text {t : Time} {layout : List Char} (hu : Unambiguous t (layoutChunks layout)) (hw : Writable t (layoutChunks layout)) (l : Loc) :
    timeParseIn layout (timeFormat layout t) l = finishParse (readState t (layoutChunks layout)) l := by
  unfold timeParseIn parseWith timeFormat
  rw [parse_format t _ _ _ (layoutChunks_ok layout) hu hw (Or.inl rfl)]
  rfl

theorem date_of (t : Time) : IsDate t.year t.month t.day := (valid_iff _ _ _).mp t.civil_valid

/-- No zone in the layout. -/
theorem read_plain {t : Time} {layout : List Char} (hu : Unambiguous t (layoutChunks layout)) (hw : Writable t (layoutChunks layout))
    {n : Nat} {H M S ns : Int} (hc : SaysClock t (layoutChunks layout) n H M S ns) (hn : NoZoneElt (layoutChunks layout))
    (hy : (layoutChunks layout).any isYearDayElt = true → (layoutChunks layout).any isYearElt = true) {Y m d : Int}
    (hY : Y = if (layoutChunks layout).any isYearElt then t.year else 0)
    (hm : m = if (layoutChunks layout).any isMonthElt = true ∨ (layoutChunks layout).any isYearDayElt = true then t.month else 1)
    (hd : d = if (layoutChunks layout).any isDayElt = true ∨ (layoutChunks layout).any isYearDayElt = true then t.day else 1)
    (hdate : IsDate Y m d) (l : Loc) :
    timeParseIn layout (timeFormat layout t) l = some (goDate Y m d H M S ns l) := by
  rw [read_text hu hw, finish_read t _ hw.wf hc hy hY hm hd hdate]
  obtain ⟨z1, z2, z3, z4, z5, z6⟩ := run_zone t (layoutChunks layout) {} (Or.inl rfl)
  have e1 : (readState t (layoutChunks layout)).isUTC = false := by
    cases h : (readState t (layoutChunks layout)).isUTC with
    | false => rfl
    | true =>
      rcases z2 h with h | h | h
      · simp at h
      · rw [hn.offset] at h; simp at h
      · rw [hn.name] at h; simp at h
  have e2 : (readState t (layoutChunks layout)).zoneOff = -1 := z3 hn.offset
  have e3 : (readState t (layoutChunks layout)).zoneName = [] := by
    show (List.foldl (setElt t) {} (layoutChunks layout)).zoneName = []
    rw [run_zoneName, hn.name]; simp
  rw [e1, e2, e3]
  rfl

/-! ## The theorems -/

/-- **C36.** A text that fits a layout with month and day, when no earlier layout fits, is read as `time.ParseInLocation` reads it, in the zone
named in the text, else in the default time zone, else in UTC.  Later layouts, and all locales, do not matter. -/
theorem C36_first_that_fits (E : Env) (hE : Surroundings E) (s : ParserSt) (c : PCfg) (hc : Accepted s c) (str : List Char)
    (before after : List (List Char)) (layout : List Char) (t : Time) (hb : ∀ f ∈ before, DoesNotFit E c str f)
    (ht : timeParseIn layout str (readingZone E c str) = some t)
    (hm : (layoutChunks layout).any isMonthElt = true)
    (hd : (layoutChunks layout).any isDayElt = true ∨ (layoutChunks layout).any isYearDayElt = true)
    (hy : t.year ≠ 0) (hz : t.isZero = false) :
    ReadsAs E s c str (before ++ layout :: after) .day t := by
  have h := reads hE (s := s) hc (after := after) hb ht
  rw [filled_full hm hd, year_kept hy] at h
  exact h hz

/-- The translations of a text that `Parse` tries the layouts on (if no layout fits the text itself). -/
def TranslatedTo (E : Env) (str t : List Char) : Prop :=
  ∃ cfg l, t ∈ E.parts.translate cfg l (E.parts.sanitize str) true

/-- **C36.** Layouts that fit neither the text nor one of its translations change nothing. -/
theorem C36_none_fits (E : Env) (s : ParserSt) (c : PCfg) (str : List Char) (formats : List (List Char))
    (h : ∀ f ∈ formats, ∀ t, t = str ∨ TranslatedTo E str t → DoesNotFit E c t f) :
    E.parse s (some c) str formats = E.parse s (some c) str [] := by
  have zone : ∀ (cfg : Cfg), cfg.defaultTz = c.defaultTz → ∀ str, formattedZone cfg (popTzOffset E.table str).2 = readingZone E c str := by
    intro cfg hcfg str
    unfold formattedZone readingZone
    rw [hcfg]
    cases (popTzOffset E.table str).2 <;> rfl
  have none_loop : ∀ (cfg : Cfg) (l : Loc) (t : List Char) (fs : List (List Char)), (∀ f ∈ fs, timeParseIn f t l = none) →
      formattedLoop cfg E.now l t fs = DateRes.zero := by
    intro cfg l t fs hfs
    have := formattedLoop_skip (cfg := cfg) (now := E.now) (after := []) hfs
    rw [List.append_nil] at this
    rw [this]; rfl
  have fmt : ∀ (cfg : Cfg), cfg.defaultTz = c.defaultTz → ∀ t, (t = str ∨ TranslatedTo E str t) →
      E.parts.formatted cfg t formats = E.parts.formatted cfg t [] := by
    intro cfg hcfg t ht
    show formattedLoop _ _ _ _ _ = formattedLoop _ _ _ _ _
    rw [zone cfg hcfg, none_loop _ _ _ _ (fun f hf => h f hf t ht)]
    rfl
  have custom : ∀ (cfg : Cfg), cfg.defaultTz = c.defaultTz → ∀ ts : List (List Char), (∀ t ∈ ts, TranslatedTo E str t) →
      tryCustom E.parts cfg formats ts = tryCustom E.parts cfg [] ts := by
    intro cfg hcfg ts hts
    induction ts with
    | nil => rfl
    | cons t r ih =>
      rw [tryCustom, tryCustom, fmt cfg hcfg t (Or.inr (hts t (by simp))), ih (fun x hx => hts x (by simp [hx]))]
  have type : ∀ (cfg : Cfg) (l : LocaleInfo), cfg.defaultTz = c.defaultTz → ∀ k,
      tryType E.parts cfg l (E.parts.sanitize str) formats k = tryType E.parts cfg l (E.parts.sanitize str) [] k := by
    intro cfg l hcfg k
    rcases k with _ | _ | _ | _ | k
    · rfl
    · rfl
    · rfl
    · exact custom cfg hcfg _ (fun t ht => ⟨cfg, l, ht⟩)
    · rcases k with _ | _ | k <;> rfl
  have types : ∀ (cfg : Cfg) (l : LocaleInfo), cfg.defaultTz = c.defaultTz → ∀ ks,
      typeLoop E.parts cfg l (E.parts.sanitize str) formats ks = typeLoop E.parts cfg l (E.parts.sanitize str) [] ks := by
    intro cfg l hcfg ks
    induction ks with
    | nil => rfl
    | cons k r ih => rw [typeLoop, typeLoop, type cfg l hcfg, ih]
  have locales : ∀ ks ls, localeLoop E.parts (c.initiate E.now) (inner c E.now) ks (E.parts.sanitize str) formats ls =
      localeLoop E.parts (c.initiate E.now) (inner c E.now) ks (E.parts.sanitize str) [] ls := by
    intro ks ls
    induction ls with
    | nil => rfl
    | cons l r ih =>
      have hl : (localeCfg (c.initiate E.now) (inner c E.now) l).defaultTz = c.defaultTz := rfl
      rw [localeLoop, localeLoop, types _ l hl, ih]
  unfold Env.parse parse
  split
  · rfl
  · unfold parseWithTypes
    simp only [show ((some c).getD {}).initiate E.now = c.initiate E.now from rfl]
    split
    · rfl
    · rw [fmt (inner c E.now) rfl str (Or.inl rfl)]
      split
      · rfl
      · split
        · rfl
        · rw [locales]

/-- **C36.** A time written by a layout with year, month and day and without a zone is read back, whatever the locales: same date, and
the time of day as far as the layout writes it. -/
theorem C36_read_back (E : Env) (hE : Surroundings E) (s : ParserSt) (c : PCfg) (hc : Accepted s c) (before after : List (List Char))
    (layout : List Char) (t : Time) (hu : Unambiguous t (layoutChunks layout)) (hw : Writable t (layoutChunks layout))
    (hf : FullDate (layoutChunks layout)) (hn : NoZoneElt (layoutChunks layout))
    (n : Nat) (H M S ns : Int) (hcl : SaysClock t (layoutChunks layout) n H M S ns)
    (hb : ∀ f ∈ before, DoesNotFit E c (timeFormat layout t) f) (hy : 2 ≤ t.year)
    (hz : SmallOffsets (readingZone E c (timeFormat layout t)))
    (hj : (readingZone E c (timeFormat layout t)).NoJump (wallOf t.year t.month t.day H M S ns)) :
    ∃ r : Time, ReadsAs E s c (timeFormat layout t) (before ++ layout :: after) .day r ∧
      Shows r t.year t.month t.day H M S ns ∧ r = goDate t.year t.month t.day H M S ns (readingZone E c (timeFormat layout t)) := by
  have hsh := shows_goDate (date_of t) (saysClock_ok hw.wf hcl) hj
  refine ⟨_, C36_first_that_fits E hE s c hc _ before after layout _ hb
    (read_plain hu hw hcl hn (fun _ => hf.year) (by rw [if_pos hf.year]) (by rw [if_pos (Or.inl hf.month)])
      (by rw [if_pos hf.day]) (date_of t) _) hf.month hf.day ?_ ?_, hsh, rfl⟩
  · rw [hsh.year]; omega
  · exact shows_notZero hsh hy hz

/-- What a time shows is determined by its wall clock. -/
theorem shows_of_wall {y m d H M S ns : Int} {r : Time} (hd : IsDate y m d) (hc : IsClock H M S ns)
    (hr : r.wall = wallOf y m d H M S ns) (hn : r.nsec = ns) : Shows r y m d H M S ns := by
  have h := shows_goDate hd hc (Loc.utc_isFixed.noJump _)
  rw [← goDate_wall (Loc.utc_isFixed.noJump _)] at hr
  generalize goDate y m d H M S ns Loc.utc = g at h hr
  refine ⟨?_, ?_, ?_, ?_, ?_, ?_, hn⟩
  · rw [← h.year]; unfold Time.year Time.civil; rw [hr]
  · rw [← h.month]; unfold Time.month Time.civil; rw [hr]
  · rw [← h.day]; unfold Time.day Time.civil; rw [hr]
  · rw [← h.hour]; unfold Time.hour Time.sod; rw [hr]
  · rw [← h.minute]; unfold Time.minute Time.sod; rw [hr]
  · rw [← h.second]; unfold Time.second Time.sod; rw [hr]

theorem notZero_of_wall {r : Time} (hy : 2 ≤ r.year) (h1 : -86400 ≤ r.loc.off r.sec) (h2 : r.loc.off r.sec ≤ 86400) : r.isZero = false := by
  have hl : SmallOffsets (Loc.fixed "" (r.loc.off r.sec)) := fun _ => ⟨h1, h2⟩
  have := shows_notZero (t := ⟨r.sec, r.nsec, Loc.fixed "" (r.loc.off r.sec)⟩) ⟨rfl, rfl, rfl, rfl, rfl, rfl, rfl⟩ hy hl
  exact this

theorem utc_parts {y m d H M S ns : Int} (hc : IsClock H M S ns) :
    (goDate y m d H M S ns Loc.utc).sec = wallOf y m d H M S ns ∧ (goDate y m d H M S ns Loc.utc).nsec = ns := by
  constructor
  · unfold goDate unixOfWall; simp [Loc.utc]
  · unfold goDate; obtain ⟨_, _, _, _, _, _, h1, h2⟩ := hc; simp only; omega

/-- The instant of a time is its wall clock less the zone's offset. -/
theorem sec_of_fields (t : Time) {ns : Int} (h0 : 0 ≤ ns) (h1 : ns < 1000000000) :
    t.sec = wallOf t.year t.month t.day t.hour t.minute t.second ns - t.loc.off t.sec := by
  have h := t.wall_eq
  obtain ⟨m1, m2, _, _⟩ := t.year_month_day_valid
  rw [wallOf_month_norm m1 m2]
  unfold Time.wall at h
  have : ns / 1000000000 = 0 := by omega
  omega

/-- An offset of minus one second cannot be written. -/
theorem exactZone_ne {off : Int} {n : Nat} (h : ExactZone off n) : off ≠ -1 := by
  obtain ⟨h1, h2, h3⟩ := h
  split at h3
  · omega
  · split at h3 <;> omega

/-- **C36.** A time written by a layout with year, month, day and the offset of the zone is read back with the same offset: same date, the time of
day as far as the layout writes it, and the same instant if it writes all of it. -/
theorem C36_instant (E : Env) (hE : Surroundings E) (s : ParserSt) (c : PCfg) (hc : Accepted s c) (before after : List (List Char))
    (layout : List Char) (t : Time) (hu : Unambiguous t (layoutChunks layout)) (hw : Writable t (layoutChunks layout))
    (hf : FullDate (layoutChunks layout)) (ho : (layoutChunks layout).any isZoneElt = true)
    (hnm : (layoutChunks layout).any isZoneNameElt = false)
    (n : Nat) (H M S ns : Int) (hcl : SaysClock t (layoutChunks layout) n H M S ns)
    (hb : ∀ f ∈ before, DoesNotFit E c (timeFormat layout t) f) (hy : 2 ≤ t.year) :
    ∃ r : Time, ReadsAs E s c (timeFormat layout t) (before ++ layout :: after) .day r ∧
      Shows r t.year t.month t.day H M S ns ∧ r.loc.off r.sec = t.loc.off t.sec ∧
      (H = t.hour → M = t.minute → S = t.second → r.sec = t.sec) := by
  have hclk := saysClock_ok hw.wf hcl
  obtain ⟨u1, u2⟩ := utc_parts (y := t.year) (m := t.month) (d := t.day) hclk
  obtain ⟨z1, z2, z3, z4, z5, z6⟩ := run_zone t (layoutChunks layout) {} (Or.inl rfl)
  have hname : (readState t (layoutChunks layout)).zoneName = [] := by
    show (List.foldl (setElt t) {} (layoutChunks layout)).zoneName = []
    rw [run_zoneName, hnm]; simp
  have hex : ∃ k, ExactZone (t.loc.off t.sec) k := by
    obtain ⟨x, hx, h⟩ := List.any_eq_true.mp ho
    cases x <;> simp [isZoneElt] at h
    exact ⟨_, hw.zone _ _ _ hx⟩
  obtain ⟨k, hex⟩ := hex
  have key : ∃ r : Time, timeParseIn layout (timeFormat layout t) (readingZone E c (timeFormat layout t)) = some r ∧
      r.sec = wallOf t.year t.month t.day H M S ns - t.loc.off t.sec ∧ r.nsec = ns ∧ r.loc.off r.sec = t.loc.off t.sec := by
    rw [read_text hu hw, finish_read t _ hw.wf hcl (fun _ => hf.year) (by rw [if_pos hf.year]) (by rw [if_pos (Or.inl hf.month)])
      (by rw [if_pos hf.day]) (date_of t)]
    cases hutc : (readState t (layoutChunks layout)).isUTC with
    | true =>
      have h0 : t.loc.off t.sec = 0 := by
        rcases z2 hutc with h | h | h
        · simp at h
        · exact h.2
        · rw [hnm] at h; simp at h
      refine ⟨_, rfl, ?_, u2, ?_⟩
      · rw [u1, h0]; omega
      · rw [h0]; rfl
    | false =>
      have hoff : (readState t (layoutChunks layout)).zoneOff = t.loc.off t.sec := by
        rcases z4 ho with h | h
        · rw [hutc] at h; cases h
        · exact h
      rw [if_neg (by decide), if_pos (by rw [hoff]; exact exactZone_ne hex), hname, hoff]
      refine ⟨_, rfl, ?_, u2, ?_⟩
      · simp only [u1]
      · simp only
        split
        · rename_i h; exact h.1
        · rfl
  obtain ⟨r, hr, hsec, hns, hoff⟩ := key
  have hsh : Shows r t.year t.month t.day H M S ns :=
    shows_of_wall (date_of t) hclk (by unfold Time.wall; rw [hoff, hsec]; omega) hns
  refine ⟨r, C36_first_that_fits E hE s c hc _ before after layout _ hb hr hf.month hf.day ?_ ?_, hsh, hoff, ?_⟩
  · rw [hsh.year]; omega
  · exact notZero_of_wall (by rw [hsh.year]; exact hy) (by rw [hoff]; exact hex.1) (by rw [hoff]; exact hex.2.1)
  · intro e1 e2 e3
    rw [hsec, e1, e2, e3]
    exact (sec_of_fields t hclk.2.2.2.2.2.2.1 hclk.2.2.2.2.2.2.2).symm

/-- The layout with the zone's abbreviation. -/
theorem read_named {t : Time} {layout : List Char} (hu : Unambiguous t (layoutChunks layout)) (hw : Writable t (layoutChunks layout))
    (hf : FullDate (layoutChunks layout)) (ho : (layoutChunks layout).any isZoneElt = false)
    (hnm : (layoutChunks layout).any isZoneNameElt = true) {n : Nat} {H M S ns : Int} (hcl : SaysClock t (layoutChunks layout) n H M S ns) (l : Loc) :
    timeParseIn layout (timeFormat layout t) l =
      if t.loc.abbr t.sec = ['U', 'T', 'C'] then some (goDate t.year t.month t.day H M S ns Loc.utc)
      else match l.lookupName (t.loc.abbr t.sec) (wallOf t.year t.month t.day H M S ns) with
        | some o => some ⟨wallOf t.year t.month t.day H M S ns - o, ns, l⟩
        | none => some ⟨wallOf t.year t.month t.day H M S ns, ns, Loc.fixed (String.ofList (t.loc.abbr t.sec))
            (if (t.loc.abbr t.sec).length > 3 ∧ (t.loc.abbr t.sec).take 3 = ['G', 'M', 'T'] then
                (atoi ((t.loc.abbr t.sec).drop 3)).getD 0 * 3600 else 0)⟩ := by
  have hclk := saysClock_ok hw.wf hcl
  obtain ⟨u1, u2⟩ := utc_parts (y := t.year) (m := t.month) (d := t.day) hclk
  obtain ⟨z1, z2, z3, z4, z5, z6⟩ := run_zone t (layoutChunks layout) {} (Or.inl rfl)
  have hname : (readState t (layoutChunks layout)).zoneName = if t.loc.abbr t.sec ≠ ['U', 'T', 'C'] then t.loc.abbr t.sec else [] := by
    show (List.foldl (setElt t) {} (layoutChunks layout)).zoneName = _
    rw [run_zoneName, hnm]; simp
  have hoff : (readState t (layoutChunks layout)).zoneOff = -1 := z3 ho
  rw [read_text hu hw, finish_read t _ hw.wf hcl (fun _ => hf.year) (by rw [if_pos hf.year]) (by rw [if_pos (Or.inl hf.month)])
      (by rw [if_pos hf.day]) (date_of t)]
  by_cases hutc : t.loc.abbr t.sec = ['U', 'T', 'C']
  · have : (readState t (layoutChunks layout)).isUTC = true := run_utc_name t _ _ hnm hutc
    rw [this, if_pos hutc, if_pos rfl]
  · have hnu : (readState t (layoutChunks layout)).isUTC = false := by
      cases h : (readState t (layoutChunks layout)).isUTC with
      | false => rfl
      | true =>
        rcases z2 h with h | h | h
        · simp at h
        · rw [ho] at h; simp at h
        · exact absurd h.2 hutc
    have hab : t.loc.abbr t.sec ≠ [] := by
      obtain ⟨x, hx, h⟩ := List.any_eq_true.mp hnm
      cases x <;> simp [isZoneNameElt] at h
      intro he
      have := (hw.abbr hx).2
      rw [he] at this
      simp at this
    rw [if_pos hutc] at hname
    rw [hnu, hoff, hname, if_neg hutc, if_neg (by decide), if_neg (by decide), if_pos hab, u1]
    split <;> rename_i h <;> rw [h] <;> simp only [u1, u2]

/-- **C36.** A time written by a layout with year, month, day and the abbreviation of the zone: "UTC" is UTC; an abbreviation that names the zone in which
the text is read has that zone's offset. -/
theorem C36_zone_name (E : Env) (hE : Surroundings E) (s : ParserSt) (c : PCfg) (hc : Accepted s c) (before after : List (List Char))
    (layout : List Char) (t : Time) (hu : Unambiguous t (layoutChunks layout)) (hw : Writable t (layoutChunks layout))
    (hf : FullDate (layoutChunks layout)) (ho : (layoutChunks layout).any isZoneElt = false)
    (hnm : (layoutChunks layout).any isZoneNameElt = true)
    (n : Nat) (H M S ns : Int) (hcl : SaysClock t (layoutChunks layout) n H M S ns)
    (hb : ∀ f ∈ before, DoesNotFit E c (timeFormat layout t) f) (hy : 2 ≤ t.year) (offset : Int)
    (hoff : -86400 ≤ offset ∧ offset ≤ 86400)
    (hz : (t.loc.abbr t.sec = ['U', 'T', 'C'] ∧ offset = 0) ∨
      (t.loc.abbr t.sec ≠ ['U', 'T', 'C'] ∧ ∃ name : String, name.toList = t.loc.abbr t.sec ∧
        readingZone E c (timeFormat layout t) = Loc.fixed name offset)) :
    ∃ r : Time, ReadsAs E s c (timeFormat layout t) (before ++ layout :: after) .day r ∧
      Shows r t.year t.month t.day H M S ns ∧ r.loc.off r.sec = offset ∧
      (offset = t.loc.off t.sec → H = t.hour → M = t.minute → S = t.second → r.sec = t.sec) := by
  have hclk := saysClock_ok hw.wf hcl
  obtain ⟨u1, u2⟩ := utc_parts (y := t.year) (m := t.month) (d := t.day) hclk
  have key : ∃ r : Time, timeParseIn layout (timeFormat layout t) (readingZone E c (timeFormat layout t)) = some r ∧
      r.sec = wallOf t.year t.month t.day H M S ns - offset ∧ r.nsec = ns ∧ r.loc.off r.sec = offset := by
    rw [read_named hu hw hf ho hnm hcl]
    rcases hz with ⟨h1, h2⟩ | ⟨h1, name, h2, h3⟩
    · rw [if_pos h1]
      exact ⟨_, rfl, by rw [u1, h2]; omega, u2, by rw [h2]; rfl⟩
    · rw [if_neg h1, h3]
      have : (Loc.fixed name offset).lookupName (t.loc.abbr t.sec) (wallOf t.year t.month t.day H M S ns) = some offset := by
        unfold Loc.lookupName Loc.fixed
        simp [h2]
      rw [this]
      exact ⟨_, rfl, rfl, rfl, rfl⟩
  obtain ⟨r, hr, hsec, hns, ho2⟩ := key
  have hsh : Shows r t.year t.month t.day H M S ns :=
    shows_of_wall (date_of t) hclk (by unfold Time.wall; rw [ho2, hsec]; omega) hns
  refine ⟨r, C36_first_that_fits E hE s c hc _ before after layout _ hb hr hf.month hf.day ?_ ?_, hsh, ho2, ?_⟩
  · rw [hsh.year]; omega
  · exact notZero_of_wall (by rw [hsh.year]; exact hy) (by rw [ho2]; exact hoff.1) (by rw [ho2]; exact hoff.2)
  · intro e0 e1 e2 e3
    rw [hsec, e0, e1, e2, e3]
    exact (sec_of_fields t hclk.2.2.2.2.2.2.1 hclk.2.2.2.2.2.2.2).symm

/-- **C36.** An abbreviation that the zone of the reading does not know is read as a zone of that name with offset zero (but for "GMT" with an offset):
the clock is as written, the instant is not. -/
theorem C36_unknown_zone_name (E : Env) (hE : Surroundings E) (s : ParserSt) (c : PCfg) (hc : Accepted s c) (before after : List (List Char))
    (layout : List Char) (t : Time) (hu : Unambiguous t (layoutChunks layout)) (hw : Writable t (layoutChunks layout))
    (hf : FullDate (layoutChunks layout)) (ho : (layoutChunks layout).any isZoneElt = false)
    (hnm : (layoutChunks layout).any isZoneNameElt = true)
    (n : Nat) (H M S ns : Int) (hcl : SaysClock t (layoutChunks layout) n H M S ns)
    (hb : ∀ f ∈ before, DoesNotFit E c (timeFormat layout t) f) (hy : 2 ≤ t.year)
    (hz : t.loc.abbr t.sec ≠ ['U', 'T', 'C'] ∧ (t.loc.abbr t.sec).take 3 ≠ ['G', 'M', 'T'])
    (hl : ∀ z ∈ (readingZone E c (timeFormat layout t)).zones, z.1 ≠ t.loc.abbr t.sec) :
    ∃ r : Time, ReadsAs E s c (timeFormat layout t) (before ++ layout :: after) .day r ∧
      Shows r t.year t.month t.day H M S ns ∧ r.loc.off r.sec = 0 ∧ r.loc.name.toList = t.loc.abbr t.sec := by
  have hclk := saysClock_ok hw.wf hcl
  have hlook : (readingZone E c (timeFormat layout t)).lookupName (t.loc.abbr t.sec) (wallOf t.year t.month t.day H M S ns) = none := by
    unfold Loc.lookupName
    have h1 : (readingZone E c (timeFormat layout t)).zones.find? (fun z => z.1 == t.loc.abbr t.sec &&
        (readingZone E c (timeFormat layout t)).abbr (wallOf t.year t.month t.day H M S ns - z.2) == z.1) = none := by
      rw [List.find?_eq_none]; intro z hzz; simp [hl z hzz]
    have h2 : (readingZone E c (timeFormat layout t)).zones.find? (fun z => z.1 == t.loc.abbr t.sec) = none := by
      rw [List.find?_eq_none]; intro z hzz; simp [hl z hzz]
    rw [h1, h2]; rfl
  have key : timeParseIn layout (timeFormat layout t) (readingZone E c (timeFormat layout t)) =
      some ⟨wallOf t.year t.month t.day H M S ns, ns, Loc.fixed (String.ofList (t.loc.abbr t.sec)) 0⟩ := by
    rw [read_named hu hw hf ho hnm hcl, if_neg hz.1, hlook, if_neg (fun h => hz.2 h.2)]
  have hsh : Shows ⟨wallOf t.year t.month t.day H M S ns, ns, Loc.fixed (String.ofList (t.loc.abbr t.sec)) 0⟩ t.year t.month t.day H M S ns :=
    shows_of_wall (date_of t) hclk (by unfold Time.wall Loc.fixed; simp) rfl
  refine ⟨_, C36_first_that_fits E hE s c hc _ before after layout _ hb key hf.month hf.day ?_ ?_, hsh, rfl, String.toList_ofList⟩
  · rw [hsh.year]; omega
  · exact notZero_of_wall (by rw [hsh.year]; exact hy) (by show (-86400 : Int) ≤ 0; decide) (by show (0 : Int) ≤ 86400; decide)

/-! ### Missing parts -/

theorem base_current {E : Env} (hE : Surroundings E) (c : PCfg) (t : Time) :
    applyDayFromConfig (inner c E.now) E.now t none = applyDayFromConfig (inner c E.now) E.now t (some (baseTime c E.now).day) ∧
    applyMonthFromConfig (inner c E.now) E.now t none = applyMonthFromConfig (inner c E.now) E.now t (some (baseTime c E.now).month) := by
  have : (inner c E.now).currentTime = baseTime c E.now := rfl
  unfold applyDayFromConfig applyMonthFromConfig
  rw [this, base_notZero hE]
  exact ⟨rfl, rfl⟩

theorem monthLen_zero {y m : Int} (h : m ≠ 2 ∨ Leap y) : monthLen 0 m = monthLen y m := by
  have h0 : Leap 0 := by unfold Leap; decide
  unfold monthLen
  rcases h with h | h
  · rw [if_neg h, if_neg h]
  · simp [h, h0]

/-- Reading without a year. -/
theorem year_filled {b : Time} {l : Loc} {Y m d H M S ns : Int} (hd : IsDate Y m d) (hc : IsClock H M S ns)
    (hj : l.NoJump (wallOf Y m d H M S ns)) :
    formattedYear b (goDate Y m d H M S ns l) = goDate (if Y = 0 then b.year else Y) m d H M S ns l := by
  have h := shows_goDate hd hc hj
  unfold formattedYear
  rw [h.year]
  split
  · rw [h.month, h.day, h.hour, h.minute, h.second, h.nanosecond, goDate_loc]
  · rfl

/-- The year of the text, or the current year. -/
def yearOrNow (cs : List Chunk) (t b : Time) : Int := if cs.any isYearElt then t.year else b.year

theorem hasDay_not {layout : List Char} (h1 : (layoutChunks layout).any isDayElt = false) (h2 : (layoutChunks layout).any isYearDayElt = false) :
    formatHasDay layout = false := by
  rw [hasDay_iff, List.any_eq_false]
  rw [List.any_eq_false] at h1 h2
  intro x hx
  simp [h1 x hx, h2 x hx]

/-- **C36.** Month and day without a year are read in the current year, if they are a date of it. -/
theorem C36_current_year (E : Env) (hE : Surroundings E) (s : ParserSt) (c : PCfg) (hc : Accepted s c) (before after : List (List Char))
    (layout : List Char) (t : Time) (hu : Unambiguous t (layoutChunks layout)) (hw : Writable t (layoutChunks layout))
    (hyr : (layoutChunks layout).any isYearElt = false) (hmo : (layoutChunks layout).any isMonthElt = true)
    (hda : (layoutChunks layout).any isDayElt = true) (hyd : (layoutChunks layout).any isYearDayElt = false) (hn : NoZoneElt (layoutChunks layout))
    (n : Nat) (H M S ns : Int) (hcl : SaysClock t (layoutChunks layout) n H M S ns)
    (hb : ∀ f ∈ before, DoesNotFit E c (timeFormat layout t) f) (hy : 2 ≤ (baseTime c E.now).year)
    (hd : IsDate (baseTime c E.now).year t.month t.day)
    (hz : SmallOffsets (readingZone E c (timeFormat layout t)))
    (hj0 : (readingZone E c (timeFormat layout t)).NoJump (wallOf 0 t.month t.day H M S ns))
    (hj : (readingZone E c (timeFormat layout t)).NoJump (wallOf (baseTime c E.now).year t.month t.day H M S ns)) :
    ∃ r : Time, ReadsAs E s c (timeFormat layout t) (before ++ layout :: after) .day r ∧
      Shows r (baseTime c E.now).year t.month t.day H M S ns ∧ r.loc = readingZone E c (timeFormat layout t) := by
  have hclk := saysClock_ok hw.wf hcl
  have hd0 : IsDate 0 t.month t.day := by
    obtain ⟨h1, h2, h3, h4⟩ := hd
    refine ⟨h1, h2, h3, Int.le_trans h4 ?_⟩
    by_cases h : t.month ≠ 2 ∨ Leap (baseTime c E.now).year
    · rw [monthLen_zero h]; omega
    · have h2 : t.month = 2 := by
        rcases Int.lt_trichotomy t.month 2 with a | a | a
        · exact absurd (Or.inl (by omega)) h
        · exact a
        · exact absurd (Or.inl (by omega)) h
      have : monthLen 0 2 = 29 := by decide
      rw [h2, this]
      unfold monthLen
      split <;> (try split) <;> omega
  have key := read_plain hu hw hcl hn (by rw [hyd]; simp) (Y := 0) (by rw [hyr]; rfl) (by rw [if_pos (Or.inl hmo)])
      (by rw [if_pos (Or.inl hda)]) hd0 (readingZone E c (timeFormat layout t))
  have hsh := shows_goDate hd hclk hj
  have h := reads hE (s := s) hc (after := after) hb key
  rw [filled_full hmo (Or.inl hda), year_filled hd0 hclk hj0, if_pos rfl] at h
  exact ⟨_, h (shows_notZero hsh hy hz), hsh, rfl⟩

/-- A missing day. -/
theorem day_filled {E : Env} (hE : Surroundings E) {c : PCfg} {l : Loc} (hl : l.IsFixed) {Y m d H M S ns : Int} (hd : IsDate Y m d) (hc : IsClock H M S ns) :
    applyDayFromConfig (inner c E.now) E.now (goDate Y m d H M S ns l) none =
      goDate Y m (chosenDay (.ofCode c.dayOfMonth) (baseTime c E.now).day (monthLen Y m)) H M S ns l := by
  rw [(base_current hE c _).1]
  exact applyDay_eq _ _ _ _ Y m d H M S ns (shows_goDate hd hc (hl.noJump _)) hc hl hd (baseTime c E.now).year_month_day_valid.2.2.1

/-- **C36.** A layout without a day: the preferred day of the month (if the month has it), Period Month. -/
theorem C36_month_period (E : Env) (hE : Surroundings E) (s : ParserSt) (c : PCfg) (hc : Accepted s c) (before after : List (List Char))
    (layout : List Char) (t : Time) (hu : Unambiguous t (layoutChunks layout)) (hw : Writable t (layoutChunks layout))
    (hmo : (layoutChunks layout).any isMonthElt = true) (hda : (layoutChunks layout).any isDayElt = false)
    (hyd : (layoutChunks layout).any isYearDayElt = false) (hn : NoZoneElt (layoutChunks layout))
    (n : Nat) (H M S ns : Int) (hcl : SaysClock t (layoutChunks layout) n H M S ns)
    (hb : ∀ f ∈ before, DoesNotFit E c (timeFormat layout t) f) (y : Int) (hyear : y = yearOrNow (layoutChunks layout) t (baseTime c E.now)) (hy : 2 ≤ y)
    (hleap : (layoutChunks layout).any isYearElt = true ∨ t.month ≠ 2 ∨ Leap y)
    (hz : SmallOffsets (readingZone E c (timeFormat layout t))) (hfix : (readingZone E c (timeFormat layout t)).IsFixed) :
    ∃ r : Time, ReadsAs E s c (timeFormat layout t) (before ++ layout :: after) .month r ∧
      Shows r y t.month (chosenDay (.ofCode c.dayOfMonth) (baseTime c E.now).day (monthLen y t.month)) H M S ns ∧
      r.loc = readingZone E c (timeFormat layout t) := by
  have hclk := saysClock_ok hw.wf hcl
  obtain ⟨m1, m2, _, _⟩ := t.year_month_day_valid
  have hday := (baseTime c E.now).year_month_day_valid.2.2.1
  obtain ⟨Y, hY, hlen, hyY⟩ : ∃ Y, (Y = if (layoutChunks layout).any isYearElt then t.year else 0) ∧ monthLen Y t.month = monthLen y t.month ∧
      (if Y = 0 then (baseTime c E.now).year else Y) = y := by
    unfold yearOrNow at hyear
    cases hyr : (layoutChunks layout).any isYearElt with
    | true =>
      rw [hyr] at hyear
      simp only [if_true] at hyear
      exact ⟨y, hyear, rfl, by rw [if_neg (by omega)]⟩
    | false =>
      rw [hyr] at hyear hleap
      simp only [Bool.false_eq_true, if_false, false_or] at hyear hleap
      exact ⟨0, by simp, monthLen_zero hleap, by rw [if_pos rfl, hyear]⟩
  have h1 : IsDate Y t.month 1 := ⟨m1, m2, by decide, by have := monthLen_bounds Y t.month; omega⟩
  have key := read_plain hu hw hcl hn (by rw [hyd]; simp) hY (by rw [if_pos (Or.inl hmo)]) (d := 1) (by rw [hda, hyd]; simp) h1
    (readingZone E c (timeFormat layout t))
  have hcd : IsDate Y t.month (chosenDay (.ofCode c.dayOfMonth) (baseTime c E.now).day (monthLen y t.month)) := by
    rw [← hlen]; exact chosenDay_isDate _ _ _ _ m1 m2 hday
  have hcd' := chosenDay_isDate (.ofCode c.dayOfMonth) (baseTime c E.now).day y t.month m1 m2 hday
  have hfill : ∀ T, filledIn E c layout T = (applyDayFromConfig (inner c E.now) E.now T none, .month) := by
    intro T
    unfold filledIn formattedFill
    rw [hasMonth_of _ hmo, hasDay_not hda hyd]
    rfl
  have h := reads hE (s := s) hc (after := after) hb key
  rw [hfill] at h
  simp only [day_filled hE hfix h1 hclk, hlen, year_filled hcd hclk (hfix.noJump _), hyY] at h
  have hsh := shows_goDate hcd' hclk (hfix.noJump (wallOf y t.month _ H M S ns))
  exact ⟨_, h (shows_notZero hsh hy hz), hsh, rfl⟩

/-- **C36.** A layout without month and day: the preferred month of the year and the preferred day of that month, Period Year.  (The layout
has no literal "a": see `C36_literal_mar`.) -/
theorem C36_year_period (E : Env) (hE : Surroundings E) (s : ParserSt) (c : PCfg) (hc : Accepted s c) (before after : List (List Char))
    (layout : List Char) (t : Time) (hu : Unambiguous t (layoutChunks layout)) (hw : Writable t (layoutChunks layout))
    (hmo : (layoutChunks layout).any isMonthElt = false) (hda : (layoutChunks layout).any isDayElt = false)
    (hyd : (layoutChunks layout).any isYearDayElt = false) (hn : NoZoneElt (layoutChunks layout)) (ha : Chunk.lit 'a' ∉ layoutChunks layout)
    (n : Nat) (H M S ns : Int) (hcl : SaysClock t (layoutChunks layout) n H M S ns)
    (hb : ∀ f ∈ before, DoesNotFit E c (timeFormat layout t) f) (y : Int) (hyear : y = yearOrNow (layoutChunks layout) t (baseTime c E.now)) (hy : 2 ≤ y)
    (m : Int) (hm : m = chosenMonth (.ofCode c.monthOfYear) (baseTime c E.now).month)
    (hleap : (layoutChunks layout).any isYearElt = true ∨ m ≠ 2 ∨ Leap y)
    (hz : SmallOffsets (readingZone E c (timeFormat layout t))) (hfix : (readingZone E c (timeFormat layout t)).IsFixed) :
    ∃ r : Time, ReadsAs E s c (timeFormat layout t) (before ++ layout :: after) .year r ∧
      Shows r y m (chosenDay (.ofCode c.dayOfMonth) (baseTime c E.now).day (monthLen y m)) H M S ns ∧
      r.loc = readingZone E c (timeFormat layout t) := by
  have hclk := saysClock_ok hw.wf hcl
  have hday := (baseTime c E.now).year_month_day_valid.2.2.1
  have hm12 : 1 ≤ m ∧ m ≤ 12 := by
    obtain ⟨b1, b2, _, _⟩ := (baseTime c E.now).year_month_day_valid
    rw [hm]; unfold chosenMonth
    split
    · decide
    · decide
    · exact ⟨b1, b2⟩
  obtain ⟨m1, m2⟩ := hm12
  obtain ⟨Y, hY, hlen, hyY⟩ : ∃ Y, (Y = if (layoutChunks layout).any isYearElt then t.year else 0) ∧ monthLen Y m = monthLen y m ∧
      (if Y = 0 then (baseTime c E.now).year else Y) = y := by
    unfold yearOrNow at hyear
    cases hyr : (layoutChunks layout).any isYearElt with
    | true =>
      rw [hyr] at hyear
      simp only [if_true] at hyear
      exact ⟨y, hyear, rfl, by rw [if_neg (by omega)]⟩
    | false =>
      rw [hyr] at hyear hleap
      simp only [Bool.false_eq_true, if_false, false_or] at hyear hleap
      exact ⟨0, by simp, monthLen_zero hleap, by rw [if_pos rfl, hyear]⟩
  have h0 : IsDate Y 1 1 := ⟨by decide, by decide, by decide, by have := monthLen_bounds Y 1; omega⟩
  have h1 : IsDate Y m 1 := ⟨m1, m2, by decide, by have := monthLen_bounds Y m; omega⟩
  have key := read_plain hu hw hcl hn (by rw [hyd]; simp) hY (m := 1) (by rw [hmo, hyd]; simp) (d := 1) (by rw [hda, hyd]; simp) h0
    (readingZone E c (timeFormat layout t))
  have hcd : IsDate Y m (chosenDay (.ofCode c.dayOfMonth) (baseTime c E.now).day (monthLen y m)) := by
    rw [← hlen]; exact chosenDay_isDate _ _ _ _ m1 m2 hday
  have hcd' := chosenDay_isDate (.ofCode c.dayOfMonth) (baseTime c E.now).day y m m1 m2 hday
  have hmonth : applyMonthFromConfig (inner c E.now) E.now (goDate Y 1 1 H M S ns (readingZone E c (timeFormat layout t))) none =
      goDate Y m 1 H M S ns (readingZone E c (timeFormat layout t)) := by
    rw [(base_current hE c _).2]
    unfold applyMonthFromConfig
    have S0 := shows_goDate h0 hclk (hfix.noJump (wallOf Y 1 1 H M S ns))
    rw [S0.year, S0.day, S0.hour, S0.minute, S0.second, S0.nanosecond, hm]
    rfl
  have hfill : ∀ T, filledIn E c layout T =
      (applyDayFromConfig (inner c E.now) E.now (applyMonthFromConfig (inner c E.now) E.now T none) none, .year) := by
    intro T
    unfold filledIn formattedFill
    rw [hasMonth_not _ hmo ha, hasDay_not hda hyd]
    rfl
  have h := reads hE (s := s) hc (after := after) hb key
  rw [hfill] at h
  simp only [hmonth, day_filled hE hfix h1 hclk, hlen, year_filled hcd hclk (hfix.noJump _), hyY] at h
  have hsh := shows_goDate hcd' hclk (hfix.noJump (wallOf y m _ H M S ns))
  exact ⟨_, h (shows_notZero hsh hy hz), hsh, rfl⟩

end Verif.Props
