import Verif.Spec.ResultZone
import Verif.Props.Sources
import Verif.Props.EnglishRelative
/-! # C65: the time zone of a result -/
set_option autoImplicit false
namespace Verif.Props
open Verif.Go Verif.Model Verif.Data Verif.Lemmas Verif.Spec

/-! ## Digits -/

theorem entry_loc {f : List Char} (hf : FormatOK f) {ny : Int} {ds : List Char} {parts : List (List Char)} (h : parts ∈ candidateParts ny f ds) {t : Time}
    (ht : timeParse (nsLayout f) (joinWith ['-'] parts) = some t) : t.loc = Loc.utc := by
  obtain ⟨_, h2, _⟩ := (mem_candidateParts hf ny ds parts).mp h
  have P := parseChunks_parts f parts {} h2 hf.letters
  unfold timeParse timeParseIn parseWith at ht
  rw [hf.chunks] at ht
  by_cases hy : YearsLong f parts
  · rw [P.1 hy] at ht
    have hS := sim_fold f parts {} {} ⟨rfl, Or.inr rfl, Or.inr rfl, rfl, rfl, rfl, rfl, rfl, rfl, rfl, rfl, ⟨rfl, rfl⟩⟩ hf.letters
    simp only [Option.bind_some] at ht
    rw [finishParse_plain hS.yday hS.zone hS.utc] at ht
    dsimp only at ht
    rw [Option.ite_none_left_eq_some] at ht
    have ht := Option.some.inj ht.2
    rw [← ht]; rfl
  · rw [P.2 hy] at ht; cases ht

theorem nsLoop_loc (cfg : Cfg) : ∀ (es : List (List Char × List (List Char))) (a r : DateRes),
    (∀ e ∈ es, ∀ t, timeParse (nsLayout e.1) (joinWith ['-'] e.2) = some t → t.loc = Loc.utc) → a.time.loc = Loc.utc → nsLoop cfg es a = .ok r →
    r.time.loc = Loc.utc := by
  intro es
  induction es with
  | nil =>
    intro a r _ ha h
    unfold nsLoop at h
    split at h
    · cases h
    · cases h; exact ha
  | cons e es ih =>
    obtain ⟨f, parts⟩ := e
    intro a r he ha h
    have he' : ∀ e ∈ es, ∀ t, timeParse (nsLayout e.1) (joinWith ['-'] e.2) = some t → t.loc = Loc.utc := fun x hx => he x (by simp [hx])
    unfold nsLoop at h
    split at h
    · exact ih a r he' ha h
    · rename_i t ht
      have hl : t.loc = Loc.utc := he (f, parts) (by simp) t ht
      dsimp only at h
      split at h
      · exact ih a r he' ha h
      · split at h
        · exact ih _ r he' hl h
        · split at h
          · cases h; exact hl
          · exact ih a r he' ha h

theorem best_loc {ds : List Char} (hn : IsNumeral ds) (h8 : ds.length = 8) : ∀ os : List Order,
    (findBestMatchingDate ds (os.map Order.layout)).isZero = false → (findBestMatchingDate ds (os.map Order.layout)).time.loc = Loc.utc := by
  intro os
  induction os with
  | nil => intro h; simp [findBestMatchingDate, DateRes.zero, DateRes.isZero] at h
  | cons o os ih =>
    rw [List.map_cons, findBestMatchingDate]
    obtain ⟨D, M, Y, hD, hM, hY, e⟩ := eight_cut o hn h8
    have P := parse_eight o hD hM hY
    rw [← e] at P
    rw [P]
    split
    · rename_i t ht
      split at ht
      · injection ht with ht
        split
        · intro _; rw [← ht]; rfl
        · exact ih
      · cases ht
    · exact ih

/-- A date made of digits is in UTC. -/
theorem nospace_loc {cfg : Cfg} {ny : Int} {s : List Char} {r : DateRes} (h : nospaceParse cfg ny s = .ok r) : r.time.loc = Loc.utc := by
  have rest : ∀ {o : List Char}, (match dateTimeFormats o with
      | none => (.error .error : Except Fault DateRes)
      | some formats => nsLoop cfg (((tokenize (nsClean s)).filter fun (x : Tok) => x.typ == TokType.digit).flatMap fun (token : Tok) =>
            formats.flatMap fun (f : List Char) => (candidateParts ny f token.text).map fun c => (f, c)) DateRes.zero) = .ok r → r.time.loc = Loc.utc := by
    intro o h
    cases hfm : dateTimeFormats o with
    | none => rw [hfm] at h; cases h
    | some formats =>
      rw [hfm] at h
      dsimp only at h
      refine nsLoop_loc cfg _ DateRes.zero r ?_ rfl h
      intro e he t ht
      obtain ⟨_, _, he⟩ := List.mem_flatMap.mp he
      obtain ⟨f, hf, he⟩ := List.mem_flatMap.mp he
      obtain ⟨p, hp, rfl⟩ := List.mem_map.mp he
      exact entry_loc (allFormats_ok f (formats_mem hfm f hf)) hp ht
  unfold nospaceParse at h
  split at h
  · cases h
  · dsimp only at h
    split at h
    · cases h
    · rename_i hne
      by_cases h8 : (cfg.dateOrder.isEmpty && (nsClean s).length == 8 && (nsClean s).all Char.isDigit) = true
      · rw [if_pos h8] at h
        split at h
        · rename_i hb
          simp only [Bool.and_eq_true, beq_iff_eq, List.all_eq_true] at h8
          cases h
          rw [eight_layouts] at hb ⊢
          exact best_loc ⟨by simpa using hne, h8.2⟩ h8.1.2 _ (by simpa using hb)
        · exact rest h
      · rw [if_neg h8] at h
        split at h
        · rename_i hb
          simp [DateRes.zero, DateRes.isZero] at hb
        · exact rest h

/-! ## Words -/

theorem frame_loc {cfg : Cfg} {now : Time} {s : ASt} {tz : Option Tz} {t t' : Time} (he : correctForTimeFrame cfg now s tz t = .ok t') : t'.loc = t.loc := by
  unfold correctForTimeFrame at he
  split at he
  · cases he
  · rename_i t1 h1
    cases he
    have c1 : t1.loc = t.loc := by
      unfold frameWeekday at h1
      split at h1
      · split at h1
        · split at h1
          · cases h1; rfl
          · cases h1
        · cases h1; rfl
      · cases h1; rfl
    have c2 : (frameMonth cfg now s t1).loc = t.loc := by
      unfold frameMonth
      split
      · exact c1
      · exact c1
    have c3 : (frameYear2 cfg now s (frameMonth cfg now s t1)).loc = t.loc := by
      generalize frameMonth cfg now s t1 = t2 at c2
      unfold frameYear2
      repeat' split
      all_goals exact c2
    generalize frameYear2 cfg now s (frameMonth cfg now s t1) = t3 at c3
    unfold frameTime
    repeat' split
    all_goals first | exact c3 | (dsimp only; repeat' split) <;> exact c3

theorem absolute_loc {cfg : Cfg} {sysNow : Time} {mf : Nat → Bool} {tz : Option Tz} {str : List Char} {r : DateRes}
    (hr : absoluteParse cfg sysNow mf str tz = .ok r) : r.time.loc = (nowOf cfg sysNow).loc := by
  unfold absoluteParse at hr
  dsimp only at hr
  generalize he : (AEnv.mk gregFns cfg sysNow mf) = e at *
  have hfn : e.fns = gregFns := by rw [← he]
  have hnow : e.now = nowOf cfg sysNow := by rw [← he]; rfl
  cases hi : absInit e str with
  | error f => rw [hi] at hr; cases hr
  | ok s =>
    rw [hi] at hr
    dsimp only at hr
    obtain ⟨H, M, S, ns, p, dt, dt2, hc, hcr, hfr, hres, _⟩ := absParse_ok hr
    rw [hfn] at hcr
    have c1 : dt.loc = e.now.loc := by
      have : gregCreate e.cfg _ _ _ H M S ns e.now.loc = .ok dt := hcr
      unfold gregCreate at this
      dsimp only at this
      rw [← Except.ok.inj this]
      rfl
    have c2 := (frame_loc hfr).trans c1
    have htime : r.time = correctForDay e s (correctForMonth e s dt2) := by rw [hres]
    rw [htime, ← hnow, ← c2]
    have c3 : (correctForMonth e s dt2).loc = dt2.loc := by
      unfold correctForMonth applyMonthFromConfig
      repeat' split
      all_goals rfl
    rw [← c3]
    generalize correctForMonth e s dt2 = t1
    unfold correctForDay applyDayFromConfig
    dsimp only
    split <;> rfl

theorem relative_loc {popTz : List Char → List Char × Option Tz} {big : Int} {cfg : Cfg} {sysNow : Time} {str : List Char}
    (hz : (relativeParse popTz big cfg sysNow str).isZero = false) :
    (relativeParse popTz big cfg sysNow str).time.loc = (relNow cfg sysNow (popTz (stripBraces str)).2).loc := by
  unfold relativeParse at hz ⊢
  generalize popTz (stripBraces str) = q at *
  have h1 : ∀ t p, relParseDate big cfg q.1 (relNow cfg sysNow q.2) = some (t, p) → t.loc = (relNow cfg sysNow q.2).loc := by
    intro t p h
    generalize relNow cfg sysNow q.2 = now at *
    have add : ∀ y m d, (relAddDate cfg now y m d).loc = now.loc := by
      intro y m d
      unfold relAddDate
      split <;> rfl
    unfold relParseDate at h
    split at h
    · cases h
    · dsimp only at h
      split at h
      · cases h
      · split at h
        · injection h with h; injection h with h _
          rw [← h]; exact add _ _ _
        · injection h with h; injection h with h _
          rw [← h]; exact add _ _ _
  unfold relParseAfterTz at hz ⊢
  dsimp only at hz ⊢
  split
  · rename_i h
    rw [h] at hz
    simp [DateRes.isZero] at hz
  · rename_i dt p h
    dsimp only
    split
    · split
      · exact h1 _ _ h
      · show dt.loc = _; exact h1 _ _ h
    · exact h1 _ _ h

/-! ## The property -/

theorem applied_zone {E : Env} {c : PCfg} {l : LocaleInfo} {d0 d : DateRes} {tz : Option Tz}
    (h0 : d0.isZero = false → d0.time.loc = (baseTime c E.now).loc ∨ d0.time.loc = Loc.utc)
    (e : applyTimezone (cfgIn l c E.now) d0 tz = d) (hz : d.isZero = false) : ZoneFrom c E.now tz d.time := by
  have htz := cfgIn_tz l c E.now
  generalize cfgIn l c E.now = cfg at *
  unfold applyTimezone at e
  split at e
  · rename_i h; rw [e] at h; rw [h] at hz; cases hz
  · rename_i h
    have h0 := h0 (by simpa using h)
    rw [htz] at e
    unfold ZoneFrom
    cases tz with
    | some z => dsimp only at e ⊢; rw [← e]; rfl
    | none =>
      cases hd : c.defaultTz with
      | none => rw [hd] at e; dsimp only at e ⊢; rw [← e]; exact h0
      | some l => rw [hd] at e; dsimp only at e ⊢; rw [← e]; exact Or.inr ⟨_, rfl⟩

/-- **C65.** Without formats, a result that is no timestamp is in the zone that a translation of the text names; if it names none, in the default time zone
or an offset under its name; if there is none either, in the zone of the current time or in UTC.  A timestamp is in the computer's zone. -/
theorem C65_zone (E : Env) (hE : Surroundings E) (s : ParserSt) (c : PCfg) (text : List Char) (r : DateRes) (h : (E.parse s (some c) text []).2 = .ok r) :
    (r.time.loc = E.localZone ∧ (StampOf (sanitizeDate E.uni text) r.time ∨ NegativeStampOf (sanitizeDate E.uni text) r.time)) ∨
    ∃ t ∈ translations E c r.locale text, ZoneFrom c E.now t.2 r.time := by
  rcases result_source h with h | ⟨k, l, d0, hkn, hlist, hd, hz, rfl⟩
  · exact absurd h no_format
  have htr : ∀ t, t ∈ E.parts.translate (cfgIn l c E.now) l (E.parts.sanitize text) false → popTzOffset E.table (stripBraces t) ∈ translations E c l.name text := by
    intro t ht
    have hs : (cfgIn l c E.now).skipTokens = skipWords c := skip_words c E.now
    rw [parts_translate, hs, parts_sanitize] at ht
    exact List.mem_map.mpr ⟨t, ht, rfl⟩
  have stamp : ∀ b, E.parts.timestamp (cfgIn l c E.now) (E.parts.sanitize text) b = d0 → d0.time.loc = E.localZone := by
    intro b e
    rw [parts_stamp] at e
    unfold timestampParse at e
    dsimp only at e
    split at e
    · rw [← e]; rfl
    · rw [← e] at hz; simp [DateRes.zero, DateRes.isZero] at hz
  dsimp only
  rcases tryType_cases hd hz with ⟨hk, e⟩ | ⟨hk, e⟩ | ⟨hk, e⟩ | ⟨hk, e⟩ | ⟨hk, e⟩ | ⟨hk, e⟩
  · left
    refine ⟨stamp _ e, Or.inl ?_⟩
    rw [parts_sanitize] at e
    exact source_stamp e hz
  · left
    refine ⟨stamp _ e, Or.inr ?_⟩
    rw [parts_sanitize] at e
    exact source_negative e hz
  · right
    obtain ⟨t, ht, e⟩ := tryRelative_source hz e
    refine ⟨_, htr t ht, ?_⟩
    have e' : relativeParse (popTzOffset E.table) E.big (cfgIn l c E.now) E.now t = d0 := e
    have hl := relative_loc (popTz := popTzOffset E.table) (big := E.big) (cfg := cfgIn l c E.now) (sysNow := E.now) (str := t) (by rw [e']; exact hz)
    rw [e'] at hl
    unfold relNow at hl
    rw [cfgIn_now, cfgIn_tz, base_notZero hE c] at hl
    unfold ZoneFrom
    generalize (popTzOffset E.table (stripBraces t)).2 = tz at *
    cases tz with
    | some z => exact hl
    | none =>
      cases hdt : c.defaultTz with
      | none => rw [hdt] at hl; exact Or.inl hl
      | some l => rw [hdt] at hl; exact Or.inl hl
  · obtain ⟨t, ht, e⟩ := tryCustom_source hz e
    exact absurd (format_reads (by rw [e]; exact hz)) no_format
  · right
    obtain ⟨t, ht, hne, e⟩ := tryAbsolute_source hz e
    rw [parts_strip, parts_absolute] at e
    refine ⟨_, htr t ht, applied_zone (fun h0 => ?_) e hz⟩
    cases ha : absoluteParse (cfgIn l c E.now) E.now E.monthFirst (popTzOffset E.table (stripBraces t)).1 (popTzOffset E.table (stripBraces t)).2 with
    | error f => rw [ha] at h0; exact zero_nonzero h0
    | ok r0 =>
      left
      have := absolute_loc ha
      unfold nowOf at this
      rw [cfgIn_now, base_notZero hE c] at this
      exact this
  · right
    obtain ⟨t, ht, hne, e⟩ := tryNospace_source hz e
    rw [parts_strip, parts_nospace] at e
    refine ⟨_, htr t ht, applied_zone (fun h0 => ?_) e hz⟩
    cases ha : nospaceParse (cfgIn l c E.now) E.now.year (popTzOffset E.table (stripBraces t)).1 with
    | error f => rw [ha] at h0; exact zero_nonzero h0
    | ok r0 => exact Or.inr (nospace_loc ha)

theorem not_stamp {str : List Char} {T : Time} (h1 : ¬ IsStamp str) (h2 : ∀ n, str = '-' :: n → ¬ IsStamp n) : ¬ (StampOf str T ∨ NegativeStampOf str T) := by
  rintro (h | h)
  · obtain ⟨ds, tail, u, a, b, d, f, _⟩ := h
    exact h1 ⟨ds, tail, u, a, b, d, f⟩
  · obtain ⟨ds, frac, tail, u, a, b, hl, d, f, g, _⟩ := h
    refine h2 _ a ⟨ds ++ frac, tail, u, rfl, ⟨by intro hh; exact b.1 (List.append_eq_nil_iff.mp hh).1, fun x hx => ?_⟩, ?_, g⟩
    · exact (List.mem_append.mp hx).elim (b.2 x) (d x)
    · rw [List.length_append, hl]; exact f

/-- **C65, one zone.** A text that is no timestamp and names the same time zone however it is translated gives a date in that zone. -/
theorem C65_named (E : Env) (hE : Surroundings E) (s : ParserSt) (c : PCfg) (text : List Char) (r : DateRes) (h : (E.parse s (some c) text []).2 = .ok r)
    (h1 : ¬ IsStamp (sanitizeDate E.uni text)) (h2 : ∀ n, sanitizeDate E.uni text = '-' :: n → ¬ IsStamp n) (z : Tz)
    (h3 : ∀ t ∈ translations E c r.locale text, t.2 = some z) : r.time.loc = Loc.fixed z.name z.offset := by
  rcases C65_zone E hE s c text r h with ⟨_, hs⟩ | ⟨t, ht, hz⟩
  · exact (not_stamp h1 h2 hs).elim
  · rw [h3 t ht] at hz; exact hz

/-- **C65, no zone.** Without a current time and a default time zone, a text that is no timestamp and names no time zone gives a date in UTC. -/
theorem C65_utc (E : Env) (hE : Surroundings E) (s : ParserSt) (c : PCfg) (hc : c.currentTime.isZero = true) (hd : c.defaultTz = none) (text : List Char)
    (r : DateRes) (h : (E.parse s (some c) text []).2 = .ok r) (h1 : ¬ IsStamp (sanitizeDate E.uni text))
    (h2 : ∀ n, sanitizeDate E.uni text = '-' :: n → ¬ IsStamp n) (h3 : ∀ t ∈ translations E c r.locale text, t.2 = none) : r.time.loc = Loc.utc := by
  rcases C65_zone E hE s c text r h with ⟨_, hs⟩ | ⟨t, ht, hz⟩
  · exact (not_stamp h1 h2 hs).elim
  · unfold ZoneFrom at hz
    rw [h3 t ht, hd] at hz
    rcases hz with hz | hz
    · rw [hz]; unfold baseTime; rw [if_pos hc]; rfl
    · exact hz

/-- **C65, fixed zones.** Where the zones of the settings and of the computer have one offset, so does that of any result. -/
theorem C65_fixed (E : Env) (hE : Surroundings E) (hl : E.localZone.IsFixed) (s : ParserSt) (c : PCfg) (hf : (baseTime c E.now).loc.IsFixed)
    (hd : ∀ l, c.defaultTz = some l → l.IsFixed) (text : List Char) (r : DateRes) (h : (E.parse s (some c) text []).2 = .ok r) : r.time.loc.IsFixed := by
  rcases C65_zone E hE s c text r h with ⟨e, _⟩ | ⟨t, _, hz⟩
  · rw [e]; exact hl
  · unfold ZoneFrom at hz
    split at hz
    · rw [hz]; exact Loc.fixed_isFixed _ _
    · rename_i l hl _
      rcases hz with hz | ⟨_, hz⟩
      · rw [hz]; exact hd l (by assumption)
      · rw [hz]; exact Loc.fixed_isFixed _ _
    · rcases hz with hz | hz
      · rw [hz]; exact hf
      · rw [hz]; exact Loc.utc_isFixed

/-! ## Cases -/

/-- The hypotheses of `C65_named` are met: "now est". -/
example : ∃ r, (demoEnv.parse { types := [Kind.relativeTime.code] } (some { locales := ["en".toList] }) "now est".toList []).2 = .ok r ∧ r.time.loc = Loc.fixed "EST" (-18000) := by
  have key : ((demoEnv.parse { types := [Kind.relativeTime.code] } (some { locales := ["en".toList] }) "now est".toList []).2.toOption.map fun r => r.locale) =
    some "en".toList := by decide +kernel
  cases h : (demoEnv.parse { types := [Kind.relativeTime.code] } (some { locales := ["en".toList] }) "now est".toList []).2 with
  | error e => rw [h] at key; simp [Except.toOption] at key
  | ok r =>
    rw [h] at key
    have hl : r.locale = "en".toList := by simpa [Except.toOption] using key
    have hs : sanitizeDate demoEnv.uni "now est".toList = "now est".toList := by decide +kernel
    refine ⟨r, rfl, C65_named demoEnv demo_sound.toSurroundings _ _ _ r h ?_ ?_ ⟨"EST", -18000⟩ ?_⟩
    · rw [hs]
      rintro ⟨ds, tail, u, e, hn, hu, _⟩
      have ge : ∀ {n : Nat} {u : Int}, StampUnit n u → 2 < n := by intro n u h; cases h <;> decide
      have h : (ds ++ tail)[2]? = some 'w' := by rw [← e]; decide
      rw [List.getElem?_append_left (ge hu)] at h
      exact absurd (hn.2 _ (List.mem_of_getElem? h)) (by decide)
    · intro n e
      rw [hs] at e
      exact absurd (congrArg List.head? e) (by show ¬ (some 'n' = some '-'); decide)
    · rw [hl]
      have : (translations demoEnv { locales := ["en".toList] } "en".toList "now est".toList).all (fun t => t.2 == some ⟨"EST", -18000⟩) = true := by
        decide +kernel
      intro t ht
      simpa using List.all_eq_true.mp this t ht

/-- The hypotheses of `C65_fixed` are met. -/
example : demoEnv.localZone.IsFixed ∧ (baseTime {} demoEnv.now).loc.IsFixed ∧ (∀ l, ({} : PCfg).defaultTz = some l → l.IsFixed) ∧ Surroundings demoEnv :=
  ⟨Loc.utc_isFixed, Loc.utc_isFixed, fun l h => (by cases h), demo_sound.toSurroundings⟩

/-- The hypotheses of `C65_utc` are met: "Tomorrow". -/
example : ∃ r, (demoEnv.parse {} (some {}) "Tomorrow".toList []).2 = .ok r ∧ ¬ IsStamp (sanitizeDate demoEnv.uni "Tomorrow".toList) ∧
    (∀ n, sanitizeDate demoEnv.uni "Tomorrow".toList = '-' :: n → ¬ IsStamp n) ∧ ∀ t ∈ translations demoEnv {} r.locale "Tomorrow".toList, t.2 = none := by
  have hs : sanitizeDate demoEnv.uni "Tomorrow".toList = "Tomorrow".toList := by decide +kernel
  refine ⟨_, C44_words demo_sound demo_first "Tomorrow".toList "tomorrow" 1 .day (by decide) (by decide) (fun h => by cases h) (by decide +kernel), ?_, ?_, ?_⟩
  · rw [hs]
    rintro ⟨ds, tail, u, e, hn, hu, _⟩
    have ge : ∀ {n : Nat} {u : Int}, StampUnit n u → 2 < n := by intro n u h; cases h <;> decide
    have h : (ds ++ tail)[2]? = some 'm' := by rw [← e]; decide
    rw [List.getElem?_append_left (ge hu)] at h
    exact absurd (hn.2 _ (List.mem_of_getElem? h)) (by decide)
  · intro n e
    rw [hs] at e
    exact absurd (congrArg List.head? e) (by show ¬ (some 'T' = some '-'); decide)
  · have : (translations demoEnv {} ['e', 'n'] "Tomorrow".toList).all (fun t => t.2.isNone) = true := by decide +kernel
    intro t ht
    simpa using List.all_eq_true.mp this t ht

end Verif.Props
