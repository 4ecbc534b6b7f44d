import Verif.Lemmas.Whole
import Verif.Lemmas.Fields
/-!
Helper lemmas: `Parse` on texts that pass the stages before the individual parsers.
-/
set_option autoImplicit false
namespace Verif.Lemmas
open Verif.Go Verif.Model Verif.Data Verif.Spec

/-- data of the locale "en" -/
def enInfo : LocaleInfo := { name := ['e', 'n'], dateOrder := ['M', 'D', 'Y'], noWordSpacing := false, splitterGroup := 1 }

theorem en_found : getLocaleData ['e', 'n'] = some enInfo := by decide +kernel

theorem load_all : ∃ L, getLocales [] [] [] false false = .ok (['e', 'n'] :: L) := by
  have : (match getLocales [] [] [] false false with
    | .ok (x :: _) => decide (x = ['e', 'n'])
    | _ => false) = true := by decide +kernel
  split at this
  · next x L h => exact ⟨L, by rw [h, of_decide_eq_true this]⟩
  · simp at this

theorem load_all_given : ∃ L, getLocales [] [] [] true false = .ok (['e', 'n'] :: L) := by
  have : (match getLocales [] [] [] true false with
    | .ok (x :: _) => decide (x = ['e', 'n'])
    | _ => false) = true := by decide +kernel
  split at this
  · next x L h => exact ⟨L, by rw [h, of_decide_eq_true this]⟩
  · simp at this

theorem load_en (b : Bool) : getLocales [] [['e', 'n']] [] b false = .ok [['e', 'n']] := by cases b <;> decide +kernel

theorem infos_cons (L : List Name) : ∃ rest, localeInfos (['e', 'n'] :: L) = enInfo :: rest := by
  unfold localeInfos
  rw [List.filterMap_cons_some en_found]
  exact ⟨_, rfl⟩

/-- The configuration the individual parsers get for a locale. -/
def cfgIn (l : LocaleInfo) (c : PCfg) (now : Time) : Cfg := localeCfg (c.initiate now) (c.initiate now).toInternal l
/-- … for English. -/
abbrev enCfg (c : PCfg) (now : Time) : Cfg := cfgIn enInfo c now

theorem cfgIn_now (l : LocaleInfo) (c : PCfg) (now : Time) : (cfgIn l c now).currentTime = baseTime c now := rfl
theorem cfgIn_tz (l : LocaleInfo) (c : PCfg) (now : Time) : (cfgIn l c now).defaultTz = c.defaultTz := rfl
theorem enCfg_now (c : PCfg) (now : Time) : (enCfg c now).currentTime = baseTime c now := rfl
theorem enCfg_tz (c : PCfg) (now : Time) : (enCfg c now).defaultTz = c.defaultTz := rfl

theorem cfgIn_order (l : LocaleInfo) (c : PCfg) (now : Time) : (cfgIn l c now).dateOrder = orderIn l.name l.dateOrder c := by
  unfold cfgIn
  rw [localeCfg_eq]
  rfl

theorem enCfg_order (c : PCfg) (now : Time) : (enCfg c now).dateOrder = englishOrder c := cfgIn_order enInfo c now

theorem orderIn_some (n : Name) {own : List Char} (hown : own.Perm "DMY".toList) (c : PCfg) : ∃ o : Order, toLower (orderIn n own c) = o.letters := by
  have h : (orderIn n own c).Perm "DMY".toList := by
    unfold orderIn
    split
    · split
      · assumption
      · exact hown
    · exact hown
  have hl := h.length_eq
  have hm := fun x => (h.mem_iff (a := x)).mp
  have hn := h.nodup_iff.mpr (by decide)
  generalize orderIn n own c = l at *
  match l, hl with
  | [x, y, z], _ =>
    have a := hm x (by simp)
    have b := hm y (by simp)
    have c := hm z (by simp)
    have e : "DMY".toList = ['D', 'M', 'Y'] := by decide
    rw [e] at a b c
    simp only [List.mem_cons, List.not_mem_nil, or_false] at a b c
    rcases a with rfl | rfl | rfl <;> rcases b with rfl | rfl | rfl <;> rcases c with rfl | rfl | rfl <;>
      first
      | exact absurd hn (by decide)
      | exact ⟨.dmy, by decide⟩
      | exact ⟨.dym, by decide⟩
      | exact ⟨.mdy, by decide⟩
      | exact ⟨.myd, by decide⟩
      | exact ⟨.ymd, by decide⟩
      | exact ⟨.ydm, by decide⟩

theorem englishOrder_some (c : PCfg) : ∃ o : Order, toLower (englishOrder c) = o.letters := orderIn_some _ (by decide) c

theorem base_notZero {E : Env} (hE : Surroundings E) (c : PCfg) : (baseTime c E.now).isZero = false := by
  unfold baseTime
  cases h : c.currentTime.isZero with
  | true => exact hE.clock
  | false => exact h

/-! ## Not the zero time -/

theorem shows_notZero {t : Time} {y m d H M S ns : Int} (h : Shows t y m d H M S ns) (hy : 2 ≤ y) (hl : SmallOffsets t.loc) : t.isZero = false := by
  cases hz : t.isZero with
  | false => rfl
  | true =>
    exfalso
    unfold Time.isZero at hz
    simp only [Bool.and_eq_true, beq_iff_eq] at hz
    have hyear := h.year
    unfold Time.year Time.civil Time.wall at hyear
    rw [hz.1] at hyear
    obtain ⟨h1, h2⟩ := hl (-62135596800)
    have : (-62135596800 + t.loc.off (-62135596800)) / 86400 = -719163 ∨ (-62135596800 + t.loc.off (-62135596800)) / 86400 = -719162 ∨
        (-62135596800 + t.loc.off (-62135596800)) / 86400 = -719161 := by omega
    rcases this with h | h | h <;> rw [h] at hyear <;> revert hyear <;> intro hyear
    · have : (civilOfDays (-719163)).y = 0 := by decide +kernel
      omega
    · have : (civilOfDays (-719162)).y = 1 := by decide +kernel
      omega
    · have : (civilOfDays (-719161)).y = 1 := by decide +kernel
      omega

/-! ## The call -/

variable {E : Env} {s : ParserSt} {c : PCfg} {str t : List Char}

theorem loaded (hc : EnglishFirst s c) (P : Parts) (now : Time) (x : List Char) : ∃ L,
    getLocales c.locales (languagesFor P s (c.initiate now) x) c.region c.useGivenOrder false = .ok (['e', 'n'] :: L) := by
  rw [hc.locales, hc.region]
  have hlang : ∀ l, (c.initiate now).languages = l → (c.languages = l) := fun l h => h
  rcases hc.languages with h | ⟨h, hd⟩
  · have : languagesFor P s (c.initiate now) x = [['e', 'n']] := by
      unfold languagesFor
      have e : (c.initiate now).languages = [['e', 'n']] := h
      rw [e]
      cases s.detect <;> simp
    rw [this]
    exact ⟨[], load_en _⟩
  · have : languagesFor P s (c.initiate now) x = [] := by
      unfold languagesFor
      rw [hd]
      exact h
    rw [this]
    cases c.useGivenOrder
    · exact load_all
    · exact load_all_given

/-- The locale is loaded first. -/
structure Picks (E : Env) (s : ParserSt) (c : PCfg) (l : LocaleInfo) : Prop where
  valid : c.validate = .ok ()
  skip : c.skipTokens = []
  types : s.types = []
  previous : c.tryPrevious = false ∨ s.used = []
  data : getLocaleData l.name = some l
  load : ∀ x, ∃ L, getLocales c.locales (languagesFor E.parts s (c.initiate E.now) x) c.region c.useGivenOrder false = .ok (l.name :: L)

theorem _root_.Verif.Spec.EnglishFirst.picks {E : Env} {s : ParserSt} {c : PCfg} (hc : EnglishFirst s c) : Picks E s c enInfo :=
  ⟨hc.valid, hc.skip, hc.types, hc.previous, en_found, fun x => loaded hc E.parts E.now x⟩

/-- A locale that is loaded alone. -/
def loadsAlone (n : Name) : Bool :=
  [true, false].all fun b => decide (getLocales [n] [] [] b false = .ok [n]) && decide (getLocales [] [n] [] b false = .ok [n])
/-- … as a locale. -/
def loadsLocale (n : Name) : Bool := [true, false].all fun b => decide (getLocales [n] [] [] b false = .ok [n])

theorem _root_.Verif.Spec.Only.picks {E : Env} {s : ParserSt} {c : PCfg} {l : LocaleInfo} (hc : Only l.name s c) (hl : getLocaleData l.name = some l)
    (h : loadsLocale l.name = true ∧ c.locales = [l.name] ∨ loadsAlone l.name = true) : Picks E s c l := by
  refine ⟨hc.valid, hc.skip, hc.types, hc.previous, hl, fun x => ⟨[], ?_⟩⟩
  have hlang : languagesFor E.parts s (c.initiate E.now) x = c.languages := by
    unfold languagesFor
    cases s.detect with
    | none => rfl
    | some f =>
      simp only
      rw [if_neg]
      · rfl
      · show ¬ ((c.locales.isEmpty && c.languages.isEmpty) = true)
        rcases hc.chosen with ⟨h1, h2⟩ | ⟨h1, h2⟩ <;> rw [h1, h2] <;> simp
  rw [hlang, hc.region]
  rcases h with ⟨h, hloc⟩ | h
  · rw [hloc]
    have h2 : c.languages = [] := by
      rcases hc.chosen with ⟨_, h2⟩ | ⟨h1, _⟩
      · exact h2
      · rw [h1] at hloc; cases hloc
    rw [h2]
    have := List.all_eq_true.mp h c.useGivenOrder (by cases c.useGivenOrder <;> simp)
    exact of_decide_eq_true this
  · have := List.all_eq_true.mp h c.useGivenOrder (by cases c.useGivenOrder <;> simp)
    rw [Bool.and_eq_true] at this
    rcases hc.chosen with ⟨h1, h2⟩ | ⟨h1, h2⟩ <;> rw [h1, h2]
    · exact of_decide_eq_true this.1
    · exact of_decide_eq_true this.2

theorem zero_result (T : Time) : DateRes.isZero { period := .none, time := T } = true := rfl

theorem no_stamp (cfg : Cfg) (z : Loc) (h1 : rxTimestamp.matches str = false) : timestampParse cfg z str false = DateRes.zero := by
  unfold timestampParse
  have : rxTimestamp.findFirst str = none := by
    unfold Rx.matches at h1; unfold Rx.findFirst; simpa using h1
  simp [this]

theorem no_negStamp (cfg : Cfg) (z : Loc) (h1 : rxNegativeTimestamp.matches str = false) : timestampParse cfg z str true = DateRes.zero := by
  unfold timestampParse
  have : rxNegativeTimestamp.findFirst str = none := by
    unfold Rx.matches at h1; unfold Rx.findFirst; simpa using h1
  simp [this]

theorem skip_initiate {l : LocaleInfo} (hc : Picks E s c l) (now : Time) : (c.initiate now).toInternal.skipTokens = [['t']] := by
  show (if c.skipTokens.isEmpty then [['t']] else c.skipTokens) = _
  rw [hc.skip]; rfl

theorem parts_sanitize : E.parts.sanitize str = sanitizeDate E.uni str := by simp only [Env.parts]
theorem parts_formatted (cfg : Cfg) : E.parts.formatted cfg str [] = DateRes.zero := rfl
theorem parts_normalize : E.parts.normalize str = E.uni.normalizeString str := rfl
theorem parts_applicable (cfg : Cfg) (l : LocaleInfo) : E.parts.applicable cfg l str = isApplicable E.uni (E.lang l.name) cfg.skipTokens str := rfl
theorem parts_translate (cfg : Cfg) (l : LocaleInfo) (k : Bool) :
    E.parts.translate cfg l str k = (translate E.uni (E.lang l.name) cfg.skipTokens str k).getD [] := rfl
theorem parts_stamp (cfg : Cfg) (b : Bool) : E.parts.timestamp cfg str b = timestampParse cfg E.localZone str b := rfl
theorem parts_relative (cfg : Cfg) : E.parts.relative cfg str = relativeParse (popTzOffset E.table) E.big cfg E.now str := rfl
theorem parts_absolute (cfg : Cfg) (tz : Option Tz) : E.parts.absolute cfg str tz = orZero (absoluteParse cfg E.now E.monthFirst str tz) := rfl
theorem parts_strip : stripTz E.parts str = popTzOffset E.table (stripBraces str) := rfl

/-- What the first parsers make of such a text. -/
theorem locale_by_types (hE : Surroundings E) {l : LocaleInfo} (hc : Picks E s c l)
    (hp : Reached E.uni (E.lang l.name) [['t']] str t) (dt : DateRes)
    (hdt : typeLoop E.parts (cfgIn l c E.now) l str [] defaultTypes = some dt) : (E.parse s (some c) str []).2 = .ok dt := by
  obtain ⟨L, hL⟩ := hc.load (E.parts.sanitize str)
  have ⟨rest, hrest⟩ : ∃ rest, localeInfos (l.name :: L) = l :: rest := by
    unfold localeInfos
    rw [List.filterMap_cons_some hc.data]
    exact ⟨_, rfl⟩
  have hs : E.parts.sanitize str = str := by rw [parts_sanitize, hp.sanitize]
  unfold Env.parse
  refine parse_by_first E.parts E.now s c str [] hc.types hc.valid ?_ hc.previous _ l rest hL hrest ?_ dt (by rw [hs]; exact hdt)
  · rw [parts_formatted]; rfl
  · rw [hs, parts_applicable, parts_normalize, skip_initiate hc]
    exact hp.applicable

theorem translate_parts (hE : Surroundings E) {l : LocaleInfo} (hc : Picks E s c l) (hp : Reached E.uni (E.lang l.name) [['t']] str t) :
    E.parts.translate (cfgIn l c E.now) l str false = [t] := by
  have : (cfgIn l c E.now).skipTokens = [['t']] := skip_initiate hc E.now
  rw [parts_translate, this, hp.translate]
  rfl

theorem typeLoop_skip {P : Parts} {cfg : Cfg} {l : LocaleInfo} {formats : List (List Char)} {k : Nat} {ks : List Nat}
    (h : (tryType P cfg l str formats k).isZero = true) : typeLoop P cfg l str formats (k :: ks) = typeLoop P cfg l str formats ks := by
  conv => lhs; unfold typeLoop
  simp [h]

theorem typeLoop_take {P : Parts} {cfg : Cfg} {l : LocaleInfo} {formats : List (List Char)} {k : Nat} {ks : List Nat} {dt : DateRes}
    (h : tryType P cfg l str formats k = dt) (hz : dt.isZero = false) :
    typeLoop P cfg l str formats (k :: ks) = some { dt with locale := l.name } := by
  unfold typeLoop
  simp [h, hz]

theorem custom_zero (P : Parts) (hP : ∀ cfg x, (P.formatted cfg x []).isZero = true) (cfg : Cfg) : ∀ ts, (tryCustom P cfg [] ts).isZero = true
  | [] => rfl
  | x :: ts => by
    unfold tryCustom
    simp only [hP cfg x, Bool.not_true, Bool.false_eq_true, if_false]
    exact custom_zero P hP cfg ts

/-- The relative parser finds a date. -/
theorem locale_relative (hE : Surroundings E) {l : LocaleInfo} (hc : Picks E s c l) (hp : Reached E.uni (E.lang l.name) [['t']] str t) (dt : DateRes)
    (hdt : relativeParse (popTzOffset E.table) E.big (cfgIn l c E.now) E.now t = dt) (hz : dt.isZero = false) :
    (E.parse s (some c) str []).2 = .ok { dt with locale := l.name } := by
  refine locale_by_types hE hc hp _ ?_
  unfold defaultTypes
  rw [typeLoop_skip (by rw [tryType, parts_stamp, no_stamp _ _ hp.stamp]; rfl),
    typeLoop_skip (by rw [tryType, parts_stamp, no_negStamp _ _ hp.negStamp]; rfl)]
  refine typeLoop_take (dt := dt) ?_ hz
  rw [tryType, translate_parts hE hc hp]
  unfold tryRelative
  have : E.parts.relative (cfgIn l c E.now) t = dt := by rw [parts_relative, hdt]
  simp [this, hz]

/-- The absolute parser finds a date and no parser before it. -/
theorem locale_absolute (hE : Surroundings E) {l : LocaleInfo} (hc : Picks E s c l) (hp : Reached E.uni (E.lang l.name) [['t']] str t)
    {u : List Char} {tz : Option Tz} (hzone : popTzOffset E.table t = (u, tz)) (hn : noAmount u = true) (ht : u ≠ []) (dt : DateRes)
    (hdt : absoluteParse (cfgIn l c E.now) E.now E.monthFirst u tz = .ok dt)
    (hz : (applyTimezone (cfgIn l c E.now) dt tz).isZero = false) :
    (E.parse s (some c) str []).2 = .ok { applyTimezone (cfgIn l c E.now) dt tz with locale := l.name } := by
  refine locale_by_types hE hc hp _ ?_
  unfold defaultTypes
  rw [typeLoop_skip (by rw [tryType, parts_stamp, no_stamp _ _ hp.stamp]; rfl),
    typeLoop_skip (by rw [tryType, parts_stamp, no_negStamp _ _ hp.negStamp]; rfl),
    typeLoop_skip (by
      rw [tryType, translate_parts hE hc hp]
      have : E.parts.relative (cfgIn l c E.now) t = { period := .none, time := Time.zero } := by
        rw [parts_relative]
        unfold relativeParse
        rw [hp.braces, hzone]
        unfold relParseAfterTz
        simp only [noAmount_none hn]
      unfold tryRelative
      rw [this]
      rfl),
    typeLoop_skip (by rw [tryType]; exact custom_zero E.parts (fun _ _ => by rw [parts_formatted]; rfl) _ _)]
  refine typeLoop_take (dt := applyTimezone (cfgIn l c E.now) dt tz) ?_ hz
  rw [tryType, translate_parts hE hc hp]
  unfold tryAbsolute
  have e1 : stripTz E.parts t = (u, tz) := by
    rw [parts_strip, hp.braces, hzone]
  have e2 : E.parts.absolute (cfgIn l c E.now) u tz = dt := by
    rw [parts_absolute, hdt]; rfl
  rw [e1]
  simp [ht, e2, hz]

/-- A date with a time of day read by the absolute parser. -/
theorem locale_yields (hE : Surroundings E) {l : LocaleInfo} (hc : Picks E s c l) (hp : Passed E.uni E.table (E.lang l.name) [['t']] str t)
    (hn : noAmount t = true) (ht : t ≠ []) {p : Period} (hpn : p ≠ .none) {y m d H M S ns : Int} (hv : IsDate y m d) (hcl : IsClock H M S ns) (hy : 2 ≤ y)
    (hdt : absoluteParse (cfgIn l c E.now) E.now E.monthFirst t none = .ok { period := p, time := goDate y m d H M S ns (baseTime c E.now).loc })
    (hzn : ZonesOk c E.now (wallOf y m d H M S ns)) : ∃ r, YieldsIn l.name E s c str p y m d H M S ns r := by
  have hsh := shows_goDate hv hcl hzn.noJump
  have hnz : (goDate y m d H M S ns (baseTime c E.now).loc).isZero = false := shows_notZero hsh hy hzn.base
  have hnz' : ∀ (T : Time), T.isZero = false → DateRes.isZero { period := p, time := T } = false := by
    intro T hT
    unfold DateRes.isZero
    rw [hT]
    simp [hpn]
  cases hd : c.defaultTz with
  | none =>
    have ha : applyTimezone (cfgIn l c E.now) { period := p, time := goDate y m d H M S ns (baseTime c E.now).loc } none =
        { period := p, time := goDate y m d H M S ns (baseTime c E.now).loc } := by
      unfold applyTimezone
      rw [cfgIn_tz, hd, hnz' _ hnz]
      rfl
    refine ⟨_, locale_absolute hE hc hp.toReached hp.zone hn ht _ hdt (by rw [ha]; exact hnz' _ hnz), rfl, ?_, ?_, ?_, ?_⟩
    · rw [ha]
    · rw [ha]; exact hsh
    · intro _; rw [ha]
    · intro z hz; rw [hd] at hz; simp at hz
  | some z =>
    generalize hT : goDate y m d H M S ns (baseTime c E.now).loc = T at *
    have ha : applyTimezone (cfgIn l c E.now) { period := p, time := T } none =
        { period := p, time := sameClock T (Loc.fixed z.name (z.off T.sec)) } := by
      unfold applyTimezone
      rw [cfgIn_tz, hd, hnz' _ hnz]
      rfl
    have hs2 : Shows (sameClock T (Loc.fixed z.name (z.off T.sec))) y m d H M S ns := by
      unfold sameClock
      rw [hsh.year, hsh.month, hsh.day, hsh.hour, hsh.minute, hsh.second, hsh.nanosecond]
      exact shows_goDate hv hcl (Loc.IsFixed.noJump (fun _ _ => rfl) _)
    have hz2 : (sameClock T (Loc.fixed z.name (z.off T.sec))).isZero = false := by
      refine shows_notZero hs2 hy ?_
      intro x
      exact hzn.dflt z hd T.sec
    refine ⟨_, locale_absolute hE hc hp.toReached hp.zone hn ht _ hdt (by rw [ha]; exact hnz' _ hz2), rfl, ?_, ?_, ?_, ?_⟩
    · rw [ha]
    · rw [ha]; exact hs2
    · intro h; rw [hd] at h; simp at h
    · intro z' hz'
      rw [hd] at hz'
      injection hz' with e
      subst e
      exact ⟨T.sec, by rw [ha]; rfl⟩

/-- A date with a time of day and a time zone. -/
theorem locale_zoned (hE : Surroundings E) {l : LocaleInfo} (hc : Picks E s c l) (hp : Reached E.uni (E.lang l.name) [['t']] str t)
    {u : List Char} {z : Tz} (hzone : popTzOffset E.table t = (u, some z)) (hn : noAmount u = true) (ht : u ≠ []) {p : Period} (hpn : p ≠ .none)
    {y m d H M S ns : Int} (hv : IsDate y m d) (hcl : IsClock H M S ns) (hy : 2 ≤ y)
    (hdt : absoluteParse (cfgIn l c E.now) E.now E.monthFirst u (some z) = .ok { period := p, time := goDate y m d H M S ns (baseTime c E.now).loc })
    (hnj : (baseTime c E.now).loc.NoJump (wallOf y m d H M S ns)) (hb : SmallOffsets (baseTime c E.now).loc)
    (hz : -86400 ≤ z.offset ∧ z.offset ≤ 86400) :
    (E.parse s (some c) str []).2 = .ok {
      locale := l.name, period := p
      time := goDate y m d H M S ns (Loc.fixed z.name z.offset) } := by
  have hsh := shows_goDate hv hcl hnj
  have hnz : (goDate y m d H M S ns (baseTime c E.now).loc).isZero = false := shows_notZero hsh hy hb
  have hnz' : ∀ (T : Time), T.isZero = false → DateRes.isZero { period := p, time := T } = false := by
    intro T hT
    unfold DateRes.isZero
    rw [hT]
    simp [hpn]
  have ha : applyTimezone (cfgIn l c E.now) { period := p, time := goDate y m d H M S ns (baseTime c E.now).loc } (some z) =
      { period := p, time := goDate y m d H M S ns (Loc.fixed z.name z.offset) } := by
    unfold applyTimezone
    rw [hnz' _ hnz]
    simp only [Bool.false_eq_true, if_false]
    unfold sameClock
    rw [hsh.year, hsh.month, hsh.day, hsh.hour, hsh.minute, hsh.second, hsh.nanosecond]
  have hs2 : Shows (goDate y m d H M S ns (Loc.fixed z.name z.offset)) y m d H M S ns :=
    shows_goDate hv hcl (Loc.IsFixed.noJump (fun _ _ => rfl) _)
  have h := locale_absolute hE hc hp hzone hn ht _ hdt (by rw [ha]; exact hnz' _ (shows_notZero hs2 hy fun _ => hz))
  rw [ha] at h
  exact h

/-! ## English -/

theorem en_reached {E : Env} (hE : Sound E) {str t : List Char} (hp : Reached E.uni (enData.lang E.uni) [['t']] str t) :
    Reached E.uni (E.lang enInfo.name) [['t']] str t := by
  rw [show enInfo.name = ['e', 'n'] from rfl, hE.english]; exact hp

theorem en_passed {E : Env} (hE : Sound E) {str t : List Char} (hp : Passed E.uni E.table (enData.lang E.uni) [['t']] str t) :
    Passed E.uni E.table (E.lang enInfo.name) [['t']] str t := ⟨en_reached hE hp.toReached, hp.zone⟩

theorem call_relative (hE : Sound E) (hc : EnglishFirst s c) (hp : Reached E.uni (enData.lang E.uni) [['t']] str t) (dt : DateRes)
    (hdt : relativeParse (popTzOffset E.table) E.big (enCfg c E.now) E.now t = dt) (hz : dt.isZero = false) :
    (E.parse s (some c) str []).2 = .ok { dt with locale := ['e', 'n'] } :=
  locale_relative hE.toSurroundings hc.picks (en_reached hE hp) dt hdt hz

theorem call_absolute (hE : Sound E) (hc : EnglishFirst s c) (hp : Reached E.uni (enData.lang E.uni) [['t']] str t)
    {u : List Char} {tz : Option Tz} (hzone : popTzOffset E.table t = (u, tz)) (hn : noAmount u = true) (ht : u ≠ []) (dt : DateRes)
    (hdt : absoluteParse (enCfg c E.now) E.now E.monthFirst u tz = .ok dt)
    (hz : (applyTimezone (enCfg c E.now) dt tz).isZero = false) :
    (E.parse s (some c) str []).2 = .ok { applyTimezone (enCfg c E.now) dt tz with locale := ['e', 'n'] } :=
  locale_absolute hE.toSurroundings hc.picks (en_reached hE hp) hzone hn ht dt hdt hz

theorem call_yields (hE : Sound E) (hc : EnglishFirst s c) (hp : Passed E.uni E.table (enData.lang E.uni) [['t']] str t)
    (hn : noAmount t = true) (ht : t ≠ []) {p : Period} (hpn : p ≠ .none) {y m d H M S ns : Int} (hv : IsDate y m d) (hcl : IsClock H M S ns) (hy : 2 ≤ y)
    (hdt : absoluteParse (enCfg c E.now) E.now E.monthFirst t none = .ok { period := p, time := goDate y m d H M S ns (baseTime c E.now).loc })
    (hzn : ZonesOk c E.now (wallOf y m d H M S ns)) : ∃ r, Yields E s c str p y m d H M S ns r :=
  locale_yields hE.toSurroundings hc.picks (en_passed hE hp) hn ht hpn hv hcl hy hdt hzn

theorem call_zoned (hE : Sound E) (hc : EnglishFirst s c) (hp : Reached E.uni (enData.lang E.uni) [['t']] str t)
    {u : List Char} {z : Tz} (hzone : popTzOffset E.table t = (u, some z)) (hn : noAmount u = true) (ht : u ≠ []) {p : Period} (hpn : p ≠ .none)
    {y m d H M S ns : Int} (hv : IsDate y m d) (hcl : IsClock H M S ns) (hy : 2 ≤ y)
    (hdt : absoluteParse (enCfg c E.now) E.now E.monthFirst u (some z) = .ok { period := p, time := goDate y m d H M S ns (baseTime c E.now).loc })
    (hnj : (baseTime c E.now).loc.NoJump (wallOf y m d H M S ns)) (hb : SmallOffsets (baseTime c E.now).loc)
    (hz : -86400 ≤ z.offset ∧ z.offset ≤ 86400) :
    (E.parse s (some c) str []).2 = .ok {
      locale := ['e', 'n'], period := p
      time := goDate y m d H M S ns (Loc.fixed z.name z.offset) } :=
  locale_zoned hE.toSurroundings hc.picks (en_reached hE hp) hzone hn ht hpn hv hcl hy hdt hnj hb hz

end Verif.Lemmas
