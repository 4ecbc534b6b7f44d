import Verif.Spec.Sources
import Verif.Lemmas.Runs
import Verif.Props.KnownWords
import Verif.Props.EveryWord
import Verif.Props.RelativeSound
import Verif.Props.Config
import Verif.Props.Timestamp
import Verif.Props.Nospace
import Verif.Spec.Demo
import Verif.Props.Iso
/-! # C64: where a date comes from -/
set_option autoImplicit false
namespace Verif.Props
open Verif.Go Verif.Model Verif.Data Verif.Lemmas Verif.Spec

/-! ## Specification -/

/-- The text begins with a timestamp: digits of a unit's length, to the end or to a period or blank (see C13). -/
def IsStamp (text : List Char) : Prop := ∃ ds tail u, text = ds ++ tail ∧ IsNumeral ds ∧ StampUnit ds.length u ∧ StampEnd tail

/-- … and `T` is the moment it means. -/
def StampOf (text : List Char) (T : Time) : Prop :=
  ∃ ds tail u, text = ds ++ tail ∧ IsNumeral ds ∧ StampUnit ds.length u ∧ StampEnd tail ∧ sinceEpoch T = number ds * u

/-- The same of a negative timestamp: seconds before 1970, and digits after them. -/
def NegativeStampOf (text : List Char) (T : Time) : Prop :=
  ∃ ds frac tail u, text = '-' :: (ds ++ frac ++ tail) ∧ IsNumeral ds ∧ ds.length = 10 ∧ (∀ x ∈ frac, x.isDigit = true) ∧ StampUnit (10 + frac.length) u ∧
    StampEnd tail ∧ sinceEpoch T = -(number ds * 10 ^ 9) + number frac * u

/-- The date `T` is made of the words of the text `t`, all of them: see C62. -/
def DateFrom (c : PCfg) (now : Time) (t : List Char) (T : Time) : Prop :=
  ∃ place, Uses t place ∧ ∀ i j k, place .day = some i → place .month = some j → place .year = some k →
    ∃ dw mw yw d m y, (wordList t)[i]? = some dw ∧ (wordList t)[j]? = some mw ∧ (wordList t)[k]? = some yw ∧ AsDay dw d ∧ AsMonth mw m ∧ AsYear yw y ∧
      MadeOf c.toInternal now y m d yw T

/-- `T` is the date that the digits of the text `t` give in the order of the locale `l`: the first of the library's formats that reads them (see C14).  Without
StrictParsing, and for system years between 2001 and 2999. -/
def DigitsDate (E : Env) (c : PCfg) (l : Name) (t : List Char) (T : Time) : Prop :=
  c.strict = false → "year".toList ∉ c.requiredParts → 2001 ≤ E.now.year ∧ E.now.year ≤ 2999 →
    ∃ i, getLocaleData l = some i ∧ ∀ formats, orderIn l i.dateOrder c ≠ [] → dateTimeFormats (toLower (orderIn l i.dateOrder c)) = some formats →
      ∃ T0, SameReading T0 T ∧ Chosen formats (digitRuns (nsClean t)) { period := .day, time := T0 }

/-! ## The loops -/

theorem typeLoop_source {P : Parts} {cfg : Cfg} {l : LocaleInfo} {str : List Char} {formats : List (List Char)} {dt : DateRes} :
    ∀ {ts : List Nat}, typeLoop P cfg l str formats ts = some dt →
      ∃ k ∈ ts, ∃ d0, tryType P cfg l str formats k = d0 ∧ d0.isZero = false ∧ dt = { d0 with locale := l.name } := by
  intro ts
  induction ts with
  | nil => intro h; simp [typeLoop] at h
  | cons t r ih =>
    intro h
    unfold typeLoop at h
    dsimp only at h
    split at h
    · rename_i hz
      injection h with h
      exact ⟨t, by simp, _, rfl, by simpa using hz, h.symm⟩
    · obtain ⟨k, hk, x⟩ := ih h
      exact ⟨k, List.mem_cons_of_mem _ hk, x⟩

theorem localeLoop_source {P : Parts} {c : PCfg} {cfg : Cfg} {ts : List Nat} {str : List Char} {formats : List (List Char)} {dt : DateRes} {l : LocaleInfo} :
    ∀ {ls : List LocaleInfo}, localeLoop P c cfg ts str formats ls = some (dt, l) → l ∈ ls ∧ typeLoop P (localeCfg c cfg l) l str formats ts = some dt := by
  intro ls
  induction ls with
  | nil => intro h; simp [localeLoop] at h
  | cons a r ih =>
    intro h
    unfold localeLoop at h
    split at h
    · rename_i d hd
      injection h with h
      injection h with h1 h2
      subst h1; subst h2
      exact ⟨by simp, hd⟩
    · exact ⟨List.mem_cons_of_mem _ (ih h).1, (ih h).2⟩

theorem tryRelative_source {P : Parts} {cfg : Cfg} {d : DateRes} (hd : d.isZero = false) : ∀ {ts : List (List Char)}, tryRelative P cfg ts = d →
    ∃ t ∈ ts, P.relative cfg t = d := by
  intro ts
  induction ts with
  | nil => intro h; rw [← h] at hd; simp [tryRelative, DateRes.zero, DateRes.isZero] at hd
  | cons t r ih =>
    intro h
    unfold tryRelative at h
    dsimp only at h
    split at h
    · exact ⟨t, by simp, h⟩
    · obtain ⟨x, hx, e⟩ := ih h
      exact ⟨x, List.mem_cons_of_mem _ hx, e⟩

theorem tryAbsolute_source {P : Parts} {cfg : Cfg} {d : DateRes} (hd : d.isZero = false) : ∀ {ts : List (List Char)}, tryAbsolute P cfg ts = d →
    ∃ t ∈ ts, (stripTz P t).1 ≠ [] ∧ applyTimezone cfg (P.absolute cfg (stripTz P t).1 (stripTz P t).2) (stripTz P t).2 = d := by
  intro ts
  induction ts with
  | nil => intro h; rw [← h] at hd; simp [tryAbsolute, DateRes.zero, DateRes.isZero] at hd
  | cons t r ih =>
    intro h
    unfold tryAbsolute at h
    dsimp only at h
    have rest : tryAbsolute P cfg r = d → ∃ x ∈ t :: r, (stripTz P x).1 ≠ [] ∧
        applyTimezone cfg (P.absolute cfg (stripTz P x).1 (stripTz P x).2) (stripTz P x).2 = d :=
      fun h => (ih h).imp fun x hx => ⟨List.mem_cons_of_mem t hx.1, hx.2⟩
    split at h
    · rename_i hne
      split at h
      · exact ⟨t, by simp, by simpa using hne, h⟩
      · exact rest h
    · exact rest h

theorem tryNospace_source {P : Parts} {cfg : Cfg} {d : DateRes} (hd : d.isZero = false) : ∀ {ts : List (List Char)}, tryNospace P cfg ts = d →
    ∃ t ∈ ts, (stripTz P t).1 ≠ [] ∧ applyTimezone cfg (P.nospace cfg (stripTz P t).1) (stripTz P t).2 = d := by
  intro ts
  induction ts with
  | nil => intro h; rw [← h] at hd; simp [tryNospace, DateRes.zero, DateRes.isZero] at hd
  | cons t r ih =>
    intro h
    unfold tryNospace at h
    dsimp only at h
    have rest : tryNospace P cfg r = d → ∃ x ∈ t :: r, (stripTz P x).1 ≠ [] ∧
        applyTimezone cfg (P.nospace cfg (stripTz P x).1) (stripTz P x).2 = d :=
      fun h => (ih h).imp fun x hx => ⟨List.mem_cons_of_mem t hx.1, hx.2⟩
    split at h
    · rename_i hne
      split at h
      · exact ⟨t, by simp, by simpa using hne, h⟩
      · exact rest h
    · exact rest h

theorem tryCustom_source {P : Parts} {cfg : Cfg} {formats : List (List Char)} {d : DateRes} (hd : d.isZero = false) :
    ∀ {ts : List (List Char)}, tryCustom P cfg formats ts = d → ∃ t ∈ ts, P.formatted cfg t formats = d := by
  intro ts
  induction ts with
  | nil => intro h; rw [← h] at hd; simp [tryCustom, DateRes.zero, DateRes.isZero] at hd
  | cons t r ih =>
    intro h
    unfold tryCustom at h
    dsimp only at h
    split at h
    · exact ⟨t, by simp, h⟩
    · obtain ⟨x, hx, e⟩ := ih h
      exact ⟨x, List.mem_cons_of_mem _ hx, e⟩

theorem loop_reads {cfg : Cfg} {now : Time} {z : Loc} {str : List Char} : ∀ {formats : List (List Char)},
    (formattedLoop cfg now z str formats).isZero = false → ReadByFormat formats str := by
  intro formats
  induction formats with
  | nil => intro h; simp [formattedLoop, DateRes.zero, DateRes.isZero] at h
  | cons f r ih =>
    intro h
    unfold formattedLoop at h
    split at h
    · obtain ⟨g, hg, x⟩ := ih h
      exact ⟨g, List.mem_cons_of_mem _ hg, x⟩
    · rename_i t ht
      exact ⟨f, by simp, z, t, ht⟩

theorem format_reads {E : Env} {cfg : Cfg} {str : List Char} {formats : List (List Char)} (h : (E.parts.formatted cfg str formats).isZero = false) :
    ReadByFormat formats str := loop_reads h

/-! ## The zone -/

theorem applied_reading {cfg : Cfg} {d0 d : DateRes} {tz : Option Tz} (hw : d0.isZero = false → d0.time.WF) (h : applyTimezone cfg d0 tz = d)
    (hd : d.isZero = false) : d0.isZero = false ∧ SameReading d0.time d.time := by
  have hz : d0.isZero = false := by
    cases hz : d0.isZero with
    | false => rfl
    | true =>
      unfold applyTimezone at h
      rw [hz] at h
      simp only [if_true] at h
      rw [← h, hz] at hd; cases hd
  refine ⟨hz, ?_⟩
  have hwf := hw hz
  unfold applyTimezone at h
  rw [hz] at h
  simp only [Bool.false_eq_true, if_false] at h
  have same : ∀ n o, SameReading d0.time (sameClock d0.time (Loc.fixed n o)) := by
    intro n o
    obtain ⟨h1, h2, h3, h4, h5, _⟩ := sameClock_fields d0.time hwf (Loc.fixed_isFixed n o)
    unfold SameReading Time.year Time.month Time.day
    rw [h1]
    exact ⟨rfl, rfl, rfl, h2.symm, h3.symm, h4.symm, h5.symm⟩
  split at h
  · rw [← h]; exact ⟨rfl, rfl, rfl, rfl, rfl, rfl, rfl⟩
  · rw [← h]; exact same _ _
  · rw [← h]; exact same _ _

theorem absolute_wf {cfg : Cfg} {sysNow : Time} {mf : Nat → Bool} {tz : Option Tz} {str : List Char} {r : DateRes}
    (hf : (nowOf cfg sysNow).loc.IsFixed) (hr : absoluteParse cfg sysNow mf str tz = .ok r) : r.time.WF := by
  unfold absoluteParse at hr
  dsimp only at hr
  generalize he : (AEnv.mk gregFns cfg sysNow mf) = e at *
  have hfn : e.fns = gregFns := by rw [← he]
  have hnow : e.now = nowOf cfg sysNow := by rw [← he]; rfl
  cases hi : absInit e str with
  | error f => rw [hi] at hr; cases hr
  | ok s =>
    rw [hi] at hr
    dsimp only at hr
    obtain ⟨H, M, S, ns, p, dt, dt2, hc, hcr, hfr, hres, _⟩ := absParse_ok hr
    rw [hfn] at hcr
    have hl : e.now.loc.IsFixed := by rw [hnow]; exact hf
    have c1 : Clocked e.now.loc H M S ns dt := by
      have : gregCreate e.cfg _ _ _ H M S ns e.now.loc = .ok dt := hcr
      unfold gregCreate at this
      dsimp only at this
      rw [← Except.ok.inj this]
      exact clocked_goDate hl hc.ok _ _ _
    have c2 := clocked_correct (e := e) (s := s) hl hc.ok (clocked_frame hl hc.ok c1 hfr)
    have htime : r.time = correctForDay e s (correctForMonth e s dt2) := by rw [hres]
    rw [← htime] at c2
    have := hc.ok
    unfold Time.WF
    rw [c2.2.2.2.2]
    exact ⟨this.2.2.2.2.2.2.1, this.2.2.2.2.2.2.2⟩

theorem digit_run {s : List Char} (h : nsEligible s = true) : IsDigitRun s := by
  unfold nsEligible at h
  dsimp only at h
  have e := List.takeWhile_append_dropWhile (p := Char.isDigit) (l := s)
  refine ⟨s.takeWhile Char.isDigit, s.dropWhile Char.isDigit, e.symm, fun c hc => mem_takeWhile_true hc, ?_⟩
  have hd := List.head?_dropWhile_not Char.isDigit s
  generalize s.dropWhile Char.isDigit = r at *
  cases r with
  | nil => exact Or.inl rfl
  | cons c r =>
    simp only [List.head?_cons] at hd
    right
    rw [List.takeWhile_cons] at h
    simp only [hd, Bool.not_false, if_true] at h
    simp only [Bool.or_eq_true, decide_eq_true_eq, List.cons.injEq] at h
    rcases h with h | ⟨rfl, h⟩
    · simp at h
    · cases r with
      | nil => exact Or.inl rfl
      | cons d r =>
        right
        refine ⟨d, r, rfl, ?_⟩
        rw [List.takeWhile_cons] at h
        cases hdd : d.isDigit with
        | true => rfl
        | false => rw [hdd] at h; simp at h

theorem nospace_run {cfg : Cfg} {y : Int} {s : List Char} {r : DateRes} (h : nospaceParse cfg y s = .ok r) : IsDigitRun s := by
  apply digit_run
  unfold nospaceParse at h
  cases he : nsEligible s with
  | true => rfl
  | false => rw [he] at h; simp at h

theorem tryType_cases {P : Parts} {cfg : Cfg} {l : LocaleInfo} {str : List Char} {formats : List (List Char)} {k : Nat} {d0 : DateRes}
    (hd : tryType P cfg l str formats k = d0) (hz : d0.isZero = false) :
    (k = 0 ∧ P.timestamp cfg str false = d0) ∨ (k = 1 ∧ P.timestamp cfg str true = d0) ∨ (k = 2 ∧ tryRelative P cfg (P.translate cfg l str false) = d0) ∨
    (k = 3 ∧ tryCustom P cfg formats (P.translate cfg l str true) = d0) ∨ (k = 4 ∧ tryAbsolute P cfg (P.translate cfg l str false) = d0) ∨
    (k = 5 ∧ tryNospace P cfg (P.translate cfg l str false) = d0) := by
  match k, hd with
  | 0, hd => exact Or.inl ⟨rfl, hd⟩
  | 1, hd => exact Or.inr (Or.inl ⟨rfl, hd⟩)
  | 2, hd => exact Or.inr (Or.inr (Or.inl ⟨rfl, hd⟩))
  | 3, hd => exact Or.inr (Or.inr (Or.inr (Or.inl ⟨rfl, hd⟩)))
  | 4, hd => exact Or.inr (Or.inr (Or.inr (Or.inr (Or.inl ⟨rfl, hd⟩))))
  | 5, hd => exact Or.inr (Or.inr (Or.inr (Or.inr (Or.inr ⟨rfl, hd⟩))))
  | n + 6, hd =>
    exfalso
    have : DateRes.zero = d0 := hd
    rw [← this] at hz
    simp [DateRes.zero, DateRes.isZero] at hz

theorem zero_nonzero {f : Fault} {P : Prop} (h : (orZero (.error f)).isZero = false) : P := by
  simp [orZero, DateRes.zero, DateRes.isZero] at h

theorem source_stamp {E : Env} {cfg : Cfg} {str : List Char} {d0 : DateRes} (e : E.parts.timestamp cfg str false = d0) (hz : d0.isZero = false) :
    StampOf str d0.time := by
  rw [parts_stamp] at e
  obtain ⟨ds, tail, u, rfl, h1, h2, h3⟩ := C13_only cfg E.localZone str (by rw [e]; exact hz)
  have := (C13_exact cfg E.localZone ds tail u h1 h2 h3).1
  rw [e] at this
  exact ⟨ds, tail, u, rfl, h1, h2, h3, this⟩

theorem source_negative {E : Env} {cfg : Cfg} {str : List Char} {d0 : DateRes} (e : E.parts.timestamp cfg str true = d0) (hz : d0.isZero = false) :
    NegativeStampOf str d0.time := by
  rw [parts_stamp] at e
  obtain ⟨ds, tail, u, rfl, h1, h2, h3⟩ := C13_negative_only cfg E.localZone str (by rw [e]; exact hz)
  have hl : 10 ≤ ds.length := by generalize ds.length = n at *; cases h2 <;> decide
  have e2 : ds = ds.take 10 ++ ds.drop 10 := (List.take_append_drop 10 ds).symm
  have l1 : (ds.take 10).length = 10 := by rw [List.length_take]; omega
  have l2 : 10 + (ds.drop 10).length = ds.length := by rw [List.length_drop]; omega
  have n1 : IsNumeral (ds.take 10) := ⟨by intro h; rw [h] at l1; simp at l1, fun x hx => h1.2 x (List.mem_of_mem_take hx)⟩
  have d1 : ∀ x ∈ ds.drop 10, x.isDigit = true := fun x hx => h1.2 x (List.mem_of_mem_drop hx)
  have := (C13_negative cfg E.localZone (ds.take 10) (ds.drop 10) tail u n1 l1 d1 (by rw [l2]; exact h2) h3).1
  rw [← e2, e] at this
  exact ⟨ds.take 10, ds.drop 10, tail, u, by rw [← e2], n1, l1, d1, by rw [l2]; exact h2, h3, this⟩

theorem start_eq {E : Env} (hE : Surroundings E) (c : PCfg) (l : LocaleInfo) (tz : Option Tz) : nowIn (cfgIn l c E.now) E.now tz = startOf c E.now tz := by
  unfold nowIn startOf zonedBase
  rw [cfgIn_now, cfgIn_tz, base_notZero hE c]
  cases tz <;> cases c.defaultTz <;> rfl

theorem source_relative {E : Env} (hE : Surroundings E) {c : PCfg} {l : LocaleInfo} {t : List Char} {d0 : DateRes}
    (e : E.parts.relative (cfgIn l c E.now) t = d0) (hz : d0.isZero = false)
    (hp : Spec.Plain (popTzOffset E.table (stripBraces t)).1) : RelativeDate c E.now (popTzOffset E.table (stripBraces t)) d0.time := by
  have hstart := start_eq hE c l (popTzOffset E.table (stripBraces t)).2
  have hsrc : (cfgIn l c E.now).dateSource = c.toInternal.dateSource := rfl
  have hkeep : (cfgIn l c E.now).preserveEndOfMonth = c.preserveEndOfMonth := rfl
  generalize cfgIn l c E.now = cfg at *
  rw [parts_relative] at e
  generalize hq : popTzOffset E.table (stripBraces t) = q at *
  obtain ⟨segs, tail, hm⟩ := mentions_exist q.1
  have key : ¬ (segs = [] ∨ ∃ w, IsWordOf (sanitizeSpaces q.1) w ∧ ¬ RelWord w) := by
    intro hh
    rw [C61_refuses (popTzOffset E.table) E.big cfg E.now t q.1 q.2 (by rw [hq]) hp segs tail hm hh] at e
    rw [← e] at hz
    simp [DateRes.isZero] at hz
  have hne : segs ≠ [] := fun hs => key (Or.inl hs)
  have hw : ∀ w, IsWordOf (sanitizeSpaces q.1) w → RelWord w :=
    fun w hw => Classical.byContradiction fun hn => key (Or.inr ⟨w, hw, hn⟩)
  refine ⟨segs, tail, hm, hne, hw, fun hr sg hd => ⟨fun hnd => ?_, ?_⟩⟩
  · have := C61_exact (popTzOffset E.table) E.big cfg E.now t q.1 q.2 (by rw [hq]) hp segs tail hm hne hw hr hnd sg (by rw [hsrc]; exact hd)
    rw [← e, this, ← hstart, ← hkeep]
  · have := C61_date (popTzOffset E.table) E.big cfg E.now t q.1 q.2 (by rw [hq]) hp segs tail hm hne hw hr sg (by rw [hsrc]; exact hd) _ rfl
    rw [e, hstart, hkeep] at this
    exact this

theorem relative_words {c : PCfg} {now : Time} {t : List Char × Option Tz} {T : Time} (h : RelativeDate c now t T) : IsRelative t.1 := by
  obtain ⟨segs, tail, hm, hne, hw, _⟩ := h
  exact ⟨segs, tail, hm, hne, hw⟩

theorem source_absolute {E : Env} (hE : Surroundings E) {c : PCfg} (hf : (baseTime c E.now).loc.IsFixed) {l : LocaleInfo} {q : List Char × Option Tz} {d0 : DateRes}
    (e : applyTimezone (cfgIn l c E.now) (E.parts.absolute (cfgIn l c E.now) q.1 q.2) q.2 = d0) (hz : d0.isZero = false) :
    ∃ T, SameReading T d0.time ∧ DateFrom c (baseTime c E.now) q.1 T ∧ ClockFrom q.1 T := by
  have hnow : nowOf (cfgIn l c E.now) E.now = baseTime c E.now := by
    unfold nowOf
    rw [cfgIn_now, base_notZero hE c]
    rfl
  have hsrc : (cfgIn l c E.now).dateSource = c.toInternal.dateSource := rfl
  generalize cfgIn l c E.now = cfg at *
  rw [parts_absolute] at e
  have hf' : (nowOf cfg E.now).loc.IsFixed := by rw [hnow]; exact hf
  cases ha : absoluteParse cfg E.now E.monthFirst q.1 q.2 with
  | error f =>
    rw [ha] at e
    exact zero_nonzero (applied_reading (d0 := orZero (.error f)) (fun hh => zero_nonzero hh) e hz).1
  | ok r0 =>
    rw [ha] at e
    obtain ⟨_, hsame⟩ := applied_reading (d0 := orZero (.ok r0)) (fun _ => absolute_wf hf' ha) e hz
    refine ⟨r0.time, hsame, ?_, ?_⟩
    · obtain ⟨place, hu, hm⟩ := C62_words _ _ _ _ _ _ hf' ha
      rw [hnow] at hm
      refine ⟨place, hu, fun i j k h1 h2 h3 => ?_⟩
      obtain ⟨dw, mw, yw, d, m, y, a1, a2, a3, a4, a5, a6, a7⟩ := hm i j k h1 h2 h3
      refine ⟨dw, mw, yw, d, m, y, a1, a2, a3, a4, a5, a6, ?_⟩
      unfold MadeOf at a7 ⊢
      rw [← hsrc]
      exact a7
    · obtain ⟨_, hc⟩ := C60_clock _ _ _ _ _ _ hf' ha
      rcases hc with ⟨i, x, cl, a, b, d, _⟩ | hc
      · exact Or.inl ⟨i, x, cl, a, b, d⟩
      · exact Or.inr hc

theorem parts_nospace {E : Env} {cfg : Cfg} {str : List Char} : E.parts.nospace cfg str = orZero (nospaceParse cfg E.now.year str) := rfl

theorem source_nospace {E : Env} {cfg : Cfg} {q : List Char × Option Tz} {d0 : DateRes}
    (e : applyTimezone cfg (E.parts.nospace cfg q.1) q.2 = d0) (hz : d0.isZero = false) : IsDigitRun q.1 := by
  rw [parts_nospace] at e
  cases ha : nospaceParse cfg E.now.year q.1 with
  | ok r0 => exact nospace_run ha
  | error f =>
    rw [ha] at e
    have hz0 : (orZero (.error f)).isZero = true := rfl
    have : applyTimezone cfg (orZero (.error f)) q.2 = orZero (.error f) := by unfold applyTimezone; rw [hz0]; rfl
    rw [this] at e
    rw [← e] at hz
    exact zero_nonzero hz

theorem source_digits {E : Env} {c : PCfg} {l : LocaleInfo} (hl : Known l) {q : List Char × Option Tz} {d0 : DateRes}
    (e : applyTimezone (cfgIn l c E.now) (E.parts.nospace (cfgIn l c E.now) q.1) q.2 = d0) (hz : d0.isZero = false) : DigitsDate E c l.name q.1 d0.time := by
  intro h1 h2 h3
  obtain ⟨n, hn⟩ := hl
  refine ⟨l, by rw [getLocaleData_name hn]; exact hn, fun formats ho hfm => ?_⟩
  have hord := cfgIn_order l c E.now
  have hc : YearNotRequired (cfgIn l c E.now) := ⟨h1, h2⟩
  generalize cfgIn l c E.now = cfg at *
  rw [← hord] at ho hfm
  rw [parts_nospace] at e
  rcases C14_readings cfg hc E.now.year h3 q.1 formats ho hfm with ⟨r0, hr, hch⟩ | ⟨hr, _⟩
  · rw [hr] at e
    obtain ⟨before, ds, after, earlier, f, later, parts, st, a1, a2, a3, a4, a5, a6, hsh, a7, a8⟩ := hch
    have hwf : r0.time.WF := by unfold Time.WF; rw [hsh.nanosecond]; decide
    obtain ⟨_, hsame⟩ := applied_reading (d0 := orZero (.ok r0)) (fun _ => hwf) e hz
    exact ⟨r0.time, hsame, before, ds, after, earlier, f, later, parts, st, a1, a2, a3, a4, a5, a6, hsh, a7, rfl⟩
  · rw [hr] at e
    exact zero_nonzero (applied_reading (d0 := orZero (.error .error)) (fun hh => zero_nonzero hh) e hz).1

/-- The locale and the parser a date comes from. -/
theorem result_source {E : Env} {s : ParserSt} {c : PCfg} {text : List Char} {formats : List (List Char)} {r : DateRes}
    (h : (E.parse s (some c) text formats).2 = .ok r) : ReadByFormat formats text ∨
    ∃ (k : Nat) (l : LocaleInfo) (d0 : DateRes), (KnownState s → Known l) ∧ (∀ q : Kind, q.code = k → Listed s q) ∧ tryType E.parts (cfgIn l c E.now) l (E.parts.sanitize text) formats k = d0 ∧
      d0.isZero = false ∧ r = { d0 with locale := l.name } := by
  unfold Env.parse Model.parse at h
  split at h
  · cases h
  · have hlist : ∀ k ∈ (if s.types.isEmpty then { s with types := defaultTypes } else s).types, ∀ q : Kind, q.code = k → Listed s q := by
      intro k hk q hq
      split at hk
      · rename_i he
        exact Or.inl (by simpa using he)
      · exact Or.inr (hq ▸ hk)
    have hst : KnownState s → KnownState (if s.types.isEmpty then { s with types := defaultTypes } else s) := by
      intro hs; split <;> exact hs
    generalize (if s.types.isEmpty then { s with types := defaultTypes } else s) = s' at h hlist hst
    unfold parseWithTypes at h
    split at h
    · cases h
    · dsimp only at h
      split at h
      · rename_i hz
        exact Or.inl (format_reads (by simpa using hz))
      · right
        split at h
        · cases h
        · rename_i ls hg
          split at h
          · rename_i dt l hloop
            cases h
            obtain ⟨k, hk, d0, hd, hz, hr⟩ := typeLoop_source (localeLoop_source hloop).2
            exact ⟨k, l, d0, fun hs => getApplicable_known (hst hs) hg l (localeLoop_source hloop).1, hlist k hk, hd, hz, hr⟩
          · cases h

/-! ## The property -/

/-- What a date `r` read from `text` comes from: the cleaned text is its timestamp; or a locale's translation of it is, without its time zone, made of
the words of this relative date, or it has all words of the date and its time of day, or it is a run of digits.  Only kinds of parsers the user listed count. -/
def Accounted (E : Env) (s : ParserSt) (c : PCfg) (text : List Char) (r : DateRes) : Prop :=
  (Listed s .timestamp ∧ StampOf (sanitizeDate E.uni text) r.time) ∨
  (Listed s .negativeTimestamp ∧ NegativeStampOf (sanitizeDate E.uni text) r.time) ∨
  ∃ t ∈ translations E c r.locale text,
    (Listed s .relativeTime ∧ (Spec.Plain t.1 → RelativeDate c E.now t r.time)) ∨
    (Listed s .absoluteTime ∧ t.1 ≠ [] ∧ ∃ T, SameReading T r.time ∧ DateFrom c (baseTime c E.now) t.1 T ∧ ClockFrom t.1 T) ∨
    (Listed s .noSpacesTime ∧ t.1 ≠ [] ∧ IsDigitRun t.1 ∧ (KnownState s → DigitsDate E c r.locale t.1 r.time))

/-- **C64.** A date comes from the text: one of the caller's formats reads the text itself, or, if the user lists this kind, a translation of the cleaned
text into which formatting is kept; or it is accounted for without formats. -/
theorem C64_any_formats (E : Env) (hE : Surroundings E) (s : ParserSt) (c : PCfg) (hf : (baseTime c E.now).loc.IsFixed) (text : List Char)
    (formats : List (List Char)) (r : DateRes) (h : (E.parse s (some c) text formats).2 = .ok r) :
    ReadByFormat formats text ∨ (Listed s .customFormat ∧ ∃ t ∈ keptTranslations E c r.locale text, ReadByFormat formats t) ∨ Accounted E s c text r := by
  rcases result_source h with h | ⟨k, l, d0, hkn, hlist, hd, hz, rfl⟩
  · exact Or.inl h
  right
  have htr : ∀ t, t ∈ E.parts.translate (cfgIn l c E.now) l (E.parts.sanitize text) false → popTzOffset E.table (stripBraces t) ∈ translations E c l.name text := by
    intro t ht
    have hs : (cfgIn l c E.now).skipTokens = skipWords c := skip_words c E.now
    rw [parts_translate, hs, parts_sanitize] at ht
    exact List.mem_map.mpr ⟨t, ht, rfl⟩
  unfold Accounted
  dsimp only
  rcases tryType_cases hd hz with ⟨hk, e⟩ | ⟨hk, e⟩ | ⟨hk, e⟩ | ⟨hk, e⟩ | ⟨hk, e⟩ | ⟨hk, e⟩
  · right; left
    rw [parts_sanitize] at e
    exact ⟨hlist .timestamp hk.symm, source_stamp e hz⟩
  · right; right; left
    rw [parts_sanitize] at e
    exact ⟨hlist .negativeTimestamp hk.symm, source_negative e hz⟩
  · right; right; right
    obtain ⟨t, ht, e⟩ := tryRelative_source hz e
    exact ⟨_, htr t ht, Or.inl ⟨hlist .relativeTime hk.symm, source_relative hE e hz⟩⟩
  · left
    obtain ⟨t, ht, e⟩ := tryCustom_source hz e
    refine ⟨hlist .customFormat hk.symm, t, ?_, format_reads (by rw [e]; exact hz)⟩
    have hs : (cfgIn l c E.now).skipTokens = skipWords c := skip_words c E.now
    rw [parts_translate, hs, parts_sanitize] at ht
    exact ht
  · right; right; right
    obtain ⟨t, ht, hne, e⟩ := tryAbsolute_source hz e
    rw [parts_strip] at hne e
    exact ⟨_, htr t ht, Or.inr (Or.inl ⟨hlist .absoluteTime hk.symm, hne, source_absolute hE hf e hz⟩)⟩
  · right; right; right
    obtain ⟨t, ht, hne, e⟩ := tryNospace_source hz e
    rw [parts_strip] at hne e
    exact ⟨_, htr t ht, Or.inr (Or.inr ⟨hlist .noSpacesTime hk.symm, hne, source_nospace e hz, fun hs => source_digits (hkn hs) e hz⟩)⟩

theorem no_format {t : List Char} : ¬ ReadByFormat [] t := by rintro ⟨_, h, _⟩; cases h

/-- **C64.** Without formats, every date is accounted for. -/
theorem C64_sources (E : Env) (hE : Surroundings E) (s : ParserSt) (c : PCfg) (hf : (baseTime c E.now).loc.IsFixed) (text : List Char) (r : DateRes)
    (h : (E.parse s (some c) text []).2 = .ok r) : Accounted E s c text r := by
  rcases C64_any_formats E hE s c hf text [] r h with h | ⟨_, t, _, h⟩ | h
  · exact absurd h no_format
  · exact absurd h no_format
  · exact h

/-- **C64, one parser.** A parser that lists timestamps only reads timestamps only. -/
theorem C64_timestamps_only (E : Env) (hE : Surroundings E) (s : ParserSt) (hs : s.types = [Kind.timestamp.code]) (c : PCfg)
    (hf : (baseTime c E.now).loc.IsFixed) (text : List Char) (r : DateRes) (h : (E.parse s (some c) text []).2 = .ok r) :
    StampOf (sanitizeDate E.uni text) r.time := by
  have no : ∀ k : Kind, k ≠ .timestamp → ¬ Listed s k := by
    intro k hk hl
    unfold Listed at hl
    rw [hs] at hl
    cases k <;> simp [Kind.code] at hl hk
  rcases C64_sources E hE s c hf text r h with ⟨_, h⟩ | ⟨h, _⟩ | ⟨t, _, ⟨h, _⟩ | ⟨h, _⟩ | ⟨h, _⟩⟩
  · exact h
  all_goals exact absurd h (no _ (by decide))

/-- No use for the `i`-th word `w` of the text in a date: see C62. -/
def NoUse (t : List Char) (i : Nat) (w : List Char) : Prop :=
  ¬ IsSkippedWord w ∧ (∀ j x used, ClockOf t j x used → i ∉ used) ∧ (∀ d, ¬ AsDay w d) ∧ (∀ m, ¬ AsMonth w m) ∧ (∀ y, ¬ AsYear w y) ∧ ∀ n, ¬ IsWeekdayName w n

theorem no_date {c : PCfg} {now : Time} {t : List Char} {T : Time} {i : Nat} {w : List Char} (hw : (wordList t)[i]? = some w) (hn : NoUse t i w) :
    ¬ DateFrom c now t T := by
  rintro ⟨place, u, _⟩
  obtain ⟨h1, h2, h3, h4, h5, h6⟩ := hn
  rcases u.all i w hw with a | ⟨j, x, used, a, b⟩ | ⟨q, a⟩
  · exact h1 a
  · exact h2 j x used a b
  · obtain ⟨w', e, fit⟩ := u.fits q i a
    rw [hw] at e; cases e
    cases q with
    | day => exact h3 _ fit.choose_spec
    | month => exact h4 _ fit.choose_spec
    | year => exact h5 _ fit.choose_spec
    | weekday => exact h6 _ fit.choose_spec
    | formerYear => exact h5 _ (Or.inr ⟨fit, rfl⟩)
    | formerDay => exact h3 _ fit.choose_spec

/-- A locale makes nothing of the text: its translations are no relative dates and no digit runs, and have a word that is of no use in a date. -/
def SaysNothing (E : Env) (c : PCfg) (l : Name) (text : List Char) : Prop :=
  ∀ t ∈ translations E c l text, Spec.Plain t.1 ∧ ¬ IsRelative t.1 ∧ ¬ IsDigitRun t.1 ∧ ∃ i w, (wordList t.1)[i]? = some w ∧ NoUse t.1 i w

/-- **C64, refused.** What is no timestamp and says nothing in a locale is not read in that locale. -/
theorem C64_refuses (E : Env) (hE : Surroundings E) (s : ParserSt) (c : PCfg) (hf : (baseTime c E.now).loc.IsFixed) (text : List Char)
    (h1 : ¬ IsStamp (sanitizeDate E.uni text)) (h2 : ∀ n, sanitizeDate E.uni text = '-' :: n → ¬ IsStamp n) (l : Name)
    (h3 : SaysNothing E c l text) (r : DateRes) (h : (E.parse s (some c) text []).2 = .ok r) : r.locale ≠ l := by
  intro e
  rcases C64_sources E hE s c hf text r h with ⟨_, h⟩ | ⟨_, h⟩ | ⟨t, ht, h⟩
  · obtain ⟨ds, tail, u, a, b, d, f, _⟩ := h
    exact h1 ⟨ds, tail, u, a, b, d, f⟩
  · obtain ⟨ds, frac, tail, u, a, b, hl, d, f, g, _⟩ := h
    refine h2 _ a ⟨ds ++ frac, tail, u, rfl, ⟨by intro hh; exact b.1 (List.append_eq_nil_iff.mp hh).1, fun x hx => ?_⟩, ?_, g⟩
    · exact (List.mem_append.mp hx).elim (b.2 x) (d x)
    · rw [List.length_append, hl]; exact f
  · rw [e] at ht
    obtain ⟨p1, p2, p3, i, w, p4, p5⟩ := h3 t ht
    rcases h with ⟨_, h⟩ | ⟨_, _, T, _, h, _⟩ | ⟨_, _, h, _⟩
    · exact p2 (relative_words (h p1))
    · exact no_date p4 p5 h
    · exact p3 h

/-- **C64, refused everywhere.** What is no timestamp and says nothing in any locale of the library is an error. -/
theorem C64_refuses_all (E : Env) (hE : Surroundings E) (s : ParserSt) (hs : KnownState s) (c : PCfg) (hf : (baseTime c E.now).loc.IsFixed) (text : List Char)
    (h1 : ¬ IsStamp (sanitizeDate E.uni text)) (h2 : ∀ n, sanitizeDate E.uni text = '-' :: n → ¬ IsStamp n)
    (h3 : ∀ l : LocaleInfo, Known l → SaysNothing E c l.name text) : ∃ e, (E.parse s (some c) text []).2 = .error e := by
  cases h : (E.parse s (some c) text []).2 with
  | error e => exact ⟨e, rfl⟩
  | ok r =>
    exfalso
    rcases result_source h with h' | ⟨k, l, d0, hk, _, _, _, e⟩
    · exact no_format h'
    exact C64_refuses E hE s c hf text h1 h2 l.name (h3 l (hk hs)) r h (by rw [e])

/-! ## Cases -/

theorem orSo_translations (l : Name) : translations demoEnv {} l "12 May 2015 or so".toList = [("12 may 2015  or so".toList, none)] := by
  show translations demoEnv {} [] "12 May 2015 or so".toList = _
  decide +kernel

/-- "or" is of no use in a date. -/
theorem orSo_nothing (l : Name) : SaysNothing demoEnv {} l "12 May 2015 or so".toList := by
  intro t ht
  rw [orSo_translations, List.mem_singleton] at ht
  subst ht
  have hp : Spec.Plain "12 may 2015  or so".toList := by unfold Spec.Plain; decide +kernel
  have nn : ¬ IsNumeral "or".toList := by decide +kernel
  refine ⟨hp, ?_, ?_, 3, "or".toList, by decide +kernel, by decide +kernel, ?_, ?_, ?_, ?_, ?_⟩
  · rintro ⟨_, _, _, _, h⟩
    have := (words_iff hp).mpr h
    exact absurd this (by decide +kernel)
  · rintro ⟨ds, rest, e, hd, h⟩
    have e' : ['1', '2', ' ', 'm', 'a', 'y', ' ', '2', '0', '1', '5', ' ', ' ', 'o', 'r', ' ', 's', 'o'] = ds ++ rest := e
    match ds, e', hd with
    | [], e', _ => rcases h with rfl | rfl | ⟨_, _, rfl, _⟩ <;> simp at e'
    | [_], e', _ => rcases h with rfl | rfl | ⟨_, _, rfl, _⟩ <;> simp at e'
    | [_, _], e', _ => rcases h with rfl | rfl | ⟨_, _, rfl, _⟩ <;> simp at e'
    | _ :: _ :: x :: _, e', hd =>
      have : x = ' ' := by simp at e'; exact e'.2.2.1.symm
      subst this
      exact absurd (hd ' ' (by simp)) (by decide)
  · exact fun j t used h => absurd (clockOf_at h) (no_clock (by decide) (by decide) (no_meridian (by decide +kernel)) j t)
  · exact fun d h => nn h.1.1
  · rintro m (h | h)
    · exact nn h.1.1
    · have : ∀ x ∈ monthNames, x.1 ≠ "or".toList := by decide +kernel
      exact this _ h rfl
  · rintro y (h | h)
    · exact nn h.1.1
    · exact nn h.1.1
  · intro n h
    have : ∀ x ∈ weekdays, x.1 ≠ "or".toList := by decide +kernel
    exact this _ h rfl

theorem orSo_noStamp : ¬ IsStamp "12 May 2015 or so".toList := by
  rintro ⟨ds, tail, u, e, hn, hu, _⟩
  have ge : ∀ {n : Nat} {u : Int}, StampUnit n u → 2 < n := by intro n u h; cases h <;> decide
  have hl := ge hu
  have h : (ds ++ tail)[2]? = some ' ' := by rw [← e]; decide
  rw [List.getElem?_append_left hl] at h
  exact absurd (hn.2 _ (List.mem_of_getElem? h)) (by decide)

/-- "12 May 2015 or so" is an error, whatever locale is asked. -/
example : ∃ e, (demoEnv.parse {} (some {}) "12 May 2015 or so".toList []).2 = .error e := by
  have hs : sanitizeDate demoEnv.uni "12 May 2015 or so".toList = "12 May 2015 or so".toList := by decide +kernel
  refine C64_refuses_all demoEnv demo_sound.toSurroundings {} (fun l hl => by cases hl) {} Loc.utc_isFixed _ ?_ ?_ (fun l _ => orSo_nothing l.name)
  · rw [hs]; exact orSo_noStamp
  · intro n e
    rw [hs] at e
    exact absurd (congrArg List.head? e) (by show ¬ (some '1' = some '-'); decide)

/-- The hypotheses of `C64_sources` are met. -/
example : ∃ r, (demoEnv.parse {} (some {}) ((IsoStamp.of (goDate 2015 3 5 10 11 12 0 Loc.utc) false).write 'T' ++ ['Z']) []).2 = .ok r ∧
    (baseTime {} demoEnv.now).loc.IsFixed ∧ Surroundings demoEnv := by
  obtain ⟨r, h, _⟩ := C45_roundtrip_utc demo_sound demo_first demo_month_first demo_fixed.1 demo_fixed.2 (goDate 2015 3 5 10 11 12 0 Loc.utc) (goDate_wf ..)
    (by decide +kernel) (by decide +kernel) rfl false
  exact ⟨r, h, Loc.utc_isFixed, demo_sound.toSurroundings⟩

/-- A parser that lists timestamps only, and a timestamp. -/
example : ∃ r, (demoEnv.parse { types := [Kind.timestamp.code] } (some { locales := ["en".toList] }) "1700000000".toList []).2 = .ok r ∧ r.time.sec = 1700000000 ∧
    (baseTime { locales := ["en".toList] } demoEnv.now).loc.IsFixed := by
  have key : ((demoEnv.parse { types := [Kind.timestamp.code] } (some { locales := ["en".toList] }) "1700000000".toList []).2.toOption.map fun r => r.time.sec) =
    some 1700000000 := by decide +kernel
  cases h : (demoEnv.parse { types := [Kind.timestamp.code] } (some { locales := ["en".toList] }) "1700000000".toList []).2 with
  | error e => rw [h] at key; simp [Except.toOption] at key
  | ok r =>
    rw [h] at key
    exact ⟨r, rfl, by simpa [Except.toOption] using key, Loc.utc_isFixed⟩

end Verif.Props
