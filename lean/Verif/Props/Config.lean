import Verif.Props.Parser
import Verif.Model.Common
import Verif.Model.Absolute
/-! # C21 attached time zones, C26 what configurations are accepted -/
set_option autoImplicit false
namespace Verif.Props
open Verif.Go Verif.Model Verif.Spec Verif.Data Verif.Lemmas

/-! ## C26 -/

/-- One of the words day, month, year, in any letter case. -/
def IsPartWord (p : List Char) : Prop := toLower p ∈ ["day".toList, "month".toList, "year".toList]
instance (p : List Char) : Decidable (IsPartWord p) := by unfold IsPartWord; infer_instance

/-- The preferences have one of their three values. -/
def PrefsOK (c : PCfg) : Prop := c.dayOfMonth ≤ 2 ∧ c.monthOfYear ≤ 2 ∧ c.dateSource ≤ 2

/-- **C26, as it is.** A configuration is accepted exactly if its preferences are in range and **no** required part is
one of day, month, year. -/
theorem C26_accepted (c : PCfg) : c.validate = .ok () ↔ PrefsOK c ∧ ∀ p ∈ c.requiredParts, ¬ IsPartWord p := by
  have e1 : "day".toList = ['d','a','y'] := by decide
  have e2 : "month".toList = ['m','o','n','t','h'] := by decide
  have e3 : "year".toList = ['y','e','a','r'] := by decide
  unfold PCfg.validate PrefsOK IsPartWord
  rw [e1, e2, e3]
  by_cases h1 : c.dayOfMonth > 2
  · rw [if_pos h1]; simp; omega
  rw [if_neg h1]
  by_cases h2 : c.monthOfYear > 2
  · rw [if_pos h2]; simp; omega
  rw [if_neg h2]
  by_cases h3 : c.dateSource > 2
  · rw [if_pos h3]; simp; omega
  rw [if_neg h3]
  split
  · rename_i p hp
    have h4 := List.mem_of_find?_eq_some hp
    have h5 := List.find?_some hp
    simp only [Bool.or_eq_true, beq_iff_eq] at h5
    constructor
    · intro h; simp at h
    · rintro ⟨_, h⟩
      exfalso
      apply h p h4
      simp only [List.mem_cons, List.not_mem_nil, or_false]
      rcases h5 with (h5 | h5) | h5 <;> simp [h5]
  · rename_i hp
    rw [List.find?_eq_none] at hp
    refine ⟨fun _ => ⟨by omega, ?_⟩, fun _ => rfl⟩
    intro p h
    have := hp p h
    simp only [Bool.or_eq_true, beq_iff_eq] at this
    simp only [List.mem_cons, List.not_mem_nil, or_false]
    intro e
    apply this
    rcases e with e | e | e <;> simp [e]

/-- **C26 fails.** Asking for the day, month or year – as documented – makes every call fail with a configuration
error, whatever the string. -/
theorem C26_required_parts_refused (P : Parts) (detect : Option (List Char → List Name)) (kinds : List Kind)
    (before : List Call) (c : Call) (p : List Char) (hp : p ∈ c.cfg.requiredParts) (hw : IsPartWord p) :
    ∃ e, (parse P c.now (afterCalls P (newParser detect (kinds.map Kind.code)) before) (some c.cfg) c.str c.formats).2 =
      .error (.config e) := by
  rw [parse_eq (afterCalls_inv before (Inv.new detect kinds)).find_none]
  unfold parseWithTypes
  rw [show ((some c.cfg).getD {}).initiate c.now = c.cfg.initiate c.now from rfl]
  cases hv : (c.cfg.initiate c.now).validate with
  | error e => exact ⟨e, rfl⟩
  | ok u =>
    exfalso
    exact ((C26_accepted (c.cfg.initiate c.now)).mp hv).2 p hp hw

example : IsPartWord "Day".toList := by decide

/-- **C26, consequence.** With an accepted configuration RequiredParts has no effect: what is refused is refused
because of StrictParsing. -/
theorem C26_required_parts_useless (c : PCfg) (hv : c.validate = .ok ()) (missing : List Comp)
    (hm : ∀ x ∈ missing, x = .day ∨ x = .month ∨ x = .year) :
    checkStrictParsing c.toInternal (missing.map Comp.name) = !(c.strict && !missing.isEmpty) := by
  have hr := ((C26_accepted c).mp hv).2
  have h1 : c.toInternal.requiredParts = c.requiredParts := rfl
  have h2 : c.toInternal.strict = c.strict := rfl
  unfold checkStrictParsing
  rw [h1, h2]
  have hall : (c.requiredParts.all fun p => !(missing.map Comp.name).contains p) = true := by
    rw [List.all_eq_true]
    intro p hp
    have : p ∉ missing.map Comp.name := by
      intro hm'
      rw [List.mem_map] at hm'
      obtain ⟨x, hx, rfl⟩ := hm'
      apply hr _ hp
      unfold IsPartWord
      rcases hm x hx with rfl | rfl | rfl <;> decide
    simpa using this
  rw [hall]
  cases c.strict <;> cases missing <;> simp

/-- **C26, ranges (the part that holds).** Without RequiredParts a configuration is accepted exactly if the three
preferences have one of their values. -/
theorem C26_ranges_partial (c : PCfg) (h : c.requiredParts = []) : c.validate = .ok () ↔ PrefsOK c := by
  rw [C26_accepted, h]; simp

/-- **C26, date order.** The caller's date order is used for a locale exactly if it is an arrangement of D, M, Y in any
letter case – then in upper case; else the locale's own order is. -/
theorem C26_date_order (c : PCfg) (f : Name → List Char) (hf : c.dateOrder = some f) (l : LocaleInfo) :
    ((toUpper (f l.name)).Perm "DMY".toList → (localeCfg c c.toInternal l).dateOrder = toUpper (f l.name)) ∧
    (¬ (toUpper (f l.name)).Perm "DMY".toList → (localeCfg c c.toInternal l).dateOrder = l.dateOrder) := by
  rw [localeCfg_eq]
  unfold configFor
  dsimp only
  rw [hf]
  dsimp only
  constructor
  · intro h; rw [if_pos h]
  · intro h; rw [if_neg h]

/-- Nothing else changes from locale to locale. -/
theorem C26_rest_of_config (c : PCfg) (l : LocaleInfo) :
    { localeCfg c c.toInternal l with dateOrder := [] } = { c.toInternal with dateOrder := [] } := rfl

/-! ## C21 -/

theorem sameClock_fields (t : Time) (hw : t.WF) {l : Loc} (hl : l.IsFixed) :
    (sameClock t l).civil = t.civil ∧ (sameClock t l).hour = t.hour ∧ (sameClock t l).minute = t.minute ∧
    (sameClock t l).second = t.second ∧ (sameClock t l).nsec = t.nsec ∧ (sameClock t l).loc = l := by
  have hc := t.clockOK hw
  have hv := t.civil_valid
  have hj := hl.noJump (wallOf t.year t.month t.day t.hour t.minute t.second t.nsec)
  have h1 := goDate_civil (l := l) hc hv hj
  have h2 := goDate_fields (l := l) hc hj
  exact ⟨h1, h2.2.1, h2.2.2.1, h2.2.2.2.1, h2.2.2.2.2, rfl⟩

/-- **C21, zone named in the string.** The date keeps its day and clock and gets the offset of the zone; period and
locale stay. -/
theorem C21_named_zone (cfg : Cfg) (dt : DateRes) (z : Tz) (hz : dt.isZero = false) (hw : dt.time.WF) :
    let r := applyTimezone cfg dt (some z)
    r.time.civil = dt.time.civil ∧ r.time.hour = dt.time.hour ∧ r.time.minute = dt.time.minute ∧
    r.time.second = dt.time.second ∧ r.time.nsec = dt.time.nsec ∧ r.time.loc = Loc.fixed z.name z.offset ∧
    r.time.sec = dt.time.wall - z.offset ∧
    r.period = dt.period ∧ r.locale = dt.locale := by
  unfold applyTimezone
  rw [hz]
  simp only [Bool.false_eq_true, if_false]
  have h := sameClock_fields dt.time hw (Loc.fixed_isFixed z.name z.offset)
  refine ⟨h.1, h.2.1, h.2.2.1, h.2.2.2.1, h.2.2.2.2.1, h.2.2.2.2.2, ?_, trivial, trivial⟩
  have e1 := (sameClock dt.time (Loc.fixed z.name z.offset)).wall_eq
  have e2 := dt.time.wall_eq
  have h1 := h.1
  unfold Time.year Time.month Time.day at e1 e2
  rw [h1, h.2.1, h.2.2.1, h.2.2.2.1, ← e2] at e1
  have : (sameClock dt.time (Loc.fixed z.name z.offset)).wall =
      (sameClock dt.time (Loc.fixed z.name z.offset)).sec + z.offset := rfl
  omega

/-- **C21, default time zone.** Without a zone in the string the date keeps its day and clock, and the offset is the one
the default zone has when its clock shows this – for zones of one offset; without default zone nothing changes. -/
theorem C21_default_zone (cfg : Cfg) (dt : DateRes) (l : Loc) (hl : cfg.defaultTz = some l) (hf : l.IsFixed)
    (hz : dt.isZero = false) (hw : dt.time.WF) :
    let r := applyTimezone cfg dt none
    r.time.civil = dt.time.civil ∧ r.time.hour = dt.time.hour ∧ r.time.minute = dt.time.minute ∧
    r.time.second = dt.time.second ∧ r.time.nsec = dt.time.nsec ∧ r.time.loc.IsFixed ∧
    r.time.sec = dt.time.wall - l.off r.time.sec ∧
    r.period = dt.period ∧ r.locale = dt.locale := by
  have h := C21_named_zone { cfg with defaultTz := none } dt ⟨l.name, l.off dt.time.sec⟩ hz hw
  have e : applyTimezone cfg dt none =
      applyTimezone { cfg with defaultTz := none } dt (some ⟨l.name, l.off dt.time.sec⟩) := by
    unfold applyTimezone; rw [hz, hl]
  dsimp only at h ⊢
  rw [e]
  refine ⟨h.1, h.2.1, h.2.2.1, h.2.2.2.1, h.2.2.2.2.1, ?_, ?_, h.2.2.2.2.2.2.2.1, h.2.2.2.2.2.2.2.2⟩
  · rw [h.2.2.2.2.2.1]; exact Loc.fixed_isFixed _ _
  · rw [h.2.2.2.2.2.2.1]
    have := hf dt.time.sec (dt.time.wall - l.off dt.time.sec)
    omega

/-- **C21, no zone at all.** -/
theorem C21_no_zone (cfg : Cfg) (dt : DateRes) (hl : cfg.defaultTz = none) : applyTimezone cfg dt none = dt := by
  unfold applyTimezone; rw [hl]; split <;> rfl

/-- A zone that changes from +0 to +1 h at the epoch. -/
def jumpZone : Loc := { name := "X", off := fun t => if t < 0 then 0 else 3600 }

/-- 1970-01-01 00:30:00 UTC, -/
def halfPast : DateRes := { period := .day, time := ⟨1800, 0, Loc.fixed "A" (-3600)⟩ }

/-- **C21 fails for zones with several offsets.** 23:30 on 31 December 1969 as read from a string (current time in a
zone at −1 h), default zone `jumpZone`: the offset given is +1 h, though in this zone the clock showed 23:30 at +0. -/
theorem C21_wrong_offset :
    (applyTimezone { defaultTz := some jumpZone } halfPast none).time.sec = -5400 ∧
    (goDate 1969 12 31 23 30 0 0 jumpZone).sec = -1800 ∧
    (goDate 1969 12 31 23 30 0 0 jumpZone).wall = (applyTimezone { defaultTz := some jumpZone } halfPast none).time.wall ∧
    jumpZone.off (-5400) = 0 := by
  refine ⟨by decide, by decide, by decide, by decide⟩

end Verif.Props
