import Verif.Lemmas.IsoOffset
import Verif.Props.English
/-! # C45: ISO 8601 and RFC 3339 -/
set_option autoImplicit false
namespace Verif.Props
open Verif.Go Verif.Model Verif.Data Verif.Lemmas Verif.Spec

/-! ## Digits -/

theorem digitChar_nat {n : Nat} (h : n < 10) : ((digitChar n).toNat : Int) - 48 = n := by
  have : ∀ k : Fin 10, ((digitChar k.val).toNat : Int) - 48 = k.val := by decide
  exact this ⟨n, h⟩

theorem iso_number_two {n : Nat} (h : n < 100) : number (two n) = n := by
  unfold two number
  simp only [List.foldl_cons, List.foldl_nil, digitChar_nat (n := n / 10) (by omega), digitChar_nat (n := n % 10) (by omega)]
  omega

theorem number_three {n : Nat} (h : n < 1000) : number (three n) = n := by
  unfold three number
  simp only [List.foldl_cons, List.foldl_nil, digitChar_nat (n := n / 100) (by omega), digitChar_nat (n := n / 10 % 10) (by omega),
    digitChar_nat (n := n % 10) (by omega)]
  omega

theorem iso_number_four {n : Nat} (h : n < 10000) : number (four n) = n := by
  unfold four number
  simp only [List.foldl_cons, List.foldl_nil, digitChar_nat (n := n / 1000) (by omega), digitChar_nat (n := n / 100 % 10) (by omega),
    digitChar_nat (n := n / 10 % 10) (by omega), digitChar_nat (n := n % 10) (by omega)]
  omega

theorem digits_two {n : Nat} (h : n < 100) : ∀ c ∈ two n, c.isDigit = true := by
  intro c hc
  simp only [two, List.mem_cons, List.not_mem_nil, or_false] at hc
  rcases hc with rfl | rfl <;> exact digitChar_digit (by omega)
theorem digits_three {n : Nat} (h : n < 1000) : ∀ c ∈ three n, c.isDigit = true := by
  intro c hc
  simp only [three, List.mem_cons, List.not_mem_nil, or_false] at hc
  rcases hc with rfl | rfl | rfl <;> exact digitChar_digit (by omega)
theorem digits_four {n : Nat} (h : n < 10000) : ∀ c ∈ four n, c.isDigit = true := by
  intro c hc
  simp only [four, List.mem_cons, List.not_mem_nil, or_false] at hc
  rcases hc with rfl | rfl | rfl | rfl <;> exact digitChar_digit (by omega)

theorem short_two {n : Nat} (h : n < 100) : IsNumeral (two n) ∧ (two n).length ≤ 2 := ⟨⟨by simp [two], digits_two h⟩, by simp [two]⟩
theorem numeral_three {n : Nat} (h : n < 1000) : IsNumeral (three n) := ⟨by simp [three], digits_three h⟩
theorem four_four {n : Nat} (h : n < 10000) : Four (four n) := ⟨⟨by simp [four], digits_four h⟩, by simp [four]⟩

/-! ## The parts of a stamp -/

theorem date_bounds {st : IsoStamp} (h : st.OK) : st.month < 100 ∧ st.day < 100 := by
  have h1 := h.date
  have h2 := h1.2.1
  have h3 : monthLen st.year st.month ≤ 31 := by unfold monthLen; repeat' split <;> try omega
  have h4 := h1.2.2.2
  omega

/-- The time of day of a stamp. -/
def IsoStamp.clock (st : IsoStamp) : Notation :=
  match st.milli with
  | none => .hms (two st.hour) (two st.minute) (two st.second)
  | some k => .hmsFrac (two st.hour) (two st.minute) (two st.second) (three k)

theorem clock_written {st : IsoStamp} (h : st.OK) (mr : Meridian) : (IsoStamp.clock st).Written mr := by
  have h1 := h.hour; have h2 := h.minute; have h3 := h.second
  unfold IsoStamp.clock
  cases e : st.milli with
  | none => exact ⟨short_two (by omega), short_two (by omega), short_two (by omega)⟩
  | some k => exact ⟨short_two (by omega), short_two (by omega), short_two (by omega), numeral_three (h.milli k e)⟩

theorem clock_meaning {st : IsoStamp} (h : st.OK) (mr : Meridian) : (cut6 (IsoStamp.clock st)).meaning mr =
    some { hour := st.hour, minute := st.minute, second := st.second, nano := st.nano, period := .second } := by
  have h1 := h.hour; have h2 := h.minute; have h3 := h.second
  unfold IsoStamp.clock IsoStamp.nano
  cases e : st.milli with
  | none =>
    simp only [cut6, Notation.meaning]
    rw [iso_number_two (by omega), iso_number_two (by omega), iso_number_two (by omega), if_pos (by omega)]
    rfl
  | some k =>
    have hk := h.milli k e
    simp only [cut6, Notation.meaning]
    rw [iso_number_two (by omega), iso_number_two (by omega), iso_number_two (by omega), if_pos (by omega)]
    have : nanos (List.take 6 (three k)) = 1000000 * (((some k).getD 0 : Nat) : Int) := by
      have e1 : List.take 6 (three k) = three k := by simp [three]
      have e2 : List.take 9 (three k) = three k := by simp [three]
      unfold nanos
      rw [e1, e2, number_three hk]
      simp [three]
      omega
    rw [this]

theorem stamp_text (st : IsoStamp) : st.write ' ' = Order.ymd.write (two st.day) (two st.month) (four st.year) ['-'] ['-'] ++ [' '] ++ (IsoStamp.clock st).text := by
  unfold IsoStamp.write IsoStamp.clock
  cases st.milli <;> simp [Order.write, Notation.text]

/-- The absolute parser on a stamp. -/
theorem stamp_absolute {E : Env} {l : LocaleInfo} {c : PCfg} (hE : Surroundings E) {st : IsoStamp} (h : st.OK) (hm : MonthBeforeDayIn l c) (tz : Option Tz) :
    absoluteParse (cfgIn l c E.now) E.now E.monthFirst (st.write ' ') tz =
      .ok { period := if c.timeAsPeriod then .second else .day, time := st.at (baseTime c E.now).loc } := by
  obtain ⟨o, ho, hom⟩ := hm
  have hb := date_bounds h
  have hd : IsDate (number (four st.year)) (number (two st.month)) (number (two st.day)) := by
    rw [iso_number_four h.year, iso_number_two hb.1, iso_number_two hb.2]; exact h.date
  have := C38_numeric_date_time_order { cfgIn l c E.now with dateOrder := o.letters } E.now E.monthFirst tz o .ymd (letters_lower o)
    ⟨hom, by cases o <;> decide⟩
    (two st.day) (two st.month) (four st.year) ['-'] ['-'] [' '] (short_two hb.2) (short_two hb.1) (four_four h.year)
    (by unfold SepPair IsSeparator; decide) isSep_space (by decide) hd (by rw [iso_number_four h.year]; have := h.year2; omega)
    (IsoStamp.clock st) .am _ (clock_written h _) (clock_meaning h _)
  rw [← stamp_text, iso_number_four h.year, iso_number_two hb.1, iso_number_two hb.2] at this
  rw [absolute_letters _ o (by rw [cfgIn_order]; exact ho)] at this
  rw [this]
  have : nowOf ({ cfgIn l c E.now with dateOrder := o.letters } : Cfg) E.now = baseTime c E.now := by
    unfold nowOf
    exact callBase_in hE l c
  rw [this]
  rfl

theorem stamp_clock {st : IsoStamp} (h : st.OK) : IsClock st.hour st.minute st.second st.nano := by
  have h1 := h.hour; have h2 := h.minute; have h3 := h.second
  have h4 : 0 ≤ st.nano ∧ st.nano < 1000000000 := by
    unfold IsoStamp.nano
    cases e : st.milli with
    | none => simp
    | some k => have := h.milli k e; simp; omega
  refine ⟨?_, ?_, ?_, ?_, ?_, ?_, ?_, ?_⟩ <;> omega

/-! ## Reaching the parsers -/

theorem digit_ascii {c : Char} (h : c.isDigit = true) : c.toNat < 128 := by have := digit_range h; omega
theorem digitChar_lower {n : Nat} (h : n < 10) : toLowerC (digitChar n) = digitChar n := lower_digit (digitChar_digit h)

/-- All digits of a stamp. -/
def dateDigits (st : IsoStamp) : List Char := '0' :: (four st.year ++ two st.month ++ two st.day)
def timeDigits (st : IsoStamp) : List Char := '0' :: (two st.hour ++ two st.minute ++ two st.second ++ (match st.milli with | none => [] | some k => three k))

theorem dateDigits_digit {st : IsoStamp} (h : st.OK) : ∀ c ∈ dateDigits st, c.isDigit = true := by
  have hb := date_bounds h
  intro c hc
  simp only [dateDigits, List.mem_cons, List.mem_append] at hc
  rcases hc with rfl | (hc | hc) | hc
  · decide
  · exact digits_four h.year c hc
  · exact digits_two hb.1 c hc
  · exact digits_two hb.2 c hc

theorem timeDigits_digit {st : IsoStamp} (h : st.OK) : ∀ c ∈ timeDigits st, c.isDigit = true := by
  have h1 := h.hour; have h2 := h.minute; have h3 := h.second
  intro c hc
  simp only [timeDigits, List.mem_cons, List.mem_append] at hc
  rcases hc with rfl | ((hc | hc) | hc) | hc
  · decide
  · exact digits_two (by omega) c hc
  · exact digits_two (by omega) c hc
  · exact digits_two (by omega) c hc
  · split at hc
    · cases hc
    · next k e => exact digits_three (h.milli k e) c hc

theorem lower_map_digits {s : List Char} (h : ∀ c ∈ s, c.isDigit = true) : toLower s = s := by
  unfold toLower
  rw [List.map_congr_left (fun c hc => lower_digit (h c hc)), List.map_id']

theorem stamp_lower {st : IsoStamp} (h : st.OK) {b : Char} (hb : IsBetween b) :
    toLower (st.write b) = st.write (toLowerC b) := by
  have h1 := h.hour; have h2 := h.minute; have h3 := h.second; have hd := date_bounds h
  unfold IsoStamp.write
  simp only [lower_append, lower_cons, lower_map_digits (digits_four h.year), lower_map_digits (digits_two hd.1), lower_map_digits (digits_two hd.2),
    lower_map_digits (digits_two (n := st.hour) (by omega)), lower_map_digits (digits_two (n := st.minute) (by omega)),
    lower_map_digits (digits_two (n := st.second) (by omega))]
  cases e : st.milli with
  | none => rfl
  | some k =>
    simp only [lower_cons, lower_map_digits (digits_three (h.milli k e))]
    rfl

theorem stamp_ascii {st : IsoStamp} (h : st.OK) {b : Char} (hb : IsBetween b) : ∀ c ∈ st.write b, c.toNat < 128 := by
  have h1 := h.hour; have h2 := h.minute; have h3 := h.second; have hd := date_bounds h
  have hba : b.toNat < 128 := by rcases hb with rfl | rfl | rfl <;> decide
  intro c hc
  unfold IsoStamp.write at hc
  simp only [List.mem_append, List.mem_cons] at hc
  rcases hc with hc | rfl | hc | rfl | hc | rfl | hc | rfl | hc | rfl | hc | hc
  · exact digit_ascii (digits_four h.year c hc)
  · decide
  · exact digit_ascii (digits_two hd.1 c hc)
  · decide
  · exact digit_ascii (digits_two hd.2 c hc)
  · exact hba
  · exact digit_ascii (digits_two (n := st.hour) (by omega) c hc)
  · decide
  · exact digit_ascii (digits_two (n := st.minute) (by omega) c hc)
  · decide
  · exact digit_ascii (digits_two (n := st.second) (by omega) c hc)
  · split at hc
    · cases hc
    · next k e =>
      simp only [List.mem_cons] at hc
      rcases hc with rfl | hc
      · decide
      · exact digit_ascii (digits_three (h.milli k e) c hc)

theorem between_mem {b : Char} (hb : IsBetween b) : toLowerC b ∈ ['t', ' '] := by rcases hb with rfl | rfl | rfl <;> decide

theorem iso_reach {E : Env} (hE : Sound E) {ds es : List Char} (hds : ∀ c ∈ ds, c.isDigit = true) (hes : ∀ c ∈ es, c.isDigit = true)
    {a b a' b' : String} (hp : isoPass a b a' b' = true) {x : Char} (hx : IsBetween x) {s : List Char} (hs : ∀ c ∈ s, c.toNat < 128)
    (h : toLower s = List.zipWith (sub2 ds es) (isoDateA (toLowerC x) a) (isoDateB (toLowerC x) b)) :
    Reached E.uni (enData.lang E.uni) [['t']] s (List.zipWith (sub2 ds es) (isoDateA ' ' a') (isoDateB ' ' b')) ∧
      Rel2 (TagRel (wild ds)) (isoDateA ' ' a') (List.zipWith (sub2 ds es) (isoDateA ' ' a') (isoDateB ' ' b')) := by
  have := List.all_eq_true.mp hp _ (between_mem hx)
  simp only [Bool.and_eq_true] at this
  obtain ⟨⟨⟨⟨h1, h2⟩, h3⟩, h4⟩, h5⟩ := this
  exact reach_sub2 hE hds hes h1 h2 h3 h4 h5 hs h

/-- In this language the dates and times with these endings reach the individual parsers, with the first two endings replaced by the others. -/
def IsoReady (E : Env) (L : Lang) : Prop :=
  ∀ {ds es : List Char}, (∀ c ∈ ds, c.isDigit = true) → (∀ c ∈ es, c.isDigit = true) → ∀ {a b a' b' : String}, (a, b, a', b') ∈ isoEndings →
    ∀ {x : Char}, IsBetween x → ∀ {s : List Char}, (∀ c ∈ s, c.toNat < 128) →
      toLower s = List.zipWith (sub2 ds es) (isoDateA (toLowerC x) a) (isoDateB (toLowerC x) b) →
      Reached E.uni L [['t']] s (List.zipWith (sub2 ds es) (isoDateA ' ' a') (isoDateB ' ' b')) ∧
        Rel2 (TagRel (wild ds)) (isoDateA ' ' a') (List.zipWith (sub2 ds es) (isoDateA ' ' a') (isoDateB ' ' b'))

theorem english_ready {E : Env} (hE : Sound E) : IsoReady E (E.lang enInfo.name) := by
  intro ds es hds hes a b a' b' hq x hx s hs h
  have hp : isoPass a b a' b' = true := by
    simp only [isoEndings, List.mem_cons, List.not_mem_nil, or_false, Prod.mk.injEq] at hq
    rcases hq with ⟨rfl, rfl, rfl, rfl⟩ | ⟨rfl, rfl, rfl, rfl⟩ | ⟨rfl, rfl, rfl, rfl⟩ | ⟨rfl, rfl, rfl, rfl⟩ | ⟨rfl, rfl, rfl, rfl⟩ | ⟨rfl, rfl, rfl, rfl⟩ |
      ⟨rfl, rfl, rfl, rfl⟩ | ⟨rfl, rfl, rfl, rfl⟩
    · exact iso_plain
    · exact iso_z
    · exact iso_milli
    · exact iso_milli_z
    · exact iso_plus
    · exact iso_minus
    · exact iso_plus'
    · exact iso_minus'
  have := iso_reach hE hds hes hp hx hs h
  exact ⟨en_reached hE this.1, this.2⟩

theorem english_month_first {c : PCfg} (h : MonthBeforeDay c) : MonthBeforeDayIn enInfo c := by
  obtain ⟨o, ho, hm⟩ := h
  exact ⟨o, letters_self ho, hm⟩

/-- The remainder of a text is a relation of the remainder of the template. -/
theorem rel_prefix {R : Char → Char → Prop} : ∀ {a b c d : List Char}, a.length = c.length → Rel2 R (a ++ b) (c ++ d) → Rel2 R a c
  | [], _, [], _, _, _ => .nil
  | [], _, _ :: _, _, h, _ => by simp at h
  | _ :: _, _, [], _, h, _ => by simp at h
  | x :: a, b, y :: c, d, h, hr => by
    cases hr with
    | cons h1 h2 => exact .cons h1 (rel_prefix (by simpa using h) h2)

theorem isoA_plain_zone : (isoDateA ' ' "00:00:00").all (fun c => foldC c == c) && !mayHaveZone (isoDateA ' ' "00:00:00") && noAmount (isoDateA ' ' "00:00:00") = true := by
  decide +kernel
theorem isoA_milli_zone : (isoDateA ' ' "00:00:00.000").all (fun c => foldC c == c) && !mayHaveZone (isoDateA ' ' "00:00:00.000") && noAmount (isoDateA ' ' "00:00:00.000") = true := by
  decide +kernel

/-- Without zone, in a locale. -/
theorem local_in {E : Env} (hE : Surroundings E) {l : LocaleInfo} (hI : IsoReady E (E.lang l.name)) {s : ParserSt} {c : PCfg} (hc : Picks E s c l) (hm : MonthBeforeDayIn l c) {st : IsoStamp} (h : st.OK)
    {b : Char} (hb : IsBetween b) (hz : ZonesOk c E.now (wallOf st.year st.month st.day st.hour st.minute st.second st.nano)) :
    ∃ r, YieldsIn l.name E s c (st.write b) (if c.timeAsPeriod then .second else .day) st.year st.month st.day st.hour st.minute st.second st.nano r := by
  have key : ∃ t, t = st.write ' ' ∧ Passed E.uni E.table (E.lang l.name) [['t']] (st.write b) t ∧ noAmount t = true := by
    cases e : st.milli with
    | none =>
      have hr := hI (dateDigits_digit h) (timeDigits_digit h) mem_plain hb (stamp_ascii h hb) (by
        rw [stamp_lower h hb]
        simp only [IsoStamp.write, dateDigits, timeDigits, e]
        rcases hb with rfl | rfl | rfl <;> rfl)
      refine ⟨_, ?_, ⟨hr.1, ?_⟩, ?_⟩
      · simp only [IsoStamp.write, dateDigits, timeDigits, e]; rfl
      · have hz := isoA_plain_zone
        simp only [Bool.and_eq_true, Bool.not_eq_true'] at hz
        exact pop_none_rel (TagRel.digits _) hE.table hr.2 hz.1.1 hz.1.2
      · have hz := isoA_plain_zone
        simp only [Bool.and_eq_true] at hz
        rw [← noAmount_rel (hr.2.mono fun _ _ hxy => hxy.case)]
        exact hz.2
    | some k =>
      have hr := hI (dateDigits_digit h) (timeDigits_digit h) mem_milli hb (stamp_ascii h hb) (by
        rw [stamp_lower h hb]
        simp only [IsoStamp.write, dateDigits, timeDigits, e]
        rcases hb with rfl | rfl | rfl <;> rfl)
      refine ⟨_, ?_, ⟨hr.1, ?_⟩, ?_⟩
      · simp only [IsoStamp.write, dateDigits, timeDigits, e]; rfl
      · have hz := isoA_milli_zone
        simp only [Bool.and_eq_true, Bool.not_eq_true'] at hz
        exact pop_none_rel (TagRel.digits _) hE.table hr.2 hz.1.1 hz.1.2
      · have hz := isoA_milli_zone
        simp only [Bool.and_eq_true] at hz
        rw [← noAmount_rel (hr.2.mono fun _ _ hxy => hxy.case)]
        exact hz.2
  obtain ⟨t, rfl, hp, hn⟩ := key
  exact locale_yields hE hc hp hn (by simp [IsoStamp.write, four]) (by split <;> simp) h.date (stamp_clock h) (by have := h.year2; omega)
    (stamp_absolute hE h hm none) hz

/-- **C45** `Parse` with English first on an ISO 8601 date and time without zone, with or without milliseconds, gives exactly that
time; with the default date order or any other with the month before the day. -/
theorem C45_local {E : Env} (hE : Sound E) {s : ParserSt} {c : PCfg} (hc : EnglishFirst s c) (hm : MonthBeforeDay c) {st : IsoStamp} (h : st.OK)
    {b : Char} (hb : IsBetween b) (hz : ZonesOk c E.now (wallOf st.year st.month st.day st.hour st.minute st.second st.nano)) :
    ∃ r, Yields E s c (st.write b) (if c.timeAsPeriod then .second else .day) st.year st.month st.day st.hour st.minute st.second st.nano r :=
  local_in hE.toSurroundings (english_ready hE) hc.picks (english_month_first hm) h hb hz

/-! ## Zones -/

theorem fieldsAux_trailing : ∀ (s cur : List Char), fieldsAux (s ++ [' ']) cur = fieldsAux s cur
  | [], cur => by
    cases cur <;> simp [fieldsAux, show isSpace ' ' = true by decide]
  | c :: s, cur => by
    simp only [List.cons_append, fieldsAux, fieldsAux_trailing s]

theorem sanitize_trailing (s : List Char) : sanitizeSpaces (s ++ [' ']) = sanitizeSpaces s := by
  unfold sanitizeSpaces fields
  rw [List.filter_append]
  have : [' '].filter (fun c => c != '\u00a0') = [' '] := by decide
  rw [this, fieldsAux_trailing]

theorem absolute_trailing (cfg : Cfg) (now : Time) (mf : Nat → Bool) (s : List Char) (tz : Option Tz) :
    absoluteParse cfg now mf (s ++ [' ']) tz = absoluteParse cfg now mf s tz := by
  unfold absoluteParse absInit
  rw [sanitize_trailing]

theorem digit_fold {c : Char} (h : c.isDigit = true) : (foldC c).isAlpha = false :=
  digit_cases (P := fun c => (foldC c).isAlpha = false) (by decide) h

/-- A stamp after a space consists of digits and a few other characters. -/
theorem stamp_chars {P : Char → Prop} {st : IsoStamp} (h : st.OK) (hd : ∀ c, c.isDigit = true → P c) (ho : ∀ c ∈ ['-', ' ', ':', '.'], P c) :
    ∀ c ∈ st.write ' ', P c := by
  have h1 := h.hour; have h2 := h.minute; have h3 := h.second; have hb := date_bounds h
  intro c hc
  unfold IsoStamp.write at hc
  simp only [List.mem_append, List.mem_cons] at hc
  rcases hc with hc | rfl | hc | rfl | hc | rfl | hc | rfl | hc | rfl | hc | hc
  · exact hd c (digits_four h.year c hc)
  · exact ho _ (by decide)
  · exact hd c (digits_two hb.1 c hc)
  · exact ho _ (by decide)
  · exact hd c (digits_two hb.2 c hc)
  · exact ho _ (by decide)
  · exact hd c (digits_two (n := st.hour) (by omega) c hc)
  · exact ho _ (by decide)
  · exact hd c (digits_two (n := st.minute) (by omega) c hc)
  · exact ho _ (by decide)
  · exact hd c (digits_two (n := st.second) (by omega) c hc)
  · split at hc
    · cases hc
    · next k e =>
      simp only [List.mem_cons] at hc
      rcases hc with rfl | hc
      · exact ho _ (by decide)
      · exact hd c (digits_three (h.milli k e) c hc)

theorem stamp_letterless {st : IsoStamp} (h : st.OK) : Letterless (st.write ' ') :=
  stamp_chars (P := fun c => (foldC c).isAlpha = false) h (fun _ => digit_fold) (by decide)

theorem zulu : (['Z'], (0 : Int)) ∈ namedZones := by decide +kernel

/-- A stamp before a zone. -/
theorem stamp_zoned {E : Env} (hE : Surroundings E) {l : LocaleInfo} {s : ParserSt} {c : PCfg} (hc : Picks E s c l) (hm : MonthBeforeDayIn l c) {st : IsoStamp} (h : st.OK)
    {str t u : List Char} (hr : Reached E.uni (E.lang l.name) [['t']] str t) {z : Tz} (hpop : popTzOffset E.table t = (u, some z))
    (hu : u = st.write ' ' ∨ u = st.write ' ' ++ [' ']) (hn : noAmount u = true) (hz : -86400 ≤ z.offset ∧ z.offset ≤ 86400)
    (hnj : (baseTime c E.now).loc.NoJump (wallOf st.year st.month st.day st.hour st.minute st.second st.nano))
    (hb : SmallOffsets (baseTime c E.now).loc) :
    ∃ r, YieldsAtIn l.name E s c str (if c.timeAsPeriod then .second else .day) st z.offset r := by
  have hne : st.write ' ' ≠ [] := by simp [IsoStamp.write, four]
  have habs : absoluteParse (cfgIn l c E.now) E.now E.monthFirst u (some z) =
      .ok { period := if c.timeAsPeriod then .second else .day, time := st.at (baseTime c E.now).loc } := by
    rcases hu with rfl | rfl
    · exact stamp_absolute hE h hm _
    · rw [absolute_trailing]; exact stamp_absolute hE h hm _
  have := locale_zoned hE hc hr hpop hn (by rcases hu with rfl | rfl <;> simp [hne]) (p := if c.timeAsPeriod then .second else .day)
    (by split <;> simp) h.date (stamp_clock h) (by have := h.year2; omega) habs hnj hb hz
  exact ⟨_, this, rfl, rfl, shows_goDate h.date (stamp_clock h) (Loc.IsFixed.noJump (fun _ _ => rfl) _), fun _ => rfl⟩

theorem isoA_z_amount : noAmount (isoDateA ' ' "00:00:00 ") = true := by decide +kernel
theorem isoA_milli_z_amount : noAmount (isoDateA ' ' "00:00:00.000 ") = true := by decide +kernel

theorem zulu_lower {z : Char} (hz : z = 'Z' ∨ z = 'z') : toLowerC z = 'z' ∧ z.toNat < 128 := by
  rcases hz with rfl | rfl <;> decide

/-- What the first stages make of a stamp with "Z". -/
theorem utc_reach {E : Env} (hE : Surroundings E) {L : Lang} (hI : IsoReady E L) {st : IsoStamp} (h : st.OK) {b : Char} (hb : IsBetween b) {z : Char} (hz : z = 'Z' ∨ z = 'z') :
    Reached E.uni L [['t']] (st.write b ++ [z]) (st.write ' ' ++ ' ' :: ['z']) ∧ noAmount (st.write ' ' ++ [' ']) = true ∧
    ∃ tz, popTzOffset E.table (st.write ' ' ++ ' ' :: ['z']) = (st.write ' ' ++ [' '], some tz) ∧ tz.offset = 0 := by
  have hascii : ∀ x ∈ st.write b ++ [z], x.toNat < 128 := by
    intro x hx
    rcases List.mem_append.mp hx with hx | hx
    · exact stamp_ascii h hb x hx
    · rw [List.mem_singleton.mp hx]; exact (zulu_lower hz).2
  have key : Reached E.uni L [['t']] (st.write b ++ [z]) (st.write ' ' ++ ' ' :: ['z']) ∧ noAmount (st.write ' ' ++ [' ']) = true := by
    cases e : st.milli with
    | none =>
      have hr := hI (dateDigits_digit h) (timeDigits_digit h) mem_z hb hascii (by
        rw [lower_append, stamp_lower h hb, lower_cons, (zulu_lower hz).1]
        simp only [IsoStamp.write, dateDigits, timeDigits, e]
        rcases hb with rfl | rfl | rfl <;> rfl)
      have e1 : List.zipWith (sub2 (dateDigits st) (timeDigits st)) (isoDateA ' ' "00:00:00 z") (isoDateB ' ' "12:34:56 z") =
          (st.write ' ' ++ [' ']) ++ ['z'] := by
        simp only [IsoStamp.write, dateDigits, timeDigits, e]; rfl
      rw [e1] at hr
      refine ⟨by simpa using hr.1, ?_⟩
      have h2 : isoDateA ' ' "00:00:00 z" = isoDateA ' ' "00:00:00 " ++ ['z'] := by decide
      rw [h2] at hr
      rw [← noAmount_rel ((rel_prefix (by simp only [IsoStamp.write, e]; rfl) hr.2).mono fun _ _ hxy => hxy.case)]
      exact isoA_z_amount
    | some k =>
      have hr := hI (dateDigits_digit h) (timeDigits_digit h) mem_milli_z hb hascii (by
        rw [lower_append, stamp_lower h hb, lower_cons, (zulu_lower hz).1]
        simp only [IsoStamp.write, dateDigits, timeDigits, e]
        rcases hb with rfl | rfl | rfl <;> rfl)
      have e1 : List.zipWith (sub2 (dateDigits st) (timeDigits st)) (isoDateA ' ' "00:00:00.000 z") (isoDateB ' ' "12:34:56.789 z") =
          (st.write ' ' ++ [' ']) ++ ['z'] := by
        simp only [IsoStamp.write, dateDigits, timeDigits, e]; rfl
      rw [e1] at hr
      refine ⟨by simpa using hr.1, ?_⟩
      have h2 : isoDateA ' ' "00:00:00.000 z" = isoDateA ' ' "00:00:00.000 " ++ ['z'] := by decide
      rw [h2] at hr
      rw [← noAmount_rel ((rel_prefix (by simp only [IsoStamp.write, e]; rfl) hr.2).mono fun _ _ hxy => hxy.case)]
      exact isoA_milli_z_amount
  obtain ⟨hr, hn⟩ := key
  have hl : Letterless (st.write ' ' ++ [' ']) := by
    intro x hx
    rcases List.mem_append.mp hx with hx | hx
    · exact stamp_letterless h x hx
    · rw [List.mem_singleton.mp hx]; decide
  exact ⟨hr, hn, C20_name_at_end hE.table hl zulu (w := ['z']) (by unfold SameText; decide)⟩

/-- With "Z" at the end is that time in UTC, whatever zone the call starts from (which must have no gap there). -/
theorem utc_in {E : Env} (hE : Surroundings E) {l : LocaleInfo} (hI : IsoReady E (E.lang l.name)) {s : ParserSt} {c : PCfg} (hc : Picks E s c l) (hm : MonthBeforeDayIn l c) {st : IsoStamp} (h : st.OK)
    {b : Char} (hb : IsBetween b) {z : Char} (hz : z = 'Z' ∨ z = 'z')
    (hnj : (baseTime c E.now).loc.NoJump (wallOf st.year st.month st.day st.hour st.minute st.second st.nano))
    (hso : SmallOffsets (baseTime c E.now).loc) :
    ∃ r, YieldsAtIn l.name E s c (st.write b ++ [z]) (if c.timeAsPeriod then .second else .day) st 0 r := by
  obtain ⟨hr, hn, tz, hpop, ho⟩ := utc_reach hE hI h hb hz
  have := stamp_zoned hE hc hm h hr hpop (Or.inr rfl) hn (by omega) hnj hso
  rwa [ho] at this

/-- **C45** The same with "Z" at the end is that time in UTC, whatever zone the call starts from (which must have no gap there). -/
theorem C45_utc {E : Env} (hE : Sound E) {s : ParserSt} {c : PCfg} (hc : EnglishFirst s c) (hm : MonthBeforeDay c) {st : IsoStamp} (h : st.OK)
    {b : Char} (hb : IsBetween b) {z : Char} (hz : z = 'Z' ∨ z = 'z')
    (hnj : (baseTime c E.now).loc.NoJump (wallOf st.year st.month st.day st.hour st.minute st.second st.nano))
    (hso : SmallOffsets (baseTime c E.now).loc) :
    ∃ r, YieldsAt E s c (st.write b ++ [z]) (if c.timeAsPeriod then .second else .day) st 0 r :=
  utc_in hE.toSurroundings (english_ready hE) hc.picks (english_month_first hm) h hb hz hnj hso

/-! ### Offsets -/

/-- The digits before the offset. -/
def offsetDates (st : IsoStamp) (m : Nat) : List Char := dateDigits st ++ [digitChar (m % 10)]
def offsetTimes (st : IsoStamp) (h m : Nat) : List Char := '0' :: (two st.hour ++ two st.minute ++ two st.second ++ two h ++ [digitChar (m / 10), '0'])

theorem isoA_offset_amount : noAmount (isoDateA ' ' "00:00:00") = true := by decide +kernel

theorem offset_small {neg : Bool} {h m : Nat} (hh : h < 24) (hm : m < 60) : -86400 ≤ seconds neg h m ∧ seconds neg h m ≤ 86400 := by
  unfold seconds; split <;> omega

theorem offset_chars {neg : Bool} {h m : Nat} (hh : h < 24) (hm : m < 60) (colon : Bool) :
    toLower (offsetText neg h m colon) = offsetText neg h m colon ∧ ∀ x ∈ offsetText neg h m colon, x.toNat < 128 := by
  have hs : toLowerC (signChar neg) = signChar neg ∧ (signChar neg).toNat < 128 := by cases neg <;> decide
  have l1 := lower_map_digits (digits_two (n := h) (by omega))
  have l2 := lower_map_digits (digits_two (n := m) (by omega))
  unfold offsetText
  refine ⟨?_, ?_⟩
  · cases colon
    · simp only [lower_cons, lower_append, l1, l2, hs.1, Bool.false_eq_true, if_false]; rfl
    · simp only [lower_cons, lower_append, l1, l2, hs.1, if_true]; rfl
  · intro x hx
    simp only [List.mem_cons, List.mem_append] at hx
    rcases hx with rfl | (hx | hx) | hx
    · exact hs.2
    · exact digit_ascii (digits_two (n := h) (by omega) x hx)
    · cases colon
      · simp at hx
      · simp only [if_true, List.mem_singleton] at hx; rw [hx]; decide
    · exact digit_ascii (digits_two (n := m) (by omega) x hx)

/-- With an offset in use at the end – "+05:30" or "+0530" – is that time in a zone with this offset. -/
theorem offset_in {E : Env} (hE : Surroundings E) {l : LocaleInfo} (hI : IsoReady E (E.lang l.name)) {s : ParserSt} {c : PCfg} (hc : Picks E s c l) (hm : MonthBeforeDayIn l c) {st : IsoStamp} (h : st.OK)
    (hms : st.milli = none) {b : Char} (hb : IsBetween b) {neg : Bool} {oh om : Nat} (hk : KnownOffset neg oh om) (colon : Bool)
    (hnj : (baseTime c E.now).loc.NoJump (wallOf st.year st.month st.day st.hour st.minute st.second st.nano))
    (hso : SmallOffsets (baseTime c E.now).loc) :
    ∃ r, YieldsAtIn l.name E s c (st.write b ++ offsetText neg oh om colon) (if c.timeAsPeriod then .second else .day) st (seconds neg oh om) r := by
  have hoh := hk.1
  have hom := hk.2.1
  have h1 := h.hour; have h2 := h.minute; have h3 := h.second
  have hoc := offset_chars (neg := neg) hoh hom colon
  have hascii : ∀ x ∈ st.write b ++ offsetText neg oh om colon, x.toNat < 128 := by
    intro x hx
    rcases List.mem_append.mp hx with hx | hx
    · exact stamp_ascii h hb x hx
    · exact hoc.2 x hx
  have hds : ∀ x ∈ offsetDates st om, x.isDigit = true := by
    intro x hx
    rcases List.mem_append.mp hx with hx | hx
    · exact dateDigits_digit h x hx
    · rw [List.mem_singleton.mp hx]; exact digitChar_digit (by omega)
  have hes : ∀ x ∈ offsetTimes st oh om, x.isDigit = true := by
    intro x hx
    simp only [offsetTimes, List.mem_cons, List.mem_append, List.not_mem_nil, or_false] at hx
    rcases hx with rfl | (((hx | hx) | hx) | hx) | rfl | rfl
    · decide
    · exact digits_two (by omega) x hx
    · exact digits_two (by omega) x hx
    · exact digits_two (by omega) x hx
    · exact digits_two (by omega) x hx
    · exact digitChar_digit (by omega)
    · decide
  have key : Reached E.uni (E.lang l.name) [['t']] (st.write b ++ offsetText neg oh om colon) (st.write ' ' ++ offsetText neg oh om colon) ∧
      noAmount (st.write ' ') = true := by
    have hlow : toLower (st.write b ++ offsetText neg oh om colon) = st.write (toLowerC b) ++ offsetText neg oh om colon := by
      rw [lower_append, stamp_lower h hb, hoc.1]
    have fin : ∀ (a' b' : String), List.zipWith (sub2 (offsetDates st om) (offsetTimes st oh om)) (isoDateA ' ' a') (isoDateB ' ' b') =
          st.write ' ' ++ offsetText neg oh om colon → (∃ r, isoDateA ' ' a' = isoDateA ' ' "00:00:00" ++ r) →
        (Reached E.uni (E.lang l.name) [['t']] (st.write b ++ offsetText neg oh om colon)
          (List.zipWith (sub2 (offsetDates st om) (offsetTimes st oh om)) (isoDateA ' ' a') (isoDateB ' ' b')) ∧
        Rel2 (TagRel (wild (offsetDates st om))) (isoDateA ' ' a')
          (List.zipWith (sub2 (offsetDates st om) (offsetTimes st oh om)) (isoDateA ' ' a') (isoDateB ' ' b'))) →
        Reached E.uni (E.lang l.name) [['t']] (st.write b ++ offsetText neg oh om colon) (st.write ' ' ++ offsetText neg oh om colon) ∧
          noAmount (st.write ' ') = true := by
      intro a' b' e1 ⟨r, e2⟩ hr
      rw [e1, e2] at hr
      refine ⟨hr.1, ?_⟩
      rw [← noAmount_rel ((rel_prefix (by simp only [IsoStamp.write, hms]; rfl) hr.2).mono fun _ _ hxy => hxy.case)]
      exact isoA_offset_amount
    cases neg with
    | false =>
      cases colon with
      | true =>
        refine fin "00:00:00+00:09" "12:34:56+78:90" ?_ ⟨"+00:09".toList, by decide⟩ (hI hds hes mem_plus hb hascii ?_)
        · simp only [IsoStamp.write, hms]; rfl
        · rw [hlow]; simp only [IsoStamp.write, hms]; rcases hb with rfl | rfl | rfl <;> rfl
      | false =>
        refine fin "00:00:00+0009" "12:34:56+7890" ?_ ⟨"+0009".toList, by decide⟩ (hI hds hes mem_plus' hb hascii ?_)
        · simp only [IsoStamp.write, hms]; rfl
        · rw [hlow]; simp only [IsoStamp.write, hms]; rcases hb with rfl | rfl | rfl <;> rfl
    | true =>
      cases colon with
      | true =>
        refine fin "00:00:00-00:09" "12:34:56-78:90" ?_ ⟨"-00:09".toList, by decide⟩ (hI hds hes mem_minus hb hascii ?_)
        · simp only [IsoStamp.write, hms]; rfl
        · rw [hlow]; simp only [IsoStamp.write, hms]; rcases hb with rfl | rfl | rfl <;> rfl
      | false =>
        refine fin "00:00:00-0009" "12:34:56-7890" ?_ ⟨"-0009".toList, by decide⟩ (hI hds hes mem_minus' hb hascii ?_)
        · simp only [IsoStamp.write, hms]; rfl
        · rw [hlow]; simp only [IsoStamp.write, hms]; rcases hb with rfl | rfl | rfl <;> rfl
  obtain ⟨hr, hn⟩ := key
  -- the last digit of the seconds
  have hsplit : ∃ f, st.write ' ' = f ++ [digitChar (st.second % 10)] := by
    refine ⟨(st.write ' ').dropLast, ?_⟩
    simp only [IsoStamp.write, hms]
    rfl
  obtain ⟨f, hf⟩ := hsplit
  have hdig : (digitChar (st.second % 10)).isDigit = true := digitChar_digit (by omega)
  have hl : Letterless (f ++ [digitChar (st.second % 10)]) := by rw [← hf]; exact stamp_letterless h
  obtain ⟨tz, hpop, ho⟩ := C20_offset_at_end hE.table hl (by intro e; rw [e] at hdig; revert hdig; decide) hk colon
  have hfb : firstByte (digitChar (st.second % 10)) = digitChar (st.second % 10) :=
    digit_cases (P := fun c => firstByte c = c) (by decide) hdig
  have e : st.write ' ' ++ offsetText neg oh om colon = f ++ digitChar (st.second % 10) ::
      (signChar neg :: (two oh ++ (if colon then [':'] else []) ++ two om)) := by
    rw [hf]; simp [offsetText]
  rw [← e, hfb, ← hf] at hpop
  have := stamp_zoned hE hc hm h hr hpop (Or.inl rfl) hn (by rw [ho]; exact offset_small hoh hom) hnj hso
  rwa [ho] at this

/-- **C45** The same with an offset in use at the end – "+05:30" or "+0530" – is that time in a zone with this offset. -/
theorem C45_offset {E : Env} (hE : Sound E) {s : ParserSt} {c : PCfg} (hc : EnglishFirst s c) (hm : MonthBeforeDay c) {st : IsoStamp} (h : st.OK)
    (hms : st.milli = none) {b : Char} (hb : IsBetween b) {neg : Bool} {oh om : Nat} (hk : KnownOffset neg oh om) (colon : Bool)
    (hnj : (baseTime c E.now).loc.NoJump (wallOf st.year st.month st.day st.hour st.minute st.second st.nano))
    (hso : SmallOffsets (baseTime c E.now).loc) :
    ∃ r, YieldsAt E s c (st.write b ++ offsetText neg oh om colon) (if c.timeAsPeriod then .second else .day) st (seconds neg oh om) r :=
  offset_in hE.toSurroundings (english_ready hE) hc.picks (english_month_first hm) h hms hb hk colon hnj hso

/-! ## Round trip -/

theorem stamp_of_ok {t : Time} (hw : t.WF) (h1 : 2 ≤ t.year) (h2 : t.year ≤ 9999) (milli : Bool) : (IsoStamp.of t milli).OK := by
  have hv : IsDate t.year t.month t.day := (valid_iff _ _ _).mp (t.year_month_day_valid)
  have hc := t.clockOK hw
  unfold ClockOK at hc
  have hv' := hv
  unfold IsDate at hv'
  constructor
  · simp only [IsoStamp.of]
    rw [Int.toNat_of_nonneg (by omega), Int.toNat_of_nonneg (by omega), Int.toNat_of_nonneg (by omega)]
    exact hv
  all_goals simp only [IsoStamp.of]
  all_goals try omega
  intro k e
  unfold Time.WF at hw
  cases milli
  · simp at e
  · simp only [if_true, Option.some.injEq] at e
    omega

/-- What a time with a given stamp and the offset of the stamped zone is. -/
theorem stamp_of_same {t u : Time} (hw : t.WF) (h1 : 2 ≤ t.year) {milli : Bool} {o : Int} (ho : t.loc.off t.sec = o)
    (hs : Shows u (IsoStamp.of t milli).year (IsoStamp.of t milli).month (IsoStamp.of t milli).day (IsoStamp.of t milli).hour (IsoStamp.of t milli).minute
      (IsoStamp.of t milli).second (IsoStamp.of t milli).nano) (hu : ∀ x, u.loc.off x = o) :
    u.sec = t.sec ∧ u.nsec = (if milli then t.nsec / 1000000 * 1000000 else 0) := by
  have hv : IsDate t.year t.month t.day := (valid_iff _ _ _).mp (t.year_month_day_valid)
  have hc := t.clockOK hw
  unfold ClockOK at hc
  unfold IsDate at hv
  unfold Time.WF at hw
  refine ⟨?_, ?_⟩
  · have e1 : u.civil = t.civil := by
      rw [hs.civil]
      simp only [IsoStamp.of]
      rw [Int.toNat_of_nonneg (by omega), Int.toNat_of_nonneg (by omega), Int.toNat_of_nonneg (by omega)]
      rfl
    have e2 : u.wall / 86400 = t.wall / 86400 := by rw [← Time.civil_days, ← Time.civil_days, e1]
    have e3 : u.hour = t.hour := by rw [hs.hour]; simp only [IsoStamp.of]; omega
    have e4 : u.minute = t.minute := by rw [hs.minute]; simp only [IsoStamp.of]; omega
    have e5 : u.second = t.second := by rw [hs.second]; simp only [IsoStamp.of]; omega
    unfold Time.hour Time.sod at e3
    unfold Time.minute Time.sod at e4
    unfold Time.second Time.sod at e5
    have : u.wall = t.wall := by omega
    unfold Time.wall at this
    rw [hu, ho] at this
    omega
  · rw [hs.nanosecond]
    cases milli
    · rfl
    · simp only [IsoStamp.of, IsoStamp.nano, if_true, Option.getD_some]
      omega

/-- **C45** Writing a UTC time as RFC 3339 ("2015-03-05T10:11:12Z", or with milliseconds) and parsing it gives the same instant, to the
second or millisecond. -/
theorem C45_roundtrip_utc {E : Env} (hE : Sound E) {s : ParserSt} {c : PCfg} (hc : EnglishFirst s c) (hm : MonthBeforeDay c)
    (hcz : (baseTime c E.now).loc.IsFixed) (hso : SmallOffsets (baseTime c E.now).loc)
    (t : Time) (hw : t.WF) (h1 : 2 ≤ t.year) (h2 : t.year ≤ 9999) (hu : t.loc.off t.sec = 0) (milli : Bool) :
    ∃ r, (E.parse s (some c) ((IsoStamp.of t milli).write 'T' ++ ['Z']) []).2 = .ok r ∧ r.time.sec = t.sec ∧
      r.time.nsec = (if milli then t.nsec / 1000000 * 1000000 else 0) := by
  obtain ⟨r, hr⟩ := C45_utc hE hc hm (stamp_of_ok hw h1 h2 milli) (Or.inl rfl) (Or.inl rfl) (hcz.noJump _) hso
  exact ⟨r, hr.result, stamp_of_same hw h1 hu hr.shows hr.offset⟩

/-- **C45** The same for a time in a zone whose offset is in use. -/
theorem C45_roundtrip_offset {E : Env} (hE : Sound E) {s : ParserSt} {c : PCfg} (hc : EnglishFirst s c) (hm : MonthBeforeDay c)
    (hcz : (baseTime c E.now).loc.IsFixed) (hso : SmallOffsets (baseTime c E.now).loc)
    (t : Time) (hw : t.WF) (h1 : 2 ≤ t.year) (h2 : t.year ≤ 9999) {neg : Bool} {h m : Nat} (hk : KnownOffset neg h m)
    (hu : t.loc.off t.sec = seconds neg h m) (colon : Bool) :
    ∃ r, (E.parse s (some c) ((IsoStamp.of t false).write 'T' ++ offsetText neg h m colon) []).2 = .ok r ∧ r.time.sec = t.sec ∧ r.time.nsec = 0 := by
  obtain ⟨r, hr⟩ := C45_offset hE hc hm (stamp_of_ok hw h1 h2 false) rfl (Or.inl rfl) hk colon (hcz.noJump _) hso
  exact ⟨r, hr.result, stamp_of_same hw h1 hu hr.shows hr.offset⟩

/-! ## The hour that is skipped -/

/-- A zone whose clock goes forward an hour, as at the beginning of summer time (Central European Time, 31 March 2024). -/
def forwardZone : Loc := { name := "CET", off := fun t => if t < 1711846800 then 3600 else 7200 }

/-- **C45 (finding).** The hypothesis about the zone of the current time is needed: with `CurrentTime` in Central Europe, "2024-03-31T02:30:00Z"
is read as 03:30 UTC, an hour late, because the date is first built in the zone of the current time, where 02:30 does not exist on this day. -/
theorem C45_gap_hour {E : Env} (hE : Sound E) : ∃ (c : PCfg) (r : DateRes), EnglishFirst {} c ∧ c.currentTime.loc = forwardZone ∧
    (E.parse {} (some c) "2024-03-31T02:30:00Z".toList []).2 = .ok r ∧ r.time.loc.off r.time.sec = 0 ∧ Shows r.time 2024 3 31 3 30 0 0 := by
  let st : IsoStamp := ⟨2024, 3, 31, 2, 30, 0, none⟩
  let c : PCfg := { currentTime := goDate 2024 3 15 12 0 0 0 forwardZone }
  have hc : EnglishFirst {} c := ⟨rfl, rfl, rfl, Or.inr ⟨rfl, rfl⟩, rfl, rfl, Or.inl rfl⟩
  have h : st.OK := ⟨by decide, by decide, by decide, by decide, by decide, by decide, fun _ e => by cases e⟩
  obtain ⟨hr, hn, tz, hpop, ho⟩ := utc_reach hE.toSurroundings (english_ready hE) h (b := 'T') (Or.inl rfl) (z := 'Z') (Or.inl rfl)
  rw [show enInfo.name = ['e', 'n'] from rfl, hE.english] at hr
  have habs := stamp_absolute (l := enInfo) hE.toSurroundings (c := c) h (english_month_first ⟨.mdy, by decide, by decide⟩) (some tz)
  rw [← absolute_trailing] at habs
  have hb : baseTime c E.now = goDate 2024 3 15 12 0 0 0 forwardZone := rfl
  have hat : st.at forwardZone = ⟨1711848600, 0, forwardZone⟩ := by
    show goDate 2024 3 31 2 30 0 0 forwardZone = _
    unfold goDate
    congr 1
  have hloc : (baseTime c E.now).loc = forwardZone := rfl
  rw [hloc, hat] at habs
  have ha : applyTimezone (enCfg c E.now) { period := .day, time := ⟨1711848600, 0, forwardZone⟩ } (some tz) =
      { period := .day, time := goDate 2024 3 31 3 30 0 0 (Loc.fixed tz.name 0) } := by
    unfold applyTimezone
    rw [show DateRes.isZero { period := .day, time := ⟨1711848600, 0, forwardZone⟩ } = false from by decide]
    simp only [Bool.false_eq_true, if_false]
    unfold sameClock
    rw [ho]
    congr 1
  have hsh : Shows (goDate 2024 3 31 3 30 0 0 (Loc.fixed tz.name 0)) 2024 3 31 3 30 0 0 :=
    shows_goDate (by decide) (by unfold IsClock; decide) (Loc.IsFixed.noJump (fun _ _ => rfl) _)
  have key := call_absolute hE hc hr hpop hn (by simp [IsoStamp.write, four]) _ habs (by
    show (applyTimezone (enCfg c E.now) { period := .day, time := ⟨1711848600, 0, forwardZone⟩ } (some tz)).isZero = false
    rw [ha]
    unfold DateRes.isZero
    rw [shows_notZero hsh (by decide) (fun _ => by show (-86400 : Int) ≤ 0 ∧ (0 : Int) ≤ 86400; decide)]
    rfl)
  have hstr : st.write 'T' ++ ['Z'] = "2024-03-31T02:30:00Z".toList := by decide
  rw [hstr] at key
  refine ⟨c, _, hc, rfl, key, ?_, ?_⟩
  · show (applyTimezone (enCfg c E.now) { period := .day, time := ⟨1711848600, 0, forwardZone⟩ } (some tz)).time.loc.off _ = 0
    rw [ha]
    rfl
  · show Shows (applyTimezone (enCfg c E.now) { period := .day, time := ⟨1711848600, 0, forwardZone⟩ } (some tz)).time _ _ _ _ _ _ _
    rw [ha]
    exact hsh

/-! ## Cases that meet the hypotheses -/

def someStamp (milli : Option Nat) : IsoStamp := ⟨2015, 3, 5, 10, 11, 12, milli⟩
theorem some_stamp_ok (milli : Option Nat) (h : ∀ k, milli = some k → k < 1000) : (someStamp milli).OK :=
  ⟨by show IsDate 2015 3 5; decide, by show 2 ≤ 2015; decide, by show 2015 < 10000; decide, by show 10 < 24; decide, by show 11 < 60; decide,
    by show 12 < 60; decide, h⟩
theorem demo_month_first : MonthBeforeDay {} := ⟨.mdy, by decide, by decide⟩
theorem demo_fixed : (baseTime {} demoEnv.now).loc.IsFixed ∧ SmallOffsets (baseTime {} demoEnv.now).loc :=
  ⟨fun _ _ => rfl, (demo_zones 0).base⟩
theorem known_half_past_five : KnownOffset false 5 30 := ⟨by decide, by decide, by decide +kernel⟩

example : (someStamp (some 345)).write 'T' ++ ['Z'] = "2015-03-05T10:11:12.345Z".toList := by decide
example : (someStamp none).write ' ' = "2015-03-05 10:11:12".toList := by decide
example : (someStamp none).write 'T' ++ offsetText false 5 30 true = "2015-03-05T10:11:12+05:30".toList := by decide

example : ∃ r, Yields demoEnv {} {} ((someStamp (some 345)).write 'T') .day 2015 3 5 10 11 12 345000000 r :=
  C45_local demo_sound demo_first demo_month_first (some_stamp_ok _ (by simp)) (Or.inl rfl) (demo_zones _)
example : ∃ r, YieldsAt demoEnv {} {} ((someStamp (some 345)).write 'T' ++ ['Z']) .day (someStamp (some 345)) 0 r :=
  C45_utc demo_sound demo_first demo_month_first (some_stamp_ok _ (by simp)) (Or.inl rfl) (Or.inl rfl) (demo_fixed.1.noJump _) demo_fixed.2
example : ∃ r, YieldsAt demoEnv {} {} ((someStamp none).write 'T' ++ offsetText false 5 30 true) .day (someStamp none) 19800 r :=
  C45_offset demo_sound demo_first demo_month_first (some_stamp_ok _ (by simp)) rfl (Or.inl rfl) known_half_past_five true (demo_fixed.1.noJump _) demo_fixed.2
example : ∃ r, (demoEnv.parse {} (some {}) ((IsoStamp.of (goDate 2015 3 5 10 11 12 0 Loc.utc) false).write 'T' ++ ['Z']) []).2 = .ok r ∧
    r.time.sec = (goDate 2015 3 5 10 11 12 0 Loc.utc).sec ∧ r.time.nsec = 0 :=
  C45_roundtrip_utc demo_sound demo_first demo_month_first demo_fixed.1 demo_fixed.2 _ (goDate_wf ..) (by decide +kernel) (by decide +kernel) rfl false

end Verif.Props
