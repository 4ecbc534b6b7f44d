import Verif.Lemmas.EnIncomplete
import Verif.Lemmas.EnClock
import Verif.Lemmas.RelMove
import Verif.Props.English
import Verif.Props.MonthOnly
import Verif.Props.TwoDigitYear
/-! # C56: incomplete English dates, from the call of `Parse` to its result -/
set_option autoImplicit false
namespace Verif.Props
open Verif.Go Verif.Model Verif.Data Verif.Lemmas Verif.Spec

/-- In a zone with one offset the clock tells the time. -/
theorem shows_fixed {T : Time} {l : Loc} {y m d H M S ns : Int} (hsh : Shows T y m d H M S ns) (hcl : IsClock H M S ns) (hloc : T.loc = l) (hf : l.IsFixed) :
    T = goDate y m d H M S ns l := by
  subst hloc
  have h1 := sec_eq T 0 hf
  rw [goDate_fixed y m d H M S ns T.loc hf 0 ⟨hcl.2.2.2.2.2.2.1, hcl.2.2.2.2.2.2.2⟩]
  have h2 : monthIndex T = 12 * y + (m - 1) := by unfold monthIndex; rw [hsh.year, hsh.month]
  rw [h2, hsh.day, hsh.hour, hsh.minute, hsh.second] at h1
  cases T with
  | mk sec nsec loc =>
    have h3 := hsh.nanosecond
    simp only at h1 h3
    rw [h1, h3]

theorem callNow {E : Env} (hE : Sound E) (c : PCfg) : nowOf (enCfg c E.now) E.now = baseTime c E.now := nowOf_base hE c

theorem absolute_locale {cfg : Cfg} {now : Time} {mf : Nat → Bool} {str : List Char} {tz : Option Tz} {r : DateRes}
    (h : absoluteParse cfg now mf str tz = .ok r) : r.locale = [] := by
  unfold absoluteParse at h
  simp only at h
  split at h
  · cases h
  · unfold absParse at h
    split at h
    · cases h
    · simp only at h
      split at h
      · cases h
      · split at h
        · cases h
        · split at h
          · cases h
          · cases h; rfl

theorem monthNames_range {mon : List Char} {n : Int} (h : IsMonthName mon n) : 1 ≤ n ∧ n ≤ 12 := (monthNames_facts _ h).2.2.2.2.2.2.2

theorem relaxed_lenient {c : PCfg} (h : Relaxed c) (now : Time) : Lenient (enCfg c now) := ⟨h.strict, h.required⟩

theorem chosenDay_valid (p : DayOfMonth) {today y m : Int} (h1 : 1 ≤ m) (h2 : m ≤ 12) (ht : 1 ≤ today) : IsDate y m (chosenDay p today (monthLen y m)) := by
  have := monthLen_bounds y m
  refine ⟨h1, h2, ?_, ?_⟩ <;> unfold chosenDay <;> split <;> (try split) <;> omega

theorem chosenMonth_valid (p : MonthOfYear) {m : Int} (h : 1 ≤ m ∧ m ≤ 12) : 1 ≤ chosenMonth p m ∧ chosenMonth p m ≤ 12 := by
  unfold chosenMonth; split <;> omega

theorem time_date (t : Time) : IsDate t.year t.month t.day := (valid_iff _ _ _).mp t.civil_valid

/-- A text with one month name and one number passes. -/
theorem one_number {E : Env} (hE : Sound E) {f : Bool} {a ds d mon : List Char} {n : Int} (hmon : IsMonthName mon n) (hd : IsNumeral d)
    (hds : ∀ c ∈ ds, c.isDigit = true) (ha : a.map (sub ds) = d) (hpass : dayMonthsPass f a = true) :
    Passed E.uni E.table (enData.lang E.uni) [['t']] (dayMonthText f d mon) (dayMonthText f d (fullName n)) ∧
      noAmount (dayMonthText f d (fullName n)) = true := by
  have hone := List.all_eq_true.mp hpass _ hmon
  have hplain := List.all_eq_true.mp month_names_plain _ hmon
  have hfull := List.all_eq_true.mp full_names _ hmon
  have hasc := List.all_eq_true.mp month_ascii _ hmon
  simp only [Bool.and_eq_true, decide_eq_true_eq] at hone hplain hfull hasc
  have hsub : sub ds ' ' = ' ' := sub_other (by decide)
  have hmap : ∀ w, (dayMonthText f a w).map (sub ds) = dayMonthText f d (w.map (sub ds)) := by
    intro w; cases f <;> simp [dayMonthText, hsub, ha]
  have hlow : toLower (dayMonthText f d mon) = (dayMonthText f a (toLower mon)).map (sub ds) := by
    rw [hmap, map_sub_word hplain]
    cases f <;> simp only [dayMonthText, Bool.false_eq_true, if_false, if_true, lower_append, lower_cons, lower_numeral hd] <;> rfl
  have hascii : ∀ x ∈ dayMonthText f d mon, x.toNat < 128 := by
    apply lower_inv
    have h1 : ∀ x ∈ toLower d, x.toNat < 128 := by rw [lower_numeral hd]; exact numeral_ascii hd
    have h3 : ∀ x ∈ toLower mon, x.toNat < 128 := isAscii_mem hasc
    intro x hx
    cases f <;> simp only [dayMonthText, Bool.false_eq_true, if_false, if_true, lower_append, lower_cons, List.mem_append, List.mem_cons] at hx
    · rcases hx with hx | rfl | hx
      · exact h3 x hx
      · decide
      · exact h1 x hx
    · rcases hx with hx | rfl | hx
      · exact h1 x hx
      · decide
      · exact h3 x hx
  have := date_sub hE hds hone hascii hlow
  rwa [hmap, map_sub_word hfull.1] at this

theorem leap_back (y : Int) : ∃ z, y - 8 ≤ z ∧ z < y ∧ Leap z := by
  unfold Leap
  by_cases h : (y - 1 - (y - 1) % 4) % 100 = 0
  · exact ⟨y - 1 - (y - 1) % 4 - 4, by omega, by omega, by omega⟩
  · exact ⟨y - 1 - (y - 1) % 4, by omega, by omega, by omega⟩

/-- A year with this day in it, at most eight years back. -/
theorem year_back {m d : Int} (hex : ∃ y, IsDate y m d) (y : Int) : ∃ z, y - 8 ≤ z ∧ z < y ∧ IsDate z m d := by
  obtain ⟨x, h1, h2, h3, h4⟩ := hex
  obtain ⟨z, z1, z2, z3⟩ := leap_back y
  refine ⟨z, z1, z2, h1, h2, h3, ?_⟩
  unfold monthLen at h4 ⊢
  by_cases hm : m = 2
  · rw [if_pos hm] at h4 ⊢
    rw [if_pos z3]
    split at h4 <;> omega
  · rw [if_neg hm] at h4 ⊢
    exact h4

/-- The right year is at most eight years back. -/
theorem right_year_bound {src : DateSource} {now : Time} {m d Y : Int} (hf : now.loc.IsFixed) (hv : IsDate Y m d)
    (h : RightYear src now m d 0 0 0 0 Y) : now.year - 8 ≤ Y := by
  obtain ⟨z, z1, z2, z3⟩ := year_back ⟨Y, hv⟩ now.year
  cases src with
  | past =>
    by_cases hlt : Y < z
    · have := h.2 z hlt z3
      rw [(before_of_year hf z3 clock0).2 z2] at this
      cases this
    · omega
  | future =>
    by_cases hlt : Y < now.year
    · have h1 := h.1
      rw [(before_of_year hf hv clock0).2 hlt] at h1
      cases h1
    · omega
  | current =>
    by_cases hd : IsDate now.year m d
    · have := h.1 hd; omega
    · have := (h.2 hd z z3).1
      omega

/-- What the absolute parser shows is what `Parse` yields. -/
theorem call_shows {E : Env} (hE : Sound E) {s : ParserSt} {c : PCfg} (hc : EnglishFirst s c) {str t : List Char}
    (hp : Passed E.uni E.table (enData.lang E.uni) [['t']] str t) (hn : noAmount t = true) (ht : t ≠ []) {r : DateRes} {p : Period} (hpn : p ≠ .none)
    {y m d H M S ns : Int} (hv : IsDate y m d) (hcl : IsClock H M S ns) (hy : 2 ≤ y)
    (hdt : absoluteParse (enCfg c E.now) E.now E.monthFirst t none = .ok r) (hrp : r.period = p) (hsh : Shows r.time y m d H M S ns)
    (hloc : r.time.loc = (baseTime c E.now).loc) (hz : FixedZones c E.now) : ∃ r, Yields E s c str p y m d H M S ns r := by
  refine call_yields hE hc hp hn ht hpn hv hcl hy ?_ ⟨hz.fixed.noJump _, hz.base, hz.dflt⟩
  rw [hdt, ← shows_fixed hsh hcl hloc hz.fixed, ← hrp]
  have hrl := absolute_locale hdt
  cases r
  simp only at hrl
  rw [hrl]

/-- **C56** "5 March", "March 5" (the month in full or abbreviated, in any letter case): that day at midnight, Period Day, in the year the
preference asks for: with Past the latest one not after now, with Future the earliest one after now, else the current year.  If the year comes
before the day in the date order, the day has to be of one digit: see `C06_two_digits_taken_as_year`. -/
theorem C56_day_month {E : Env} (hE : Sound E) {s : ParserSt} {c : PCfg} (hc : EnglishFirst s c) (hr : Relaxed c) (hz : FixedZones c E.now)
    (hb : 10 ≤ (baseTime c E.now).year) (f : Bool) (d mon : List Char) (n : Int) (hd : Short d) (hmon : IsMonthName mon n)
    (hex : ∃ y, IsDate y n (number d)) (o : Order) (ho : toLower (englishOrder c) = o.letters) (hord : Order.dayBeforeYear o ∨ d.length = 1) :
    ∃ r Y, Yields E s c (dayMonthText f d mon) .day Y n (number d) 0 0 0 0 r ∧ IsDate Y n (number d) ∧
      RightYear (sourceOf c) (baseTime c E.now) n (number d) 0 0 0 0 Y := by
  obtain ⟨a, ds, ha, hds, hda, _⟩ := month_sub hd (y := "2000".toList) ⟨by unfold IsNumeral; decide, by decide⟩
  have hpass : dayMonthsPass f a = true := by
    rcases ha with rfl | rfl <;> cases f
    · exact dayMonths_3
    · exact dayMonths_1
    · exact dayMonths_4
    · exact dayMonths_2
  obtain ⟨hp, hn⟩ := one_number hE (f := f) hmon hd.1 hds hda hpass
  have hfull := List.all_eq_true.mp full_names _ hmon
  simp only [Bool.and_eq_true, decide_eq_true_eq] at hfull
  have hst : DayMonth d (fullName n) [' '] (dayMonthText f d (fullName n)) := by
    cases f
    · rw [show dayMonthText false d (fullName n) = fullName n ++ [' '] ++ d by simp [dayMonthText]]; exact .md
    · rw [show dayMonthText true d (fullName n) = d ++ [' '] ++ fullName n by simp [dayMonthText]]; exact .dm
  obtain ⟨r, Y, h1, h2, h3, h4, h5, h6⟩ := C06_day_month (enCfg c E.now) E.now E.monthFirst none o (by rw [enCfg_order]; exact ho) d (fullName n) [' '] _ n hd
    hfull.2 isSep_space hst hex hord (by rw [callNow hE]; exact hz.fixed) hr.strict hr.required
  rw [callNow hE] at h5 h6
  have hY := right_year_bound hz.fixed h3 h6
  obtain ⟨r', hr'⟩ := call_shows hE hc hp hn (by cases f <;> simp [dayMonthText]) (p := .day) (by decide) h3 clock0 (by omega) h1 h2 h4 h5 hz
  exact ⟨r', Y, hr', h3, h6⟩

/-- **C56** "March 2015", "2015 March": Period Month, on the day `PreferredDayOfMonth` asks for.  The exception (29th of the month today,
February of a common year) is the finding `C09_february_on_the_29th`. -/
theorem C56_month_year {E : Env} (hE : Sound E) {s : ParserSt} {c : PCfg} (hc : EnglishFirst s c) (hr : Relaxed c) (hz : FixedZones c E.now)
    (f : Bool) (mon y : List Char) (n : Int) (hmon : IsMonthName mon n) (hy : Four y) (hy2 : 2 ≤ number y)
    (hx : ¬ ((baseTime c E.now).day = 29 ∧ n = 2 ∧ ¬ Leap (number y))) :
    ∃ r, Yields E s c (dayMonthText f y mon) .month (number y) n
      (chosenDay (dayPreference c) (baseTime c E.now).day (monthLen (number y) n)) 0 0 0 0 r := by
  obtain ⟨o, ho⟩ := englishOrder_some c
  obtain ⟨a, ds, _, hds, _, hya⟩ := month_sub (d := "1".toList) ⟨by unfold IsNumeral; decide, by decide⟩ hy
  have hpass : dayMonthsPass f "3456".toList = true := by
    cases f
    · exact monthYears
    · exact yearMonths
  obtain ⟨hp, hn⟩ := one_number hE (f := f) hmon hy.1 hds hya hpass
  have hfull := List.all_eq_true.mp full_names _ hmon
  simp only [Bool.and_eq_true, decide_eq_true_eq] at hfull
  have hst : MonthYear (fullName n) y [' '] (dayMonthText f y (fullName n)) := by
    cases f
    · rw [show dayMonthText false y (fullName n) = fullName n ++ [' '] ++ y by simp [dayMonthText]]; exact .my
    · rw [show dayMonthText true y (fullName n) = y ++ [' '] ++ fullName n by simp [dayMonthText]]; exact .ym
  obtain ⟨r, h1, h2, h3, h4⟩ := C09_month_year (enCfg c E.now) E.now E.monthFirst none o (by rw [enCfg_order]; exact ho) (fullName n) y [' '] _ n hy
    hfull.2 isSep_space hst hy2 (by rw [callNow hE]; exact hz.fixed) (by rw [callNow hE]; exact hx) (relaxed_lenient hr E.now)
  rw [callNow hE] at h3 h4
  have hm := monthNames_range hmon
  exact call_shows hE hc hp hn (by cases f <;> simp [dayMonthText]) (p := .month) (by decide)
    (chosenDay_valid _ hm.1 hm.2 (time_date _).2.2.1) clock0 hy2 h1 h2 h3 h4 hz

/-- **C56** "March": Period Month, in the first such month on the side `PreferredDateSource` asks for (counting the current month as past), on
the day `PreferredDayOfMonth` asks for.  February is left out on the 29th to 31st of a month: see `C09_february_future`. -/
theorem C56_month {E : Env} (hE : Sound E) {s : ParserSt} {c : PCfg} (hc : EnglishFirst s c) (hr : Relaxed c) (hz : FixedZones c E.now)
    (hb : 3 ≤ (baseTime c E.now).year) (hwf : (baseTime c E.now).WF) (mon : List Char) (n : Int) (hmon : IsMonthName mon n)
    (hx : ¬ (29 ≤ (baseTime c E.now).day ∧ n = 2)) :
    ∃ r, Yields E s c mon .month (monthYearFor (sourceOf c) (baseTime c E.now) n) n
      (chosenDay (dayPreference c) (baseTime c E.now).day (monthLen (monthYearFor (sourceOf c) (baseTime c E.now) n) n)) 0 0 0 0 r := by
  have hone := List.all_eq_true.mp monthsAlone _ hmon
  have hplain := List.all_eq_true.mp month_names_plain _ hmon
  have hfull := List.all_eq_true.mp full_names _ hmon
  have hasc := List.all_eq_true.mp month_ascii _ hmon
  simp only [Bool.and_eq_true, decide_eq_true_eq] at hone hplain hfull hasc
  obtain ⟨hp, hn⟩ := date_sub hE (ds := []) (by simp) hone (lower_inv (isAscii_mem hasc)) (map_sub_word hplain).symm
  rw [map_sub_word hfull.1] at hp hn
  obtain ⟨r, h1, h2, h3, h4⟩ := C09_month_only (enCfg c E.now) E.now E.monthFirst none (fullName n) n hfull.2
    (by rw [callNow hE]; exact hz.fixed) (by rw [callNow hE]; exact hwf) (by rw [callNow hE]; exact hx) (relaxed_lenient hr E.now)
  rw [callNow hE] at h3 h4
  have hm := monthNames_range hmon
  have hy : 2 ≤ monthYearFor (sourceOf c) (baseTime c E.now) n := by
    unfold monthYearFor; split <;> (try split) <;> omega
  refine call_shows hE hc hp hn ?_ (p := .month) (by decide) (chosenDay_valid _ hm.1 hm.2 (time_date _).2.2.1) clock0 hy h1 h2 h3 h4 hz
  intro e
  have := hfull.2
  rw [e] at this
  revert this
  have : ∀ x ∈ monthNames, x.1 ≠ [] := by decide
  exact fun h => this _ h rfl

/-- **C56** "2015": Period Year, in the month and on the day the preferences ask for. -/
theorem C56_year {E : Env} (hE : Sound E) {s : ParserSt} {c : PCfg} (hc : EnglishFirst s c) (hr : Relaxed c) (hz : FixedZones c E.now)
    (y : List Char) (hy : Four y) (hy2 : 2 ≤ number y)
    (hx : ¬ ((baseTime c E.now).day = 29 ∧ (baseTime c E.now).month = 2 ∧ ¬ Leap (number y))) :
    ∃ r, Yields E s c y .year (number y) (chosenMonth (monthPreference c) (baseTime c E.now).month)
      (chosenDay (dayPreference c) (baseTime c E.now).day (monthLen (number y) (chosenMonth (monthPreference c) (baseTime c E.now).month))) 0 0 0 0 r := by
  obtain ⟨o, ho⟩ := englishOrder_some c
  obtain ⟨a, ds, _, hds, _, hya⟩ := month_sub (d := "1".toList) ⟨by unfold IsNumeral; decide, by decide⟩ hy
  obtain ⟨hp, hn⟩ := date_sub hE hds yearAlone (numeral_ascii hy.1) (by rw [lower_numeral hy.1, hya])
  rw [hya] at hp hn
  obtain ⟨r, h1, h2, h3, h4⟩ := C09_year (enCfg c E.now) E.now E.monthFirst none o (by rw [enCfg_order]; exact ho) y hy hy2
    (by rw [callNow hE]; exact hz.fixed) (by rw [callNow hE]; exact hx) (relaxed_lenient hr E.now)
  rw [callNow hE] at h3 h4
  have hm := chosenMonth_valid (monthPreference c) (m := (baseTime c E.now).month) ⟨(time_date _).1, (time_date _).2.1⟩
  exact call_shows hE hc hp hn hy.1.1 (p := .year) (by decide) (chosenDay_valid _ hm.1 hm.2 (time_date _).2.2.1) clock0 hy2 h1 h2 h3 h4 hz

/-! ## Numbers of at most two digits -/

def pad2 : List Char → List Char
  | [x] => [x, '0']
  | l => l

theorem pad2_two {a : List Char} (h : Short a) : ∃ x y, pad2 a = [x, y] ∧ x.isDigit = true ∧ y.isDigit = true := by
  rcases short_len h with e | e
  · obtain ⟨x, rfl⟩ := len1 e
    exact ⟨x, '0', rfl, h.1.2 x (by simp), by decide⟩
  · obtain ⟨x, y, rfl⟩ := len2 e
    exact ⟨x, y, rfl, h.1.2 x (by simp), h.1.2 y (by simp)⟩

/-- The digits of three numbers. -/
def digits3 (a b c : List Char) : List Char := '0' :: (pad2 a ++ pad2 b ++ pad2 c)

theorem digits3_ok {a b c : List Char} (ha : Short a) (hb : Short b) (hc : Short c) :
    (∀ x ∈ digits3 a b c, x.isDigit = true) ∧ (tmplA a.length).map (sub (digits3 a b c)) = a ∧
      (tmplB b.length).map (sub (digits3 a b c)) = b ∧ (tmplC c.length).map (sub (digits3 a b c)) = c := by
  obtain ⟨a1, a2, ea, da1, da2⟩ := pad2_two ha
  obtain ⟨b1, b2, eb, db1, db2⟩ := pad2_two hb
  obtain ⟨c1, c2, ec, dc1, dc2⟩ := pad2_two hc
  have e : digits3 a b c = ['0', a1, a2, b1, b2, c1, c2] := by unfold digits3; rw [ea, eb, ec]; rfl
  rw [e]
  refine ⟨?_, ?_, ?_, ?_⟩
  · intro x hx
    simp only [List.mem_cons, List.not_mem_nil, or_false] at hx
    rcases hx with rfl | rfl | rfl | rfl | rfl | rfl | rfl <;> first | assumption | decide
  · rcases short_len ha with h | h
    · obtain ⟨x, rfl⟩ := len1 h; cases ea; rfl
    · obtain ⟨x, y, rfl⟩ := len2 h; cases ea; rfl
  · rcases short_len hb with h | h
    · obtain ⟨x, rfl⟩ := len1 h; cases eb; rfl
    · obtain ⟨x, y, rfl⟩ := len2 h; cases eb; rfl
  · rcases short_len hc with h | h
    · obtain ⟨x, rfl⟩ := len1 h; cases ec; rfl
    · obtain ⟨x, y, rfl⟩ := len2 h; cases ec; rfl

theorem shortTmpl_sub {a b c : List Char} (ha : Short a) (hb : Short b) (hc : Short c) {sep : Char} (hs : sep.isDigit = false) :
    (shortTmpl a.length b.length c.length sep).map (sub (digits3 a b c)) = a ++ sep :: (b ++ sep :: c) := by
  obtain ⟨_, h1, h2, h3⟩ := digits3_ok ha hb hc
  have e : shortTmpl a.length b.length c.length sep = tmplA a.length ++ sep :: (tmplB b.length ++ sep :: tmplC c.length) := rfl
  rw [e]
  simp only [List.map_append, List.map_cons, h1, h2, h3, sub_other hs]

theorem short_mem {a : List Char} (h : Short a) : a.length ∈ [1, 2] := by
  rcases short_len h with e | e <;> simp [e]

/-- **C56** "3/5/15": a numeric date with a two digit year in the configured order: Period Day, midnight of that day in the year of 1969..2068 with these
last digits, moved by a century as the preference says.  Left out is 29 February if the century moves it into a year that has none. -/
theorem C56_two_digit_year {E : Env} (hE : Sound E) {s : ParserSt} {c : PCfg} (hc : EnglishFirst s c) (hz : FixedZones c E.now) (o : Order)
    (ho : toLower (englishOrder c) = o.letters) (d m y : List Char) (hd : Short d) (hm : Short m) (hy : Two y) (sep : Char)
    (hsep : sep = '/' ∨ sep = '.' ∨ sep = '-') (hdate : IsDate (pivotYear (number y)) (number m) (number d)) :
    let now := baseTime c E.now
    let Y := centuryFor (sourceOf c)
      (now.before (goDate (pivotYear (number y)) (number m) (number d) 0 0 0 0 now.loc)) (pivotYear (number y))
    IsDate Y (number m) (number d) → ∃ r, Yields E s c (o.write d m y [sep] [sep]) .day Y (number m) (number d) 0 0 0 0 r := by
  intro now Y hY
  have hy' : Short y := ⟨hy.1, by have := hy.2; omega⟩
  have hp3 : Short (o.pick d m y).1 ∧ Short (o.pick d m y).2.1 ∧ Short (o.pick d m y).2.2 := by
    cases o <;> simp [Order.pick, hd, hm, hy']
  have hpass : shortsPass sep = true := by
    rcases hsep with rfl | rfl | rfl
    · exact shorts_slash
    · exact shorts_dot
    · exact shorts_dash
  have hsd : sep.isDigit = false ∧ sep.toNat < 128 ∧ toLowerC sep = sep := by rcases hsep with rfl | rfl | rfl <;> decide
  have hone := List.all_eq_true.mp (List.all_eq_true.mp (List.all_eq_true.mp hpass _ (short_mem hp3.1)) _ (short_mem hp3.2.1)) _ (short_mem hp3.2.2)
  have htext := shortTmpl_sub hp3.1 hp3.2.1 hp3.2.2 hsd.1
  obtain ⟨hp, hn⟩ := date_sub hE (digits3_ok hp3.1 hp3.2.1 hp3.2.2).1 hone (s := o.write d m y [sep] [sep])
    (by
      rw [write_sep]
      intro x hx
      simp only [List.mem_append, List.mem_cons] at hx
      rcases hx with hx | rfl | hx | rfl | hx
      · exact numeral_ascii hp3.1.1 x hx
      · exact hsd.2.1
      · exact numeral_ascii hp3.2.1.1 x hx
      · exact hsd.2.1
      · exact numeral_ascii hp3.2.2.1 x hx)
    (by
      rw [htext, write_sep]
      simp only [lower_append, lower_cons, lower_numeral hp3.1.1, lower_numeral hp3.2.1.1, lower_numeral hp3.2.2.1, hsd.2.2])
  rw [htext, ← write_sep] at hp hn
  have hsp : SepPair [sep] [sep] := by
    rcases hsep with rfl | rfl | rfl <;> (unfold SepPair IsSeparator; decide)
  obtain ⟨r, h1, h2, h3, h4⟩ := C07_two_digit_year (enCfg c E.now) E.now E.monthFirst none o (by rw [enCfg_order]; exact ho) d m y [sep] [sep] hd hm hy hsp hdate
    (by rw [callNow hE]; exact hz.fixed)
  rw [callNow hE] at h3 h4
  have hY2 : 2 ≤ Y := by
    have h := C07_pivot (number y) ⟨number_nonneg hy.1, by
      rw [number_eq]; have := (natOfDigits_range hy.1.2).2; rw [hy.2] at this; omega⟩
    show 2 ≤ centuryFor _ _ _
    unfold centuryFor
    split <;> omega
  exact call_shows hE hc hp hn (by rw [write_sep]; simp) (p := .day) (by decide) hY clock0 hY2 h1 h2 (h4 hY) (by rw [h3]; rfl) hz

/-! ## Weekdays -/

theorem weekday_names_plain : (weekdays.all fun x => isAscii x.1 && x.1.all fun c => !c.isDigit) = true := by decide +kernel
theorem full_weekdays : (weekdays.all fun x => (fullWeekday x.2).all (fun c => !c.isDigit) && decide (fullWeekday x.2 ≠ []) &&
    decide ((toLower (fullWeekday x.2), x.2) ∈ weekdays)) = true := by decide +kernel

theorem year_of_days {T : Time} (h : daysOfCivil 3 1 1 - 7 ≤ T.civil.days) : 2 ≤ T.year := by
  by_cases hlt : T.year < 2
  · have h1 : T.civil.days < (Civil.mk 2 1 1).days := (Civil.days_lt_iff T.civil_valid (by decide)).mpr (Or.inl hlt)
    have h2 : (Civil.mk 2 1 1).days + 300 < daysOfCivil 3 1 1 := by decide +kernel
    omega
  · omega

theorem days_of_year {T : Time} (h : 3 ≤ T.year) : daysOfCivil 3 1 1 ≤ T.civil.days := by
  by_cases hlt : T.civil.days < daysOfCivil 3 1 1
  · have := (Civil.days_lt_iff T.civil_valid (b := Civil.mk 3 1 1) (by decide)).mp hlt
    have hd := time_date T
    rcases this with h1 | ⟨h1, h2⟩
    · have : T.civil.y < 3 := h1
      have : T.year = T.civil.y := rfl
      omega
    · rcases h2 with h2 | ⟨_, h2⟩
      · have h3 : T.civil.m < 1 := h2
        have h4 := hd.1
        have : T.month = T.civil.m := rfl
        omega
      · have h3 : T.civil.d < 1 := h2
        have h4 := hd.2.2.1
        have : T.day = T.civil.d := rfl
        omega
  · omega

/-- **C56** "Thursday", "thu": Period Day, midnight of a day with this weekday: with Past the last one before today, with Future the next one
after today, else the last one up to today. -/
theorem C56_weekday {E : Env} (hE : Sound E) {s : ParserSt} {c : PCfg} (hc : EnglishFirst s c) (hr : Relaxed c) (hz : FixedZones c E.now)
    (hb : 3 ≤ (baseTime c E.now).year) (t : List Char) (w : Int) (ht : IsWeekdayName t w) :
    ∃ r Y M D, Yields E s c t .day Y M D 0 0 0 0 r ∧ IsDate Y M D ∧ r.time.weekday = w ∧
      ShiftOK (sourceOf c) (r.time.civil.days - (baseTime c E.now).civil.days) := by
  have hone := List.all_eq_true.mp weekdaysAlone _ ht
  have hplain := List.all_eq_true.mp weekday_names_plain _ ht
  have hfull := List.all_eq_true.mp full_weekdays _ ht
  simp only [Bool.and_eq_true, decide_eq_true_eq] at hone hplain hfull
  obtain ⟨hp, hn⟩ := date_sub hE (ds := []) (by simp) hone (lower_inv (isAscii_mem hplain.1)) (map_sub_word hplain.2).symm
  rw [map_sub_word hfull.1.1] at hp hn
  obtain ⟨k, h0, _, _⟩ := C05_weekday (enCfg c E.now) E.now E.monthFirst none (fullWeekday w) w hfull.2 hr.strict hr.required
  obtain ⟨r, h1, h2, h3, h4, h5⟩ := C05_weekday_shows (enCfg c E.now) E.now E.monthFirst none (fullWeekday w) w hfull.2 hr.strict hr.required
    (by rw [nowOf_base hE]; exact hz.fixed)
  rw [nowOf_base hE] at h0 h4
  have hloc : r.time.loc = (baseTime c E.now).loc := by
    rw [h1] at h0; cases h0; rfl
  have hdays := days_of_year hb
  have hy : 2 ≤ r.time.year := by
    apply year_of_days
    have : -7 ≤ r.time.civil.days - (baseTime c E.now).civil.days := by
      revert h4
      show ShiftOK (sourceOf c) _ → _
      cases sourceOf c <;> simp only [ShiftOK] <;> omega
    omega
  have hsh : Shows r.time r.time.year r.time.month r.time.day 0 0 0 0 := ⟨rfl, rfl, rfl, h5.1, h5.2.1, h5.2.2.1, h5.2.2.2⟩
  obtain ⟨r', hr'⟩ := call_shows hE hc hp hn hfull.1.2 (p := .day) (by decide) (time_date r.time) clock0 hy h1 h2 hsh hloc hz
  have hciv : r'.time.civil = r.time.civil := by
    have h6 := hr'.shows
    have e : ∀ T : Time, T.civil = ⟨T.year, T.month, T.day⟩ := fun _ => rfl
    rw [e, h6.year, h6.month, h6.day]; rfl
  refine ⟨r', _, _, _, hr', time_date r.time, ?_, ?_⟩
  · rw [Time.weekday_eq, hciv, ← Time.weekday_eq]; exact h3
  · rw [hciv]; exact h4

/-! ## Times of day -/

/-- With AM and PM in lower case. -/
def lowClock (mr : Meridian) : Notation → Notation
  | .hour h _ => .hour h (merLetters mr)
  | .hmMer h m _ => .hmMer h m (merLetters mr)
  | .hmsMer h m s _ => .hmsMer h m s (merLetters mr)
  | n => n

theorem mer_low {mer : List Char} {mr : Meridian} (h : IsMeridian mer mr) : toLower mer = merLetters mr := by cases mr <;> exact h
theorem mer_written (mr : Meridian) : IsMeridian (merLetters mr) mr := by cases mr <;> decide
theorem mer_plain (ds : List Char) (mr : Meridian) : (merLetters mr).map (sub ds) = merLetters mr := map_sub_word (by cases mr <;> decide)

theorem mem_clocksPlain {a b : Nat} (ha : a ∈ [1, 2]) (hb : b ∈ [1, 2]) : Notation.hm (tmplA a) (tmplB b) ∈ clocksPlain ∧
    ∀ c ∈ [1, 2], Notation.hms (tmplA a) (tmplB b) (tmplC c) ∈ clocksPlain := by
  constructor
  · exact List.mem_flatMap.mpr ⟨a, ha, List.mem_flatMap.mpr ⟨b, hb, List.mem_cons_self⟩⟩
  · intro c hc
    exact List.mem_flatMap.mpr ⟨a, ha, List.mem_flatMap.mpr ⟨b, hb, List.mem_cons_of_mem _ (List.mem_map.mpr ⟨c, hc, rfl⟩)⟩⟩

theorem mem_clocksMer (mr : Meridian) {a : Nat} (ha : a ∈ [1, 2]) : Notation.hour (tmplA a) (merLetters mr) ∈ clocksMer mr ∧
    ∀ b ∈ [1, 2], Notation.hmMer (tmplA a) (tmplB b) (merLetters mr) ∈ clocksMer mr ∧
      ∀ c ∈ [1, 2], Notation.hmsMer (tmplA a) (tmplB b) (tmplC c) (merLetters mr) ∈ clocksMer mr := by
  refine ⟨List.mem_flatMap.mpr ⟨a, ha, List.mem_cons_self⟩, fun b hb => ⟨?_, fun c hc => ?_⟩⟩
  · exact List.mem_flatMap.mpr ⟨a, ha, List.mem_cons_of_mem _ (List.mem_flatMap.mpr ⟨b, hb, List.mem_cons_self⟩)⟩
  · exact List.mem_flatMap.mpr ⟨a, ha, List.mem_cons_of_mem _ (List.mem_flatMap.mpr ⟨b, hb, List.mem_cons_of_mem _ (List.mem_map.mpr ⟨c, hc, rfl⟩)⟩)⟩

/-- The time of day standing for this one. -/
theorem clock_sub {mr : Meridian} {n : Notation} (hn : n.Written mr) (hp : n.plain = true) (at_ glued : Bool) : ∃ (ds : List Char) (t : Notation),
    (∀ c ∈ ds, c.isDigit = true) ∧ passesDate (timeText at_ glued t) t.text = true ∧ (timeText at_ glued t).map (sub ds) = timeText at_ glued (lowClock mr n) ∧
      t.text.map (sub ds) = (lowClock mr n).text := by
  have one : Short ['1'] := ⟨by unfold IsNumeral; decide, by decide⟩
  have hmer : ∀ t ∈ clocksMer mr, passesDate (timeText at_ glued t) t.text = true := by
    intro t ht
    cases mr <;> cases at_
    · exact List.all_eq_true.mp (clocks_am glued) t ht
    · exact List.all_eq_true.mp (clocks_at_am glued) t ht
    · exact List.all_eq_true.mp (clocks_pm glued) t ht
    · exact List.all_eq_true.mp (clocks_at_pm glued) t ht
  have hpl : ∀ t ∈ clocksPlain, passesDate (timeText at_ false t) t.text = true := List.all_eq_true.mp (clocks_plain at_)
  have hat : ∀ ds : List Char, sub ds 'a' = 'a' ∧ sub ds 't' = 't' := fun ds => ⟨sub_other (by decide), sub_other (by decide)⟩
  have hc : ∀ ds : List Char, sub ds ':' = ':' ∧ sub ds ' ' = ' ' := fun ds => ⟨sub_other (by decide), sub_other (by decide)⟩
  cases n with
  | hour h mer =>
    obtain ⟨d0, dA, _, _⟩ := digits3_ok (a := h) hn.1 one one
    refine ⟨digits3 h ['1'] ['1'], .hour (tmplA h.length) (merLetters mr), d0, hmer _ (mem_clocksMer mr (short_mem hn.1)).1, ?_, ?_⟩
    · cases at_ <;> cases glued <;> simp [timeText, lowClock, Notation.text, dA, mer_plain, hat, hc]
    · simp [lowClock, Notation.text, dA, mer_plain, hc]
  | hm h m =>
    obtain ⟨d0, dA, dB, _⟩ := digits3_ok (a := h) (b := m) hn.1 hn.2 one
    refine ⟨digits3 h m ['1'], .hm (tmplA h.length) (tmplB m.length), d0, ?_, ?_, ?_⟩
    · have := hpl _ (mem_clocksPlain (short_mem hn.1) (short_mem hn.2)).1
      cases glued <;> exact this
    · cases at_ <;> simp [timeText, lowClock, Notation.text, dA, dB, hat, hc]
    · simp [lowClock, Notation.text, dA, dB, hc]
  | hmMer h m mer =>
    obtain ⟨d0, dA, dB, _⟩ := digits3_ok (a := h) (b := m) hn.1 hn.2.1 one
    refine ⟨digits3 h m ['1'], .hmMer (tmplA h.length) (tmplB m.length) (merLetters mr), d0,
      hmer _ ((mem_clocksMer mr (short_mem hn.1)).2 _ (short_mem hn.2.1)).1, ?_, ?_⟩
    · cases at_ <;> cases glued <;> simp [timeText, lowClock, Notation.text, dA, dB, mer_plain, hat, hc]
    · simp [lowClock, Notation.text, dA, dB, mer_plain, hc]
  | hms h m s =>
    obtain ⟨d0, dA, dB, dC⟩ := digits3_ok (a := h) (b := m) (c := s) hn.1 hn.2.1 hn.2.2
    refine ⟨digits3 h m s, .hms (tmplA h.length) (tmplB m.length) (tmplC s.length), d0, ?_, ?_, ?_⟩
    · have := hpl _ ((mem_clocksPlain (short_mem hn.1) (short_mem hn.2.1)).2 _ (short_mem hn.2.2))
      cases glued <;> exact this
    · cases at_ <;> simp [timeText, lowClock, Notation.text, dA, dB, dC, hat, hc]
    · simp [lowClock, Notation.text, dA, dB, dC, hc]
  | hmsMer h m s mer =>
    obtain ⟨d0, dA, dB, dC⟩ := digits3_ok (a := h) (b := m) (c := s) hn.1 hn.2.1 hn.2.2.1
    refine ⟨digits3 h m s, .hmsMer (tmplA h.length) (tmplB m.length) (tmplC s.length) (merLetters mr), d0,
      hmer _ (((mem_clocksMer mr (short_mem hn.1)).2 _ (short_mem hn.2.1)).2 _ (short_mem hn.2.2.1)), ?_, ?_⟩
    · cases at_ <;> cases glued <;> simp [timeText, lowClock, Notation.text, dA, dB, dC, mer_plain, hat, hc]
    · simp [lowClock, Notation.text, dA, dB, dC, mer_plain, hc]
  | hmsFrac h m s f => cases hp
  | hmsFracMer h m s f mer => cases hp

theorem low_written {mr : Meridian} {n : Notation} (hn : n.Written mr) : (lowClock mr n).Written mr := by
  cases n <;> simp only [lowClock, Notation.Written] at hn ⊢ <;> simp [hn, mer_written]

theorem low_meaning (mr : Meridian) (n : Notation) : (lowClock mr n).meaning mr = n.meaning mr := by cases n <;> rfl
theorem low_plain (mr : Meridian) (n : Notation) : (lowClock mr n).plain = n.plain := by cases n <;> rfl
theorem cut_plain {n : Notation} (h : n.plain = true) : cut6 n = n := by cases n <;> first | rfl | cases h

theorem lower_time {mr : Meridian} {n : Notation} (hn : n.Written mr) (hp : n.plain = true) (at_ glued : Bool) :
    toLower (timeText at_ glued n) = timeText at_ glued (lowClock mr n) := by
  have hat : toLowerC 'a' = 'a' ∧ toLowerC 't' = 't' := by decide
  have hc : toLowerC ':' = ':' ∧ toLowerC ' ' = ' ' := by decide
  cases n with
  | hour h mer => cases at_ <;> cases glued <;> simp [timeText, lowClock, Notation.text, lower_append, lower_cons, hat, hc, lower_numeral hn.1.1, mer_low hn.2] <;> rfl
  | hm h m => cases at_ <;> simp [timeText, lowClock, Notation.text, lower_append, lower_cons, hat, hc, lower_numeral hn.1.1, lower_numeral hn.2.1] <;> rfl
  | hmMer h m mer =>
    cases at_ <;> cases glued <;>
      simp [timeText, lowClock, Notation.text, lower_append, lower_cons, hat, hc, lower_numeral hn.1.1, lower_numeral hn.2.1.1, mer_low hn.2.2] <;> rfl
  | hms h m s =>
    cases at_ <;> simp [timeText, lowClock, Notation.text, lower_append, lower_cons, hat, hc, lower_numeral hn.1.1, lower_numeral hn.2.1.1, lower_numeral hn.2.2.1] <;> rfl
  | hmsMer h m s mer =>
    cases at_ <;> cases glued <;>
      simp [timeText, lowClock, Notation.text, lower_append, lower_cons, hat, hc, lower_numeral hn.1.1, lower_numeral hn.2.1.1, lower_numeral hn.2.2.1.1, mer_low hn.2.2.2] <;> rfl
  | hmsFrac h m s f => cases hp
  | hmsFracMer h m s f mer => cases hp

theorem hour24_range {mr : Meridian} {h : Int} (h0 : 0 ≤ h) (h1 : h < 24) : 0 ≤ hour24 mr h ∧ hour24 mr h < 24 := by
  cases mr <;> simp only [hour24] <;> split <;> omega

/-- A time of day is one. -/
theorem meaning_clock {mr : Meridian} {n : Notation} (hn : n.Written mr) (hp : n.plain = true) {k : Clock} (hk : n.meaning mr = some k) :
    IsClock k.hour k.minute k.second k.nano ∧ k.period ≠ .none := by
  cases n with
  | hour h mer =>
    simp only [Notation.meaning] at hk
    split at hk
    · cases hk
      have := hour24_range (mr := mr) (number_nonneg hn.1.1) (by omega)
      exact ⟨by unfold IsClock; dsimp only; omega, by simp⟩
    · cases hk
  | hm h m =>
    simp only [Notation.meaning] at hk
    split at hk
    · cases hk
      have h1 := number_nonneg hn.1.1; have h2 := number_nonneg hn.2.1
      exact ⟨by unfold IsClock; dsimp only; omega, by simp⟩
    · cases hk
  | hmMer h m mer =>
    simp only [Notation.meaning] at hk
    split at hk
    · cases hk
      have h2 := number_nonneg hn.2.1.1
      have := hour24_range (mr := mr) (number_nonneg hn.1.1) (by omega)
      exact ⟨by unfold IsClock; dsimp only; omega, by simp⟩
    · cases hk
  | hms h m s =>
    simp only [Notation.meaning] at hk
    split at hk
    · cases hk
      have h1 := number_nonneg hn.1.1; have h2 := number_nonneg hn.2.1.1; have h3 := number_nonneg hn.2.2.1
      exact ⟨by unfold IsClock; dsimp only; omega, by simp⟩
    · cases hk
  | hmsMer h m s mer =>
    simp only [Notation.meaning] at hk
    split at hk
    · cases hk
      have h2 := number_nonneg hn.2.1.1; have h3 := number_nonneg hn.2.2.1.1
      have := hour24_range (mr := mr) (number_nonneg hn.1.1) (by omega)
      exact ⟨by unfold IsClock; dsimp only; omega, by simp⟩
    · cases hk
  | hmsFrac h m s f => cases hp
  | hmsFracMer h m s f mer => cases hp

/-- **C56** "10:11", "10:11:12", "10 pm", "10:11pm", "at 10:11:12 PM" …: that time of the current day, moved one day back with Past when this is later
than now, one day ahead with Future when it is earlier – as long as this stays in the current month and `PreferredMonthOfYear` is the current month
(see `C08_month_boundary` and `C08_first_month`).  The Period is the day, or with `ReturnTimeAsPeriod` that of the last part written. -/
theorem C56_time {E : Env} (hE : Sound E) {s : ParserSt} {c : PCfg} (hc : EnglishFirst s c) (hr : Relaxed c) (hz : FixedZones c E.now)
    (hb : 2 ≤ (baseTime c E.now).year) (hmo : monthPreference c = .current) (at_ glued : Bool) (n : Notation) (mr : Meridian) (k : Clock)
    (hn : n.Written mr) (hplain : n.plain = true) (hk : n.meaning mr = some k) :
    let now := baseTime c E.now
    let t := goDate now.year now.month now.day k.hour k.minute k.second k.nano now.loc
    let j := dayShift (sourceOf c) now (t.add (-(namedOffset c.toInternal none t * 1000000000)))
    IsDate now.year now.month (now.day + j) →
    ∃ r, Yields E s c (timeText at_ glued n) (if c.timeAsPeriod then k.period else .day) now.year now.month (now.day + j) k.hour k.minute k.second k.nano r := by
  intro now t j hdate
  obtain ⟨ds, u, hds, hpass, hu1, hu2⟩ := clock_sub hn hplain at_ glued
  have hlow := lower_time hn hplain at_ glued
  have hasc : ∀ x ∈ timeText at_ glued n, x.toNat < 128 := by
    apply lower_inv
    rw [hlow, ← hu1]
    intro x hx
    obtain ⟨b, hb', rfl⟩ := List.mem_map.mp hx
    have hb2 : b.toNat < 128 := by
      simp only [passesDateIn, Bool.and_eq_true] at hpass
      exact isAscii_mem hpass.1.1 b hb'
    by_cases hbd : b.isDigit = true
    · have := digit_range (sub_digit hds hbd); omega
    · rw [sub_other (by simpa using hbd)]; exact hb2
  obtain ⟨hp, hna⟩ := date_sub hE hds hpass hasc (by rw [hlow, hu1])
  rw [hu2] at hp hna
  have hk' : (cut6 (lowClock mr n)).meaning mr = some k := by
    rw [cut_plain (by rw [low_plain]; exact hplain), low_meaning]; exact hk
  have habs := C08_time_only_partial (enCfg c E.now) E.now E.monthFirst none (lowClock mr n) mr k (low_written hn) hk' hr.strict hr.required hmo
    (by rw [callNow hE]; exact hz.fixed)
  simp only [callNow hE] at habs
  obtain ⟨r, h1, h2, h3, h4⟩ := habs hdate
  obtain ⟨hcl, hper⟩ := meaning_clock hn hplain hk
  refine call_shows hE hc hp hna ?_ (p := if c.timeAsPeriod then k.period else .day) ?_ hdate hcl hb h1 h4 h2 h3 hz
  · cases n <;> simp [lowClock, Notation.text]
  · split
    · exact hper
    · decide

/-! ## Examples: on Friday 2024-03-15 12:00 UTC, with the default configuration and with Future -/

theorem demo_fixedZones {c : PCfg} (h : c.currentTime = Time.zero) (h' : c.defaultTz = none) : FixedZones c demoEnv.now := by
  have e : (baseTime c demoEnv.now).loc = Loc.utc := by
    unfold baseTime; rw [h, if_pos (by decide +kernel)]; rfl
  refine ⟨by rw [e]; exact Loc.utc_isFixed, by rw [e]; exact fun t => by show (-86400 : Int) ≤ 0 ∧ (0 : Int) ≤ 86400; decide, fun l hl => ?_⟩
  rw [h'] at hl; cases hl

def ahead : PCfg := { dateSource := 2 }
theorem ahead_first : EnglishFirst {} ahead := ⟨rfl, rfl, rfl, Or.inr ⟨rfl, rfl⟩, rfl, rfl, Or.inl rfl⟩

example : ∃ r Y, Yields demoEnv {} ahead (dayMonthText true "5".toList "Mar".toList) .day Y 3 5 0 0 0 0 r ∧ IsDate Y 3 5 ∧
    RightYear .future (baseTime ahead demoEnv.now) 3 5 0 0 0 0 Y :=
  C56_day_month demo_sound ahead_first ⟨rfl, rfl⟩ (demo_fixedZones rfl rfl) (by decide +kernel) true "5".toList "Mar".toList 3
    ⟨by unfold IsNumeral; decide, by decide⟩ (by unfold IsMonthName; decide) ⟨2000, by decide⟩ .mdy (by decide) (Or.inl trivial)

example : ∃ r, Yields demoEnv {} {} "FEB 2015".toList .month 2015 2 15 0 0 0 0 r :=
  C56_month_year demo_sound demo_first ⟨rfl, rfl⟩ (demo_fixedZones rfl rfl) false "FEB".toList "2015".toList 2
    (by unfold IsMonthName; decide) ⟨by unfold IsNumeral; decide, by decide⟩ (by decide) (by decide +kernel)

example : ∃ r, Yields demoEnv {} {} "August".toList .month 2024 8 15 0 0 0 0 r :=
  C56_month demo_sound demo_first ⟨rfl, rfl⟩ (demo_fixedZones rfl rfl) (by decide +kernel) (by unfold Time.WF; decide +kernel) "August".toList 8
    (by unfold IsMonthName; decide) (by decide +kernel)

example : ∃ r, Yields demoEnv {} {} "2015".toList .year 2015 3 15 0 0 0 0 r :=
  C56_year demo_sound demo_first ⟨rfl, rfl⟩ (demo_fixedZones rfl rfl) "2015".toList ⟨by unfold IsNumeral; decide, by decide⟩ (by decide) (by decide +kernel)

/-- With Future, 1 May 15 is in 2115. -/
example : ∃ r, Yields demoEnv {} ahead "5/1/15".toList .day 2115 5 1 0 0 0 0 r :=
  C56_two_digit_year demo_sound ahead_first (demo_fixedZones rfl rfl) .mdy (by decide) "1".toList "5".toList "15".toList
    ⟨by unfold IsNumeral; decide, by decide⟩ ⟨by unfold IsNumeral; decide, by decide⟩ ⟨by unfold IsNumeral; decide, by decide⟩ '/' (Or.inl rfl)
    (by decide) (by decide +kernel)

example : ∃ r Y M D, Yields demoEnv {} ahead "Thu".toList .day Y M D 0 0 0 0 r ∧ IsDate Y M D ∧ r.time.weekday = 4 ∧
    ShiftOK .future (r.time.civil.days - (baseTime ahead demoEnv.now).civil.days) :=
  C56_weekday demo_sound ahead_first ⟨rfl, rfl⟩ (demo_fixedZones rfl rfl) (by decide +kernel) "Thu".toList 4 (by unfold IsWeekdayName; decide)

/-- 10:11 pm is still to come today, 10:11 am is tomorrow with Future. -/
example : ∃ r, Yields demoEnv {} ahead "at 10:11pm".toList .day 2024 3 15 22 11 0 0 r :=
  C56_time demo_sound ahead_first ⟨rfl, rfl⟩ (demo_fixedZones rfl rfl) (by decide +kernel) rfl true true (.hmMer "10".toList "11".toList "pm".toList) .pm
    { hour := 22, minute := 11, period := .minute } (by decide) rfl (by decide) (by decide +kernel)
example : ∃ r, Yields demoEnv {} ahead "10 AM".toList .day 2024 3 16 10 0 0 0 r :=
  C56_time demo_sound ahead_first ⟨rfl, rfl⟩ (demo_fixedZones rfl rfl) (by decide +kernel) rfl false false (.hour "10".toList "AM".toList) .am
    { hour := 10, period := .hour } (by decide) rfl (by decide) (by decide +kernel)

end Verif.Props
