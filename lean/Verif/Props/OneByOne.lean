import Verif.Spec.OneByOne
import Verif.Model.Whole
import Verif.Props.Parser
import Verif.Props.Words
/-! # C58: several locales are tried one by one -/
set_option autoImplicit false
namespace Verif.Props
open Verif.Go Verif.Model Verif.Data Verif.Lemmas Verif.Spec

theorem formattedLoop_locale (cfg : Cfg) (now : Time) (z : Loc) (str : List Char) (fs : List (List Char)) : (formattedLoop cfg now z str fs).locale = [] := by
  induction fs with
  | nil => rfl
  | cons f r ih =>
    simp only [formattedLoop]
    split
    · exact ih
    · rfl

theorem formatted_locale (E : Env) : ∀ cfg s f, (E.parts.formatted cfg s f).locale = [] :=
  fun _ _ _ => formattedLoop_locale _ _ _ _ _

/-- What one locale has to offer. -/
def offersOf (P : Parts) (c : PCfg) (kinds : List Kind) (str : List Char) (formats : List (List Char)) (x : Name) : List DateRes :=
  if applies P c.toInternal (P.sanitize str) x then
    match dataOf x with
    | some l => kinds.flatMap fun k => (offers P (configFor c l) l (P.sanitize str) formats k).map fun dt => { dt with locale := l.name }
    | none => []
  else []

theorem allOffers_one (P : Parts) (c : PCfg) (kinds : List Kind) (str : List Char) (formats : List (List Char)) (L : List Name) :
    allOffers P c kinds ((L.filter (applies P c.toInternal (P.sanitize str))).filterMap dataOf) str formats =
      P.formatted c.toInternal str formats :: L.flatMap (offersOf P c kinds str formats) := by
  unfold allOffers
  congr 1
  induction L with
  | nil => rfl
  | cons x r ih =>
    rw [List.flatMap_cons, ← ih, List.filter_cons]
    unfold offersOf
    split
    · rw [List.filterMap_cons]
      cases h : dataOf x with
      | none => simp
      | some l => simp
    · simp

/-- The outcome of a search for a date. -/
def outcome (o : Option DateRes) : Except ParseErr DateRes :=
  match o with
  | some d => .ok d
  | none => .error .unknownFormat

/-- The result of a call that loads these locales. -/
theorem parse_loaded (P : Parts) (hfmt : ∀ cfg s f, (P.formatted cfg s f).locale = []) (detect : Option (List Char → List Name)) (kinds : List Kind)
    (before : List Call) (c : Call) (L : List Name) (hv : c.cfg.validate = .ok ()) (hp : c.cfg.tryPrevious = false) (hd : c.cfg.defaultLanguages = [])
    (hn : L.Nodup) (hl : getLocales c.cfg.locales (languagesOf P detect c) c.cfg.region c.cfg.useGivenOrder false = .ok L) :
    (parse P c.now (afterCalls P (newParser detect (kinds.map Kind.code)) before) (some c.cfg) c.str c.formats).2 =
      outcome (if (P.formatted (c.cfg.initiate c.now).toInternal c.str c.formats).isZero then
          L.findSome? fun x => firstDate (offersOf P (c.cfg.initiate c.now) (kindsOrDefault kinds) c.str c.formats x)
        else some (P.formatted (c.cfg.initiate c.now).toInternal c.str c.formats)) := by
  rw [C22_first P hfmt detect kinds before c L hv (Or.inl hl)]
  have e : localesTried P (c.cfg.initiate c.now) (firsts (rememberedLocales (outcomes P (newParser detect (kinds.map Kind.code)) before))) L (P.sanitize c.str) =
      (L.filter (applies P (c.cfg.initiate c.now).toInternal (P.sanitize c.str))).filterMap dataOf := by
    unfold localesTried
    rw [if_neg (by show ¬ c.cfg.tryPrevious = true; rw [hp]; decide), show defaultCodes (c.cfg.initiate c.now) = [] from if_pos hd, List.nil_append, List.append_nil,
      firsts_nodup (hn.filter _)]
  rw [e, allOffers_one]
  unfold firstDate
  rw [List.find?_cons]
  cases (P.formatted (c.cfg.initiate c.now).toInternal c.str c.formats).isZero with
  | false => rfl
  | true =>
    simp only [Bool.not_true, if_true]
    rw [List.find?_flatMap]
    rfl

/-- A known locale asked for alone is the one loaded. -/
theorem alone_loaded (x : Name) (languages : List Name) (given : Bool) (hk : KnownLocale x) : getLocales [x] languages [] given false = .ok [x] := by
  obtain ⟨L, h⟩ := (C27_locales_accepted [x] languages [] given (by simp)).mpr ⟨by simpa using hk, by simp⟩
  obtain ⟨_, h2, _, h4, _⟩ := C27_loaded _ _ _ _ _ h
  have hm : ∀ y, y ∈ L ↔ y = x := by
    intro y
    rw [h4]
    simp [AskedFor]
  have : L = [x] := by
    cases L with
    | nil => exact absurd ((hm x).mpr rfl) (by simp)
    | cons a r =>
      have ha := (hm a).mp (by simp)
      subst ha
      cases r with
      | nil => rfl
      | cons b r =>
        have hb := (hm b).mp (by simp)
        subst hb
        simp at h2
  rw [h, this]

/-! ## One by one -/

theorem outcome_ok {o : Option DateRes} {r : DateRes} : outcome o = .ok r ↔ o = some r := by
  cases o <;> simp [outcome]

theorem outcome_error {o : Option DateRes} : outcome o = .error .unknownFormat ↔ o = none := by
  cases o <;> simp [outcome]

theorem first_iff {L : List Name} (hne : L ≠ []) (z : Bool) (F : DateRes) (g : Name → Option DateRes) (r : DateRes) :
    outcome (if z then L.findSome? g else some F) = .ok r ↔ ∃ pre x post, L = pre ++ x :: post ∧ outcome (if z then [x].findSome? g else some F) = .ok r ∧
      ∀ y ∈ pre, outcome (if z then [y].findSome? g else some F) = .error .unknownFormat := by
  simp only [outcome_ok, outcome_error]
  cases z with
  | false =>
    obtain ⟨a, l, rfl⟩ := List.exists_cons_of_ne_nil hne
    simp only [Bool.false_eq_true, if_false, reduceCtorEq, imp_false]
    constructor
    · intro h; exact ⟨[], a, l, rfl, h, by simp⟩
    · rintro ⟨_, _, _, _, h, _⟩; exact h
  | true =>
    have e : ∀ x, [x].findSome? g = g x := fun x => by cases h : g x <;> simp [List.findSome?, h]
    simp only [if_true, e]
    rw [List.findSome?_eq_some_iff]

/-- The languages a call uses: those given, else, without locales, what the detector says of the text. -/
abbrev langs (E : Env) (detect : Option (List Char → List Name)) (c : PCfg) (str : List Char) : List Name :=
  languagesOf E.parts detect ⟨E.now, c, str, []⟩

/-- **C58** What `Parse` does with several locales, in the order they are loaded (`C27_loaded` and `C27_given_order` say which these are and in which
order): its result is that of the first of them which, asked for alone, gives a result. -/
theorem C58_in_order (E : Env) (detect : Option (List Char → List Name)) (kinds : List Kind) (before : List Call) (c : PCfg) (str : List Char) (formats : List (List Char))
    (hv : c.validate = .ok ()) (hp : c.tryPrevious = false) (hd : c.defaultLanguages = []) {L : List Name}
    (hl : getLocales c.locales (langs E detect c str) c.region c.useGivenOrder false = .ok L) (r : DateRes) :
    (E.parse (afterCalls E.parts (newParser detect (kinds.map Kind.code)) before) (some c) str formats).2 = .ok r ↔
    ∃ pre x post, L = pre ++ x :: post ∧
      (E.parse (afterCalls E.parts (newParser detect (kinds.map Kind.code)) before) (some (asking c x)) str formats).2 = .ok r ∧
      ∀ y ∈ pre, (E.parse (afterCalls E.parts (newParser detect (kinds.map Kind.code)) before) (some (asking c y)) str formats).2 = .error .unknownFormat := by
  obtain ⟨hne, hn, hk, _, _⟩ := C27_loaded _ _ _ _ _ hl
  have h0 := parse_loaded E.parts (formatted_locale E) detect kinds before ⟨E.now, c, str, formats⟩ L hv hp hd hn hl
  have h1 : ∀ x ∈ L, (E.parse (afterCalls E.parts (newParser detect (kinds.map Kind.code)) before) (some (asking c x)) str formats).2 = _ := fun x hx =>
    parse_loaded E.parts (formatted_locale E) detect kinds before ⟨E.now, asking c x, str, formats⟩ [x] hv hp hd (by simp) (alone_loaded x _ _ (hk x hx))
  unfold Env.parse at *
  rw [h0]
  constructor
  · intro h
    obtain ⟨pre, x, post, hL, hx, hy⟩ := (first_iff hne _ _ _ r).mp h
    refine ⟨pre, x, post, hL, ?_, fun y hyp => ?_⟩
    · rw [h1 x (by rw [hL]; simp)]; exact hx
    · rw [h1 y (by rw [hL]; simp [hyp])]; exact hy y hyp
  · rintro ⟨pre, x, post, hL, hx, hy⟩
    refine (first_iff hne _ _ _ r).mpr ⟨pre, x, post, hL, ?_, fun y hyp => ?_⟩
    · rw [h1 x (by rw [hL]; simp)] at hx; exact hx
    · have := hy y hyp
      rw [h1 y (by rw [hL]; simp [hyp])] at this; exact this

theorem accepted_loaded {locales languages : List Name} {region : Name} {given : Bool} (h : Acceptable locales languages) {x : Name} (hx : AskedFor locales languages (tidyRegion region) x) :
    ∃ L, getLocales locales languages region given false = .ok L := by
  unfold Acceptable at h
  by_cases hl : locales = []
  · subst hl
    rw [if_neg (by simp)] at h
    exact (C27_languages_accepted languages region given).mpr ⟨h, x, hx⟩
  · rw [if_pos hl] at h
    exact (C27_locales_accepted locales languages region given hl).mpr h

theorem earlier_asymm {x y : Name} (h : Earlier localeRank x y) : ¬ Earlier localeRank y x := by
  intro h'
  unfold Earlier at h h'
  rcases h with h | ⟨h1, h2⟩ <;> rcases h' with h' | ⟨h3, h4⟩
  · omega
  · omega
  · omega
  · exact List.lt_asymm h2 h4

/-- **C58, by popularity.** Unless the given order is wanted, `Parse` gives a date exactly if one of the locales asked for, asked for alone, gives it and all
earlier ones – by popularity of the language, then by name – asked for alone, give none. -/
theorem C58_one_by_one (E : Env) (detect : Option (List Char → List Name)) (kinds : List Kind) (before : List Call) (c : PCfg) (str : List Char) (formats : List (List Char))
    (hv : c.validate = .ok ()) (hp : c.tryPrevious = false) (hd : c.defaultLanguages = []) (ho : c.useGivenOrder = false)
    (ha : Acceptable c.locales (langs E detect c str)) {x₀ : Name} (hx₀ : AskedFor c.locales (langs E detect c str) (tidyRegion c.region) x₀) (r : DateRes) :
    (E.parse (afterCalls E.parts (newParser detect (kinds.map Kind.code)) before) (some c) str formats).2 = .ok r ↔
    ∃ x, AskedFor c.locales (langs E detect c str) (tidyRegion c.region) x ∧
      (E.parse (afterCalls E.parts (newParser detect (kinds.map Kind.code)) before) (some (asking c x)) str formats).2 = .ok r ∧
      ∀ y, AskedFor c.locales (langs E detect c str) (tidyRegion c.region) y → Earlier localeRank y x →
        (E.parse (afterCalls E.parts (newParser detect (kinds.map Kind.code)) before) (some (asking c y)) str formats).2 = .error .unknownFormat := by
  obtain ⟨L, hl⟩ := accepted_loaded (given := c.useGivenOrder) ha hx₀
  obtain ⟨_, _, _, hm, hs⟩ := C27_loaded _ _ _ _ _ hl
  have hs := hs ho
  rw [C58_in_order E detect kinds before c str formats hv hp hd hl r]
  constructor
  · rintro ⟨pre, x, post, hL, hx, hy⟩
    refine ⟨x, (hm x).mp (by rw [hL]; simp), hx, fun y hya hyx => hy y ?_⟩
    have hyL := (hm y).mpr hya
    rw [hL] at hyL hs
    rcases List.mem_append.mp hyL with h | h
    · exact h
    · have h2 := (List.pairwise_append.mp hs).2.1
      rcases List.mem_cons.mp h with rfl | h
      · exact absurd hyx (earlier_asymm hyx)
      · exact absurd hyx (earlier_asymm (List.rel_of_pairwise_cons h2 h))
  · rintro ⟨x, hxa, hx, hy⟩
    obtain ⟨pre, post, hL⟩ := List.append_of_mem ((hm x).mpr hxa)
    refine ⟨pre, x, post, hL, hx, fun y hyp => hy y ((hm y).mp (by rw [hL]; simp [hyp])) ?_⟩
    rw [hL] at hs
    exact (List.pairwise_append.mp hs).2.2 y hyp x (by simp)

/-- **C58, in the given order.** Locales asked for in a given order are tried in that order, each once. -/
theorem C58_given_order (E : Env) (detect : Option (List Char → List Name)) (kinds : List Kind) (before : List Call) (c : PCfg) (str : List Char) (formats : List (List Char))
    (hv : c.validate = .ok ()) (hp : c.tryPrevious = false) (hd : c.defaultLanguages = []) (ho : c.useGivenOrder = true) (hne : c.locales ≠ [])
    (ha : Acceptable c.locales (langs E detect c str)) (r : DateRes) :
    (E.parse (afterCalls E.parts (newParser detect (kinds.map Kind.code)) before) (some c) str formats).2 = .ok r ↔
    ∃ pre x post, firsts c.locales = pre ++ x :: post ∧
      (E.parse (afterCalls E.parts (newParser detect (kinds.map Kind.code)) before) (some (asking c x)) str formats).2 = .ok r ∧
      ∀ y ∈ pre, (E.parse (afterCalls E.parts (newParser detect (kinds.map Kind.code)) before) (some (asking c y)) str formats).2 = .error .unknownFormat := by
  obtain ⟨a, l, hal⟩ := List.exists_cons_of_ne_nil hne
  obtain ⟨L, hl⟩ := accepted_loaded (given := c.useGivenOrder) (region := c.region) ha (x := a) (by unfold AskedFor; rw [if_pos hne, hal]; simp)
  have hL := C27_given_order c.locales (langs E detect c str) c.region L (by rw [← ho]; exact hl)
  rw [if_pos hne] at hL
  rw [← hL]
  exact C58_in_order E detect kinds before c str formats hv hp hd hl r

theorem sorted_eq {L L' : List Name} (h : L.Pairwise (Earlier localeRank)) (h' : L'.Pairwise (Earlier localeRank)) (hm : ∀ x, x ∈ L ↔ x ∈ L') : L = L' := by
  induction L generalizing L' with
  | nil =>
    cases L' with
    | nil => rfl
    | cons b l => exact absurd ((hm b).mpr (by simp)) (by simp)
  | cons a l ih =>
    cases L' with
    | nil => exact absurd ((hm a).mp (by simp)) (by simp)
    | cons b l' =>
      have hab : a = b := by
        rcases List.mem_cons.mp ((hm a).mp (by simp)) with e | ha
        · exact e
        · rcases List.mem_cons.mp ((hm b).mpr (by simp)) with e | hb
          · exact e.symm
          · exact absurd (List.rel_of_pairwise_cons h hb) (earlier_asymm (List.rel_of_pairwise_cons h' ha))
      subst hab
      congr 1
      refine ih h.of_cons h'.of_cons fun x => ?_
      constructor
      · intro hx
        rcases List.mem_cons.mp ((hm x).mp (List.mem_cons_of_mem _ hx)) with rfl | e
        · exact absurd (List.rel_of_pairwise_cons h hx) (fun e => earlier_asymm e e)
        · exact e
      · intro hx
        rcases List.mem_cons.mp ((hm x).mpr (List.mem_cons_of_mem _ hx)) with rfl | e
        · exact absurd (List.rel_of_pairwise_cons h' hx) (fun e => earlier_asymm e e)
        · exact e

theorem dataOf_name {x : Name} {l : LocaleInfo} (h : dataOf x = some l) : l.name = x := by
  rw [dataOf_eq] at h
  exact getLocaleData_name h

/-- **C58, asking for more.** Asking for more locales or languages never loses a date: if a call gives a date, so does every call with the same text and
settings that asks at least for the same locales. -/
theorem C58_more (E : Env) (detect : Option (List Char → List Name)) (kinds : List Kind) (before : List Call) (c c' : PCfg) (str : List Char) (formats : List (List Char))
    (hsame : SameButAsked c c') (hv : c.validate = .ok ()) (hp : c.tryPrevious = false) (hd : c.defaultLanguages = [])
    (ha : Acceptable c.locales (langs E detect c str)) (ha' : Acceptable c'.locales (langs E detect c' str))
    (hsub : ∀ x, AskedFor c.locales (langs E detect c str) (tidyRegion c.region) x → AskedFor c'.locales (langs E detect c' str) (tidyRegion c'.region) x)
    {x₀ : Name} (hx₀ : AskedFor c.locales (langs E detect c str) (tidyRegion c.region) x₀) {r : DateRes}
    (h : (E.parse (afterCalls E.parts (newParser detect (kinds.map Kind.code)) before) (some c) str formats).2 = .ok r) :
    ∃ r', (E.parse (afterCalls E.parts (newParser detect (kinds.map Kind.code)) before) (some c') str formats).2 = .ok r' := by
  obtain ⟨L, hl⟩ := accepted_loaded (given := c.useGivenOrder) ha hx₀
  obtain ⟨L', hl'⟩ := accepted_loaded (given := c'.useGivenOrder) ha' (hsub _ hx₀)
  obtain ⟨_, hn, _, hm, _⟩ := C27_loaded _ _ _ _ _ hl
  obtain ⟨_, hn', _, hm', _⟩ := C27_loaded _ _ _ _ _ hl'
  unfold Env.parse at h ⊢
  rw [parse_loaded E.parts (formatted_locale E) detect kinds before ⟨E.now, c, str, formats⟩ L hv hp hd hn hl, outcome_ok] at h
  refine Exists.imp (fun r' hr => ?_) (show ∃ r', (if (E.parts.formatted (c.initiate E.now).toInternal str formats).isZero then
      L'.findSome? fun x => firstDate (offersOf E.parts (c.initiate E.now) (kindsOrDefault kinds) str formats x)
        else some (E.parts.formatted (c.initiate E.now).toInternal str formats)) = some r' from ?_)
  · rw [parse_loaded E.parts (formatted_locale E) detect kinds before ⟨E.now, c', str, formats⟩ L' (by rw [hsame]; exact hv) (by rw [hsame]; exact hp)
      (by rw [hsame]; exact hd) hn' hl', outcome_ok]
    simp only
    rw [hsame]
    exact hr
  · dsimp only at h
    split
    · rename_i hz
      rw [if_pos hz] at h
      obtain ⟨pre, x, post, hL, hx, _⟩ := List.findSome?_eq_some_iff.mp h
      have hxL : x ∈ L' := (hm' x).mpr (hsub x ((hm x).mp (by rw [hL]; simp)))
      rw [← Option.isSome_iff_exists, List.findSome?_isSome_iff]
      exact ⟨x, hxL, by rw [hx]; rfl⟩
    · exact ⟨_, rfl⟩

/-- **C58, the order of asking.** Unless the given order is wanted, only which locales are asked for matters, not how, how often or in which order. -/
theorem C58_order_irrelevant (E : Env) (detect : Option (List Char → List Name)) (kinds : List Kind) (before : List Call) (c c' : PCfg) (str : List Char) (formats : List (List Char))
    (hsame : SameButAsked c c') (hv : c.validate = .ok ()) (hp : c.tryPrevious = false) (hd : c.defaultLanguages = []) (ho : c.useGivenOrder = false) (ho' : c'.useGivenOrder = false)
    (ha : Acceptable c.locales (langs E detect c str)) (ha' : Acceptable c'.locales (langs E detect c' str))
    (hset : ∀ x, AskedFor c.locales (langs E detect c str) (tidyRegion c.region) x ↔ AskedFor c'.locales (langs E detect c' str) (tidyRegion c'.region) x)
    {x₀ : Name} (hx₀ : AskedFor c.locales (langs E detect c str) (tidyRegion c.region) x₀) :
    (E.parse (afterCalls E.parts (newParser detect (kinds.map Kind.code)) before) (some c) str formats).2 =
      (E.parse (afterCalls E.parts (newParser detect (kinds.map Kind.code)) before) (some c') str formats).2 := by
  obtain ⟨L, hl⟩ := accepted_loaded (given := c.useGivenOrder) ha hx₀
  obtain ⟨L', hl'⟩ := accepted_loaded (given := c'.useGivenOrder) ha' ((hset _).mp hx₀)
  obtain ⟨_, hn, _, hm, hs⟩ := C27_loaded _ _ _ _ _ hl
  obtain ⟨_, hn', _, hm', hs'⟩ := C27_loaded _ _ _ _ _ hl'
  have e : L = L' := sorted_eq (hs ho) (hs' ho') fun x => by rw [hm, hm', hset]
  subst e
  unfold Env.parse
  rw [parse_loaded E.parts (formatted_locale E) detect kinds before ⟨E.now, c, str, formats⟩ L hv hp hd hn hl,
    parse_loaded E.parts (formatted_locale E) detect kinds before ⟨E.now, c', str, formats⟩ L (by rw [hsame]; exact hv) (by rw [hsame]; exact hp)
      (by rw [hsame]; exact hd) hn' hl']
  simp only
  rw [hsame]
  rfl

/-- **C58, the locale of a result.** A result that does not come from the caller's formats is the one that its own locale, asked for alone, gives. -/
theorem C58_alone (E : Env) (detect : Option (List Char → List Name)) (kinds : List Kind) (before : List Call) (c : PCfg) (str : List Char) (formats : List (List Char))
    (hv : c.validate = .ok ()) (hp : c.tryPrevious = false) (hd : c.defaultLanguages = [])
    (ha : Acceptable c.locales (langs E detect c str)) {x₀ : Name} (hx₀ : AskedFor c.locales (langs E detect c str) (tidyRegion c.region) x₀) {r : DateRes}
    (h : (E.parse (afterCalls E.parts (newParser detect (kinds.map Kind.code)) before) (some c) str formats).2 = .ok r) (hr : r.locale ≠ []) :
    (E.parse (afterCalls E.parts (newParser detect (kinds.map Kind.code)) before) (some (asking c r.locale)) str formats).2 = .ok r := by
  obtain ⟨L, hl⟩ := accepted_loaded (given := c.useGivenOrder) ha hx₀
  obtain ⟨_, _, hk, _, _⟩ := C27_loaded _ _ _ _ _ hl
  obtain ⟨pre, x, post, hL, hx, _⟩ := (C58_in_order E detect kinds before c str formats hv hp hd hl r).mp h
  have hkx := hk x (by rw [hL]; simp)
  have hx' := hx
  unfold Env.parse at hx'
  rw [parse_loaded E.parts (formatted_locale E) detect kinds before ⟨E.now, asking c x, str, formats⟩ [x] hv hp hd (by simp) (alone_loaded x _ _ hkx), outcome_ok] at hx'
  dsimp only at hx'
  split at hx'
  · have : x = r.locale := by
      simp only [List.findSome?_cons, List.findSome?_nil] at hx'
      split at hx'
      · rename_i d hd'
        injection hx' with hx'
        subst hx'
        have hmem := List.mem_of_find?_eq_some hd'
        unfold offersOf at hmem
        split at hmem
        · split at hmem
          · rename_i l hl'
            simp only [List.mem_flatMap, List.mem_map] at hmem
            obtain ⟨_, _, _, _, rfl⟩ := hmem
            exact (dataOf_name hl').symm
          · cases hmem
        · cases hmem
      · cases hx'
    rw [← this]; exact hx
  · injection hx' with hx'
    rw [← hx'] at hr
    exact absurd (formatted_locale E _ _ _) hr

/-- **C58, no date.** `Parse` finds no date exactly if no locale asked for, asked for alone, finds one; it then reports an unknown format. -/
theorem C58_no_date (E : Env) (detect : Option (List Char → List Name)) (kinds : List Kind) (before : List Call) (c : PCfg) (str : List Char) (formats : List (List Char))
    (hv : c.validate = .ok ()) (hp : c.tryPrevious = false) (hd : c.defaultLanguages = [])
    (ha : Acceptable c.locales (langs E detect c str)) {x₀ : Name} (hx₀ : AskedFor c.locales (langs E detect c str) (tidyRegion c.region) x₀) (e : ParseErr) :
    (E.parse (afterCalls E.parts (newParser detect (kinds.map Kind.code)) before) (some c) str formats).2 = .error e ↔
    e = .unknownFormat ∧ ∀ x, AskedFor c.locales (langs E detect c str) (tidyRegion c.region) x →
      (E.parse (afterCalls E.parts (newParser detect (kinds.map Kind.code)) before) (some (asking c x)) str formats).2 = .error .unknownFormat := by
  obtain ⟨L, hl⟩ := accepted_loaded (given := c.useGivenOrder) ha hx₀
  obtain ⟨hne, hn, hk, hm, _⟩ := C27_loaded _ _ _ _ _ hl
  have h1 : ∀ x ∈ L, (E.parse (afterCalls E.parts (newParser detect (kinds.map Kind.code)) before) (some (asking c x)) str formats).2 = _ := fun x hx =>
    parse_loaded E.parts (formatted_locale E) detect kinds before ⟨E.now, asking c x, str, formats⟩ [x] hv hp hd (by simp) (alone_loaded x _ _ (hk x hx))
  have h0 := parse_loaded E.parts (formatted_locale E) detect kinds before ⟨E.now, c, str, formats⟩ L hv hp hd hn hl
  have h2 : (∀ x, AskedFor c.locales (langs E detect c str) (tidyRegion c.region) x →
      (E.parse (afterCalls E.parts (newParser detect (kinds.map Kind.code)) before) (some (asking c x)) str formats).2 = .error .unknownFormat) ↔
      ∀ x ∈ L, (if (E.parts.formatted (c.initiate E.now).toInternal str formats).isZero then
        [x].findSome? fun x => firstDate (offersOf E.parts (c.initiate E.now) (kindsOrDefault kinds) str formats x)
          else some (E.parts.formatted (c.initiate E.now).toInternal str formats)) = none := by
    constructor
    · intro h x hx
      have := h x ((hm x).mp hx)
      rw [h1 x hx, outcome_error] at this
      exact this
    · intro h x hx
      rw [h1 x ((hm x).mpr hx), outcome_error]
      exact h x ((hm x).mpr hx)
  rw [h2]
  unfold Env.parse
  rw [h0]
  dsimp only
  obtain ⟨a, l, hal⟩ := List.exists_cons_of_ne_nil hne
  split
  · have e1 : ∀ (g : Name → Option DateRes) x, [x].findSome? g = g x := fun g x => by cases h : g x <;> simp [List.findSome?, h]
    simp only [e1]
    rw [← List.findSome?_eq_none_iff]
    cases L.findSome? _ <;> simp [outcome, eq_comm]
  · constructor
    · intro h; simp [outcome] at h
    · rintro ⟨_, h⟩
      have := h a (by rw [hal]; simp)
      simp_all

/-! ## Examples -/

/-- German and French, in this order of preference or by popularity: both acceptable, and German is asked for. -/
def germanFrench (given : Bool) : PCfg := { languages := ["de".toList, "fr".toList], useGivenOrder := given }

theorem german_acceptable (E : Env) (b : Bool) (str : List Char) : Acceptable (germanFrench b).locales (langs E none (germanFrench b) str) := by
  show ∀ x ∈ ["de".toList, "fr".toList], x ∈ languageOrder.map (·.1)
  decide +kernel

theorem german_asked (E : Env) (b : Bool) (str : List Char) : AskedFor (germanFrench b).locales (langs E none (germanFrench b) str) (tidyRegion (germanFrench b).region) "de".toList :=
  (if_neg (by simp [germanFrench])).mpr ⟨by decide +kernel, "de".toList, rfl, (if_neg (by simp [languagesOf, germanFrench])).mpr (by simp [languagesOf, germanFrench])⟩

/-- What German alone reads is read by German and French together. -/
example : ∃ r, ((fullEnv demoEnv).parse {} (some (germanFrench false)) "5. Dezember 2015".toList []).2 = .ok r := by
  have h : getLocaleData "de".toList = some ⟨"de".toList, "DMY".toList, false, 1⟩ := by decide +kernel
  obtain ⟨r, hr⟩ := C53_ascii full_ok (full_hasData _) (asked_only h (by decide +kernel)) ⟨by decide +kernel, by decide⟩ .dmy (by decide) .dotted
    "5".toList "Dezember".toList "2015".toList 12 ⟨by unfold IsNumeral; decide, by decide⟩ ⟨by unfold IsNumeral; decide, by decide⟩ (by decide) (by decide)
    ⟨by decide, by decide, (deLang, none), List.mem_of_getElem? (i := 68) rfl, by decide +kernel, by decide +kernel⟩ (by decide +kernel) (by decide) (by decide) (demo_zones _ _)
  have hde : AskedFor (asked "de").locales (langs (fullEnv demoEnv) none (asked "de") "5. Dezember 2015".toList) (tidyRegion (asked "de").region) "de".toList :=
    (if_pos (by simp [asked])).mpr (by simp [asked])
  exact C58_more (fullEnv demoEnv) none [] [] (asked "de") (germanFrench false) _ [] rfl rfl rfl rfl
    ((if_pos (by simp [asked])).mpr ⟨by show ∀ x ∈ ["de".toList], x ∈ localeData.map (·.1); decide +kernel, by simp [asked]⟩) (german_acceptable _ _ _) (by
      intro x hx
      have : x = "de".toList := by simpa [AskedFor, asked] using hx
      rw [this]; exact german_asked _ _ _) hde hr.result

end Verif.Props
