import Verif.Lemmas.SearchFound
/-! # What the parser says to the dates found in an English text -/
set_option autoImplicit false
namespace Verif.Lemmas
open Verif.Go Verif.Model Verif.Spec Verif.Data
open Verif.Props (C44_numeric_date C44_month_name full_names)

/-! ## The parser in a search -/

theorem fresh_parts {P : Model.Parts} {s : ParserSt} (h : FreshTypes s) (c : PCfg) (str : List Char) (formats : List (List Char)) :
    FreshTypes (parseWithTypes P s c str formats).1 := by
  unfold parseWithTypes
  split
  · exact h
  · dsimp only
    split
    · exact h
    · split
      · exact h
      · split
        · dsimp only
          split
          · unfold saveUsed; split <;> exact ⟨h.types, h.detect⟩
          · exact h
        · exact h

theorem fresh_parse {E : Env} {s : ParserSt} (h : FreshTypes s) (c : Option PCfg) (str : List Char) (formats : List (List Char)) :
    FreshTypes (E.parse s c str formats).1 := by
  unfold Env.parse Model.parse
  split
  · exact h
  · refine fresh_parts ?_ _ _ _
    split
    · exact ⟨Or.inr rfl, h.detect⟩
    · exact h

/-- The parser types and the words to skip are those of an untouched parser and configuration. -/
theorem parse_plain {E : Env} {s : ParserSt} (h : FreshTypes s) {c : PCfg} (hc : c.skipTokens = [] ∨ c.skipTokens = [['t']]) (str : List Char) :
    (E.parse s (some c) str []).2 = (E.parse { s with types := [] } (some { c with skipTokens := [] }) str []).2 := by
  have hi : c.initiate E.now = ({ c with skipTokens := [] } : PCfg).initiate E.now := by
    unfold PCfg.initiate
    rcases hc with h | h <;> simp [h]
  unfold Env.parse Model.parse
  simp only [Option.getD_some, ← hi]
  rcases h.types with h | h
  · rw [h]; rfl
  · rw [h]
    have : s = { s with types := defaultTypes } := by rw [← h]
    simp only [List.find?_nil, List.isEmpty_nil, if_true]
    rw [← this]
    rfl

theorem entry_valid {c : PCfg} (h : c.validate = .ok ()) (t : Option Time) : (entryCfg c t).validate = .ok () := by
  have h1 : (DayOfMonth.ofCode c.dayOfMonth).code ≤ 2 := by cases DayOfMonth.ofCode c.dayOfMonth <;> decide
  have h2 : (MonthOfYear.ofCode c.monthOfYear).code ≤ 2 := by cases MonthOfYear.ofCode c.monthOfYear <;> decide
  have h3 : (DateSource.ofCode c.dateSource).code ≤ 2 := by cases DateSource.ofCode c.dateSource <;> decide
  unfold PCfg.validate at h ⊢
  split at h
  · simp at h
  · split at h
    · simp at h
    · split at h
      · simp at h
      · rw [if_neg (by show ¬ (DayOfMonth.ofCode c.dayOfMonth).code > 2; omega), if_neg (by show ¬ (MonthOfYear.ofCode c.monthOfYear).code > 2; omega),
          if_neg (by show ¬ (DateSource.ofCode c.dateSource).code > 2; omega)]
        exact h

/-- A zone that is harmless at these moments. -/
structure FineZone (walls : List Int) (l : Loc) : Prop where
  noJump : ∀ w ∈ walls, l.NoJump w
  small : SmallOffsets l

theorem fine_utc (walls : List Int) : FineZone walls Loc.utc :=
  ⟨fun w _ => Loc.IsFixed.noJump (fun _ _ => rfl) w, fun _ => by show (-86400 : Int) ≤ 0 ∧ (0 : Int) ≤ 86400; decide⟩

theorem fine_fixed (walls : List Int) (n : String) (o : Int) (h : -86400 ≤ o ∧ o ≤ 86400) : FineZone walls (Loc.fixed n o) :=
  ⟨fun w _ => Loc.IsFixed.noJump (fun _ _ => rfl) w, fun _ => h⟩

/-- A current time for a search. -/
def FineBase (walls : List Int) (t : Option Time) : Prop := ∀ u, t = some u → u.isZero = false ∧ FineZone walls u.loc

theorem entry_zones {E : Env} {c : PCfg} {t : Option Time} {walls : List Int} (ht : FineBase walls t) (hd : ∀ l, c.defaultTz = some l → SmallOffsets l)
    {w : Int} (hw : w ∈ walls) : ZonesOk { entryCfg c t with skipTokens := [] } E.now w ∧
      FineZone walls (baseTime { entryCfg c t with skipTokens := [] } E.now).loc := by
  have hb : FineZone walls (baseTime { entryCfg c t with skipTokens := [] } E.now).loc := by
    unfold baseTime
    show FineZone walls (if (t.getD Time.zero).isZero then E.now.inLoc Loc.utc else t.getD Time.zero).loc
    cases t with
    | none => exact fine_utc walls
    | some u =>
      obtain ⟨h1, h2⟩ := ht u rfl
      rw [show (some u).getD Time.zero = u from rfl, h1]
      exact h2
  exact ⟨⟨hb.noJump w hw, hb.small, fun l hl => hd l hl⟩, hb⟩

/-- A date of a text as the parser reads it. -/
structure FineDate (walls : List Int) (x : DatePhrase) (d : DateRes) : Prop where
  period : d.period = .day
  shows : Shows d.time x.year x.month x.day 0 0 0 0
  zone : FineZone walls d.time.loc

theorem full_month {mon : List Char} {n : Int} (h : IsMonthName mon n) : IsMonthName (fullName n) n := by
  have := List.all_eq_true.mp full_names _ h
  simp only [Bool.and_eq_true, decide_eq_true_eq] at this
  exact this.2

theorem parse_date {E : Env} (hE : Sound E) {s : ParserSt} (hs : FreshTypes s) {c : PCfg} (hc : SearchCfg c) {walls : List Int}
    {t : Option Time} (ht : FineBase walls t) (hd : ∀ l, c.defaultTz = some l → SmallOffsets l) {x : DatePhrase} (hx : x.Ok) (hw : x.midnight ∈ walls) :
    ∃ s' d, (E.searchParser c).parse s t x.out = (s', some d) ∧ FreshTypes s' ∧ FineDate walls x d := by
  have hz := entry_zones (E := E) (c := c) ht hd hw
  have hfirst : EnglishFirst { s with types := [] } { entryCfg c t with skipTokens := [] } :=
    ⟨entry_valid hc.valid t, rfl, rfl, Or.inr ⟨rfl, hs.detect⟩, rfl, rfl, Or.inl rfl⟩
  have key : ∃ r, Yields E { s with types := [] } { entryCfg c t with skipTokens := [] } x.out .day x.year x.month x.day 0 0 0 0 r := by
    have hf := hx.form
    have h1 := hx.date
    have h2 := hx.year2
    cases x with
    | numeric w sep d m y =>
      obtain ⟨ha, hsep, hd, hm, hy⟩ := hf
      exact C44_numeric_date hE hfirst .mdy w rfl ha d m y ⟨hd.1, hd.2⟩ ⟨hm.1, hm.2⟩ ⟨hy.1, hy.2⟩ sep
        (hsep.imp id Or.inr) h1 h2 hz.1
    | named f d mon y n =>
      obtain ⟨hd, hm, hy⟩ := hf
      exact C44_month_name hE hfirst f d (fullName n) y n ⟨hd.1, hd.2⟩ (full_month hm) ⟨hy.1, hy.2⟩ h1 h2 hz.1
  obtain ⟨r, hr⟩ := key
  have hres : (E.parse s (some (entryCfg c t)) x.out []).2 = .ok r := by
    rw [parse_plain (c := entryCfg c t) hs hc.skip]
    exact hr.result
  have hper := hr.period
  have hzone : FineZone walls r.time.loc := by
    cases hdz : c.defaultTz with
    | none =>
      rw [hr.zone hdz]
      exact hz.2
    | some z =>
      obtain ⟨u, hu⟩ := hr.dflt z hdz
      rw [hu]
      exact fine_fixed walls _ _ (hd z hdz u)
  have htz := shows_notZero hr.shows hx.year2 hzone.small
  have hnz : r.isZero = false := by
    unfold DateRes.isZero
    rw [hper, htz]
    rfl
  refine ⟨(E.parse s (some (entryCfg c t)) x.out []).1, r, ?_, fresh_parse hs _ _ _, hper, hr.shows, hzone⟩
  unfold Env.searchParser
  simp [hres, hnz]

/-! ## The entries -/

theorem split_none (a b : Char) (rest : List Char) : ∀ (s acc : List Char), (∀ x y, s = x ++ a :: b :: y → False) → splitGo (a :: b :: rest) 0 acc s = [acc.reverse ++ s] := by
  intro s
  induction s with
  | nil => intro acc _; simp [splitGo]
  | cons c s ih =>
    intro acc h
    have hp : (a :: b :: rest).isPrefixOf (c :: s) = false := by
      cases hq : (a :: b :: rest).isPrefixOf (c :: s) with
      | false => rfl
      | true =>
        obtain ⟨t, ht⟩ := List.isPrefixOf_iff_prefix.mp hq
        exfalso
        exact h [] (rest ++ t) (by rw [← ht]; simp)
    rw [splitGo, hp, if_neg (by simp), ih]
    · simp
    · intro x y e
      exact h (c :: x) y (by rw [e]; rfl)

theorem delete_none {a b : Char} {rest s : List Char} (h : ∀ x y, s = x ++ a :: b :: y → False) : deleteStr (a :: b :: rest) s = s := by
  unfold deleteStr splitStr
  rw [split_none a b rest s [] h]
  simp

/-- No two characters standing side by side are an `a` and an `m` or an `n` and a `g`. -/
def noMarks : List Char → Bool
  | a :: b :: r => !(a == 'a' && b == 'm') && !(a == 'n' && b == 'g') && noMarks (b :: r)
  | _ => true

theorem noMarks_split : ∀ (x : List Char) {s : List Char} {a b : Char} {y : List Char}, noMarks s = true → s = x ++ a :: b :: y →
    ¬ (a = 'a' ∧ b = 'm') ∧ ¬ (a = 'n' ∧ b = 'g') := by
  intro x
  induction x with
  | nil =>
    intro s a b y h e
    subst e
    simp [noMarks] at h
    exact ⟨fun ⟨h1, h2⟩ => h.1.1.elim (· h1) (· h2), fun ⟨h1, h2⟩ => h.1.2.elim (· h1) (· h2)⟩
  | cons c x ih =>
    intro s a b y h e
    subst e
    refine ih (s := x ++ a :: b :: y) ?_ rfl
    cases x with
    | nil => simp only [List.cons_append, List.nil_append, noMarks, Bool.and_eq_true] at h ⊢; exact h.2
    | cons d x => simp only [List.cons_append, noMarks, Bool.and_eq_true] at h; exact h.2

theorem clean_same {s : List Char} (h : noMarks s = true) : cleanEntry s = s := by
  have h1 : deleteStr "ngày".toList s = s := delete_none fun x y e => (noMarks_split x h e).2 ⟨rfl, rfl⟩
  unfold cleanEntry
  rw [h1]
  exact delete_none fun x y e => (noMarks_split x h e).1 ⟨rfl, rfl⟩

theorem noMarks_append : ∀ {s t : List Char}, noMarks s = true → noMarks t = true → (∀ c, s.getLast? = some c → c ≠ 'a' ∧ c ≠ 'n') → noMarks (s ++ t) = true := by
  intro s
  induction s with
  | nil => intro t _ h _; exact h
  | cons c s ih =>
    intro t hs ht hl
    cases s with
    | nil =>
      cases t with
      | nil => rfl
      | cons d t =>
        have := hl c rfl
        simp [noMarks, this.1, this.2, ht]
    | cons d s =>
      simp only [noMarks, Bool.and_eq_true] at hs
      have := ih hs.2 ht (fun x hx => hl x (by simpa using hx))
      simp only [List.cons_append, noMarks, Bool.and_eq_true]
      exact ⟨hs.1, this⟩

theorem noMarks_plain : ∀ {s : List Char}, (∀ c ∈ s, c ≠ 'a' ∧ c ≠ 'n') → noMarks s = true := by
  intro s
  induction s with
  | nil => intro _; rfl
  | cons c s ih =>
    intro h
    cases s with
    | nil => rfl
    | cons d s =>
      have := h c (by simp)
      have h2 := ih fun x hx => h x (by simp [hx])
      simp [noMarks, this.1, this.2, h2]

theorem digit_plain {c : Char} (h : c.isDigit = true) : c ≠ 'a' ∧ c ≠ 'n' := by
  constructor <;> (rintro rfl; simp at h)

theorem months_clean : (monthNames.all fun x => noMarks (fullName x.2 ++ [' ']) && decide (2 < (fullName x.2).length)) = true := by decide +kernel

theorem last_append {s : List Char} {c : Char} {t : List Char} (h : t ≠ []) (hl : (s ++ t).getLast? = some c) : c ∈ t := by
  rw [List.getLast?_append] at hl
  cases ht : t.getLast? with
  | none => simp at ht; exact absurd ht h
  | some d =>
    rw [ht] at hl
    simp at hl
    subst hl
    exact List.mem_of_getLast? ht

theorem out_clean {x : DatePhrase} (hx : x.Ok) : cleanEntry x.out = x.out ∧ ¬ x.out.length ≤ 2 := by
  have hf := hx.form
  cases x with
  | numeric w sep d m y =>
    obtain ⟨_, hsep, hd, hm, hy⟩ := hf
    have hs : sep ≠ 'a' ∧ sep ≠ 'n' := by rcases hsep with rfl | ⟨rfl, _⟩ <;> decide
    have h4 := hy.2
    constructor
    · refine clean_same (noMarks_plain ?_)
      show ∀ c ∈ w.write d m y [sep] [sep], _
      intro c hc
      have : c = sep ∨ c ∈ d ∨ c ∈ m ∨ c ∈ y := by
        cases w <;> simp [Order.write] at hc <;> grind
      rcases this with rfl | h | h | h
      · exact hs
      · exact digit_plain (hd.1.2 c h)
      · exact digit_plain (hm.1.2 c h)
      · exact digit_plain (hy.1.2 c h)
    · show ¬ (w.write d m y [sep] [sep]).length ≤ 2
      cases w <;> simp [Order.write, h4] <;> omega
  | named f d mon y n =>
    obtain ⟨hd, hm, hy⟩ := hf
    have hc := List.all_eq_true.mp months_clean _ hm
    simp only [Bool.and_eq_true, decide_eq_true_eq] at hc
    obtain ⟨hc, hl⟩ := hc
    have h4 := hy.2
    have hD : ∀ c ∈ d, c ≠ 'a' ∧ c ≠ 'n' := fun c h => digit_plain (hd.1.2 c h)
    have hY : ∀ c ∈ y, c ≠ 'a' ∧ c ≠ 'n' := fun c h => digit_plain (hy.1.2 c h)
    have hlast : ∀ c, (fullName n ++ [' ']).getLast? = some c → c ≠ 'a' ∧ c ≠ 'n' := by
      intro c h
      have := last_append (by simp) h
      simp at this
      subst this
      decide
    constructor
    · refine clean_same ?_
      show noMarks (f.write d (fullName n) y) = true
      cases f with
      | dayFirst =>
        have e : MonthForm.dayFirst.write d (fullName n) y = (d ++ [' ']) ++ ((fullName n ++ [' ']) ++ y) := by simp [MonthForm.write]
        have hp : ∀ c ∈ d ++ [' '], c ≠ 'a' ∧ c ≠ 'n' := by
          intro c h
          simp at h
          rcases h with h | rfl
          · exact hD c h
          · decide
        rw [e]
        exact noMarks_append (noMarks_plain hp) (noMarks_append hc (noMarks_plain hY) hlast) fun c h => hp c (List.mem_of_getLast? h)
      | comma =>
        have e : MonthForm.comma.write d (fullName n) y = (fullName n ++ [' ']) ++ (d ++ [',', ' '] ++ y) := by simp [MonthForm.write]
        rw [e]
        refine noMarks_append hc (noMarks_plain ?_) hlast
        intro c h
        simp at h
        rcases h with h | rfl | rfl | h
        · exact hD c h
        · decide
        · decide
        · exact hY c h
      | plain =>
        have e : MonthForm.plain.write d (fullName n) y = (fullName n ++ [' ']) ++ (d ++ [' '] ++ y) := by simp [MonthForm.write]
        rw [e]
        refine noMarks_append hc (noMarks_plain ?_) hlast
        intro c h
        simp at h
        rcases h with h | rfl | h
        · exact hD c h
        · decide
        · exact hY c h
    · show ¬ (f.write d (fullName n) y).length ≤ 2
      cases f <;> simp [MonthForm.write, h4] <;> omega

/-! ## The texts -/

/-- Nothing to trim. -/
def Firm (w : List Char) : Prop := w ≠ [] ∧ ∀ c, w.head? = some c ∨ w.getLast? = some c → c ∉ " .,:()[]-'".toList

theorem trim_firm {w : List Char} (h : Firm w) : trimChars w " .,:()[]-'".toList = w := by
  have drop : ∀ (l : List Char), (∀ c, l.head? = some c → c ∉ " .,:()[]-'".toList) → l.dropWhile (" .,:()[]-'".toList).contains = l := by
    intro l hl
    cases l with
    | nil => rfl
    | cons c l =>
      have := hl c rfl
      rw [List.dropWhile_cons, if_neg]
      simpa using this
  unfold trimChars
  rw [drop w fun c hc => h.2 c (Or.inl hc), drop w.reverse fun c hc => h.2 c (Or.inr (by rw [List.head?_reverse] at hc; exact hc)), List.reverse_reverse]

theorem firm_append {a b : List Char} (ha : Firm a) (hb : Firm b) (m : List Char) : Firm (a ++ m ++ b) := by
  refine ⟨by simp [ha.1], ?_⟩
  rintro c (h | h)
  · refine ha.2 c (Or.inl ?_)
    obtain ⟨x, r, e⟩ := List.exists_cons_of_ne_nil ha.1
    rw [e] at h ⊢
    exact h
  · refine hb.2 c (Or.inr ?_)
    rw [List.getLast?_append] at h
    cases hl : b.getLast? with
    | none => simp at hl; exact absurd hl hb.1
    | some d => rw [hl] at h; exact h

theorem firm_join : ∀ (ws : List (List Char)), ws ≠ [] → (∀ w ∈ ws, Firm w) → Firm (joinWith [' '] ws) := by
  intro ws
  induction ws with
  | nil => intro h _; exact absurd rfl h
  | cons w ws ih =>
    intro _ h
    cases ws with
    | nil => exact h w (by simp)
    | cons v ws =>
      have := ih (by simp) fun x hx => h x (by simp [hx])
      have := firm_append (h w (by simp)) this [' ']
      exact this

theorem firm_chars {w : List Char} (h : w ≠ []) (hc : ∀ c ∈ w, c ∉ " .,:()[]-'".toList) : Firm w := by
  refine ⟨h, ?_⟩
  rintro c (hh | hl)
  · exact hc c (List.mem_of_head? hh)
  · exact hc c (List.mem_of_getLast? hl)

theorem numeral_firm {w : List Char} (h : IsNumeral w) : Firm w := by
  refine firm_chars h.1 fun c hc hm => ?_
  have := h.2 c hc
  revert hm this
  have : ∀ x ∈ " .,:()[]-'".toList, x.isDigit = false := by decide
  intro hm hd
  rw [this c hm] at hd
  simp at hd

theorem alpha_firm {w : List Char} (h : w ≠ []) (hc : ∀ c ∈ w, c ∉ " .,:()[]-'".toList) : Firm w := firm_chars h hc

theorem lower_punct {w : List Char} (h : (toLower w).all (fun c => !(" .,:()[]-'".toList).contains c) = true) (hne : toLower w ≠ []) : Firm w := by
  refine firm_chars (fun e => hne (by rw [e]; rfl)) fun c hc hm => ?_
  have : ∀ x ∈ " .,:()[]-'".toList, toLowerC x = x := by decide
  have hl : toLowerC c ∈ toLower w := List.mem_map.mpr ⟨c, hc, rfl⟩
  rw [this c hm] at hl
  have := List.all_eq_true.mp h c hl
  rw [List.contains_iff_mem.mpr hm] at this
  simp at this

theorem months_firm : (monthNames.all fun x => x.1.all (fun c => !(" .,:()[]-'".toList).contains c) && !x.1.isEmpty) = true := by decide +kernel
theorem links_firm : (linkWords.all fun x => x.all (fun c => !(" .,:()[]-'".toList).contains c) && !x.isEmpty) = true := by decide +kernel

theorem month_firm {mon : List Char} {n : Int} (h : IsMonthName mon n) : Firm mon := by
  have := List.all_eq_true.mp months_firm _ h
  simp only [Bool.and_eq_true, Bool.not_eq_true', List.isEmpty_eq_false_iff] at this
  exact lower_punct (by simpa using this.1) this.2

theorem link_firm {w : List Char} (h : toLower w ∈ linkWords) : Firm w := by
  have := List.all_eq_true.mp links_firm _ h
  simp only [Bool.and_eq_true, Bool.not_eq_true', List.isEmpty_eq_false_iff] at this
  exact lower_punct (by simpa using this.1) this.2

theorem date_firm {x : DatePhrase} (hx : x.Ok) : Firm x.write := by
  have hf := hx.form
  cases x with
  | numeric w sep d m y =>
    obtain ⟨_, _, hd, hm, hy⟩ := hf
    have h1 := numeral_firm hd.1
    have h2 := numeral_firm hm.1
    have h3 := numeral_firm hy.1
    show Firm (w.write d m y [sep] [sep])
    cases w <;> simp only [Order.write] <;> refine firm_append (firm_append ?_ ?_ [sep]) ?_ [sep] <;> assumption
  | named f d mon y n =>
    obtain ⟨hd, hm, hy⟩ := hf
    have h1 := numeral_firm hd.1
    have h2 := month_firm hm
    have h3 := numeral_firm hy.1
    show Firm (f.write d mon y)
    cases f with
    | dayFirst => have := firm_append (firm_append h1 h2 [' ']) h3 [' ']; simpa [MonthForm.write] using this
    | comma => have := firm_append (firm_append h2 h1 [' ']) h3 [',', ' ']; simpa [MonthForm.write] using this
    | plain => have := firm_append (firm_append h2 h1 [' ']) h3 [' ']; simpa [MonthForm.write] using this

theorem stretch_firm {s : List Piece} (h : StretchOk s) (hne : s ≠ []) : Firm (writePieces s) := by
  refine firm_join _ (by simpa using hne) ?_
  intro w hw
  obtain ⟨p, hp, rfl⟩ := List.mem_map.mp hw
  obtain ⟨h1, h2⟩ := h.1 p hp
  cases p with
  | filler w => simp [Piece.isFiller] at h2
  | link w => exact link_firm h1
  | date x => exact date_firm h1

/-! ## The search -/

/-- A date found earlier. -/
def FineFound (walls : List Int) (p : ParsedSearch DateRes) : Prop := ∃ d, p.date = some d ∧ FineZone walls d.time.loc

theorem base_fine {E : Env} {c : PCfg} {walls : List Int} : ∀ (l : List (ParsedSearch DateRes)), (∀ p ∈ l, FineFound walls p) →
    FineBase walls (relativeBaseLoop (E.searchParser c) l) := by
  intro l
  induction l with
  | nil => intro _ u hu; simp [relativeBaseLoop] at hu
  | cons p l ih =>
    intro h u hu
    unfold relativeBaseLoop at hu
    split at hu
    · exact ih (fun q hq => h q (by simp [hq])) u hu
    · obtain ⟨d, hd, hz⟩ := h p (by simp)
      rw [hd] at hu
      simp only [Option.bind_some, Env.searchParser] at hu
      split at hu
      · simp at hu
      · rename_i hnz
        simp at hu
        subst hu
        exact ⟨by simpa using hnz, hz⟩

theorem entry_date {E : Env} (hE : Sound E) {c : PCfg} (hc : SearchCfg c) {walls : List Int} (hd : ∀ l, c.defaultTz = some l → SmallOffsets l)
    {st : ParserSt × Option Time} (hs : FreshTypes st.1) (ht : FineBase walls st.2) {pl : List (ParsedSearch DateRes)} (hpl : ∀ p ∈ pl, FineFound walls p)
    {x : DatePhrase} (hx : x.Ok) (hw : x.midnight ∈ walls) (tr : List Char) (need : Bool) :
    ∃ st' p d, parseEntry (E.searchParser c) st x.out tr pl need = (st', p) ∧ FreshTypes st'.1 ∧ FineBase walls st'.2 ∧ p.date = some d ∧ FineDate walls x d := by
  obtain ⟨s1, d1, e1, f1, g1⟩ := parse_date hE hs hc ht hd hx hw
  unfold parseEntry
  simp only [(out_clean hx).1, e1]
  cases hb : (if need then getRelativeBase (E.searchParser c) pl else none) with
  | none => exact ⟨_, _, d1, rfl, f1, ht, rfl, g1⟩
  | some base =>
    have hbase : FineBase walls (some base) := by
      cases need with
      | false => simp at hb
      | true =>
        simp only [if_true] at hb
        rw [← hb]
        exact base_fine _ fun p hp => hpl p (List.mem_reverse.mp hp)
    obtain ⟨s2, d2, e2, f2, g2⟩ := parse_date hE f1 hc hbase hd hx hw
    simp only [e2]
    exact ⟨_, _, d2, rfl, f2, hbase, rfl, g2⟩

/-- The dates of a stretch. -/
def datesOf (s : List Piece) : List (DatePhrase × List Char) := (s.filterMap Piece.date?).map fun x => (x, writePieces s)

theorem trText_date {s : List Piece} {x : DatePhrase} (h : s.filterMap Piece.date? = [x]) : trText s = x.out := by
  unfold trText
  rw [h]
  simp only [List.flatMap_cons, List.flatMap_nil, List.append_nil]
  exact date_out x

theorem found_dates {E : Env} (hE : Sound E) {c : PCfg} (hc : SearchCfg c) {walls : List Int} (hd : ∀ l, c.defaultTz = some l → SmallOffsets l) (need : Bool) :
    ∀ (S pre : List (List Piece)) (st : ParserSt × Option Time) (pl : List (ParsedSearch DateRes)) (subs : List (List Char)),
      (∀ s ∈ S, StretchOk s ∧ s ≠ []) → (∀ s ∈ S, ∀ q ∈ datesOf s, q.1.midnight ∈ walls) → FreshTypes st.1 → FineBase walls st.2 → (∀ p ∈ pl, FineFound walls p) →
      ∃ st' rs, foundLoop (E.searchParser c) need ((pre ++ S).map trText) ((pre ++ S).map writePieces) pre.length (S.map trText) st pl subs =
          some (st', pl ++ rs.map (·.1), subs ++ rs.map (·.2)) ∧
        rs.length = (S.flatMap datesOf).length ∧ ∀ q ∈ (S.flatMap datesOf).zip rs, FoundDate q.1.1 q.1.2 q.2 := by
  intro S
  induction S with
  | nil =>
    intro pre st pl subs _ _ _ _ _
    exact ⟨st, [], by simp [foundLoop], rfl, by simp⟩
  | cons s S ih =>
    intro pre st pl subs hok hw hs ht hpl
    obtain ⟨hso, hsn⟩ := hok s (by simp)
    have next := ih (pre ++ [s])
    simp only [List.append_assoc, List.cons_append, List.nil_append, List.length_append, List.length_cons, List.length_nil, Nat.zero_add] at next
    have hidx : (pre ++ s :: S)[pre.length]? = some s := by simp
    rw [List.map_cons, foundLoop]
    have hcase : s.filterMap Piece.date? = [] ∨ ∃ x, s.filterMap Piece.date? = [x] := by
      have := hso.2
      match hq : s.filterMap Piece.date? with
      | [] => exact Or.inl rfl
      | [x] => exact Or.inr ⟨x, rfl⟩
      | x :: y :: r => rw [hq] at this; simp at this
    rcases hcase with h0 | ⟨x, hx⟩
    · have htr : trText s = [] := by unfold trText; rw [h0]; rfl
      have hd0 : datesOf s = [] := by unfold datesOf; rw [h0]; rfl
      rw [if_pos (by rw [htr]; simp)]
      obtain ⟨st', rs, e, hl, hf⟩ := next st pl subs (fun t h => hok t (by simp [h])) (fun t h => hw t (by simp [h])) hs ht hpl
      exact ⟨st', rs, e, by rw [List.flatMap_cons, hd0]; exact hl, by rw [List.flatMap_cons, hd0]; exact hf⟩
    · have htr := trText_date hx
      have hmem : Piece.date x ∈ s := by
        have : x ∈ s.filterMap Piece.date? := by rw [hx]; simp
        obtain ⟨p, hp, he⟩ := List.mem_filterMap.mp this
        cases p <;> simp [Piece.date?] at he
        subst he
        exact hp
      have hxo : x.Ok := (hso.1 _ hmem).1
      have hd1 : datesOf s = [(x, writePieces s)] := by unfold datesOf; rw [hx]; rfl
      obtain ⟨st1, p, d, e1, f1, g1, hp, hfd⟩ := entry_date hE hc hd hs ht hpl hxo (hw s (by simp) (x, writePieces s) (by rw [hd1]; simp)) (trText s) need
      rw [if_neg (by rw [htr]; exact (out_clean hxo).2)]
      simp only [List.getElem?_map, hidx, Option.map_some, Option.bind_eq_bind, Option.bind_some]
      rw [htr] at e1 ⊢
      simp only [e1, hp, Option.isSome_some, if_true, trim_firm (stretch_firm hso hsn)]
      obtain ⟨st', rs, e, hl, hf⟩ := next st1 (pl ++ [p]) (subs ++ [writePieces s]) (fun t h => hok t (by simp [h])) (fun t h => hw t (by simp [h])) f1 g1 (by
        intro q hq
        rcases List.mem_append.mp hq with hq | hq
        · exact hpl q hq
        · simp at hq; subst hq; exact ⟨d, hp, hfd.zone⟩)
      refine ⟨st', (p, writePieces s) :: rs, ?_, ?_, ?_⟩
      · rw [e]; simp
      · rw [List.flatMap_cons, hd1]; simp [hl]
      · rw [List.flatMap_cons, hd1]
        intro q hq
        simp only [List.cons_append, List.nil_append, List.zip_cons_cons, List.mem_cons] at hq
        rcases hq with rfl | hq
        · exact ⟨rfl, d, hp, hfd.period, hfd.shows⟩
        · exact hf q hq

end Verif.Lemmas
