import Verif.Lemmas.Nospace
import Verif.Props.Text
/-! # C14, C15: dates without separators -/
set_option autoImplicit false
namespace Verif.Props
open Verif.Go Verif.Model Verif.Lemmas Verif.Spec

/-! ## Proof: the loop takes the first candidate `time.Parse` accepts -/

/-- Parsing one entry. -/
def entryParse (e : List Char × List (List Char)) : Option Time := timeParse (nsLayout e.1) (joinWith ['-'] e.2)

/-- Entries the loop handles plainly. -/
def EntryOK (cfg : Cfg) (e : List Char × List (List Char)) : Prop :=
  entryParse e = none ∨ ∃ t, entryParse e = some t ∧ t.isZero = false ∧ 1000 ≤ t.year ∧
    checkStrictParsing cfg (nsMissing e.1) = true ∧ getPeriodFromFormat e.1 = .day

theorem nsLoop_first (cfg : Cfg) : ∀ (es : List (List Char × List (List Char))), (∀ e ∈ es, EntryOK cfg e) →
    (∃ pre e post t, es = pre ++ e :: post ∧ (∀ x ∈ pre, entryParse x = none) ∧ entryParse e = some t ∧
      nsLoop cfg es DateRes.zero = .ok { period := .day, time := t }) ∨
    ((∀ e ∈ es, entryParse e = none) ∧ nsLoop cfg es DateRes.zero = .error .error) := by
  intro es
  induction es with
  | nil => intro _; right; exact ⟨by simp, rfl⟩
  | cons e es ih =>
    intro h
    have ih := ih (fun x hx => h x (by simp [hx]))
    obtain ⟨f, parts⟩ := e
    rcases h (f, parts) (by simp) with hn | ⟨t, ht, hz, hy, hc, hp⟩
    · have hn' : timeParse (nsLayout f) (joinWith ['-'] parts) = none := hn
      rcases ih with ⟨pre, e, post, t, rfl, h1, h2, h3⟩ | ⟨h1, h2⟩
      · left
        refine ⟨(f, parts) :: pre, e, post, t, rfl, ?_, h2, ?_⟩
        · intro x hx
          rcases List.mem_cons.mp hx with rfl | hx
          · exact hn
          · exact h1 x hx
        · unfold nsLoop; simp only [hn']; exact h3
      · right
        refine ⟨?_, ?_⟩
        · intro x hx
          rcases List.mem_cons.mp hx with rfl | hx
          · exact hn
          · exact h1 x hx
        · unfold nsLoop; simp only [hn']; exact h2
    · left
      have ht' : timeParse (nsLayout f) (joinWith ['-'] parts) = some t := ht
      have hy' : ¬ t.year < 1000 := by omega
      refine ⟨[], (f, parts), es, t, rfl, by simp, ht, ?_⟩
      unfold nsLoop
      simp only [ht', hz, Bool.false_eq_true, if_false, hy', hp, hc, if_true]

theorem flatMap_split {α β : Type} (g : α → List β) : ∀ (l : List α) (pre post : List β) (e : β),
    l.flatMap g = pre ++ e :: post →
    ∃ l1 a l2 p1 p2, l = l1 ++ a :: l2 ∧ g a = p1 ++ e :: p2 ∧ pre = l1.flatMap g ++ p1 := by
  intro l
  induction l with
  | nil => intro pre post e h; simp at h
  | cons a l ih =>
    intro pre post e h
    rw [List.flatMap_cons] at h
    rw [List.append_eq_append_iff] at h
    rcases h with ⟨as, h1, h2⟩ | ⟨bs, h1, h2⟩
    · obtain ⟨l1, b, l2, p1, p2, e1, e2, e3⟩ := ih as post e h2
      exact ⟨a :: l1, b, l2, p1, p2, by rw [e1]; rfl, e2, by rw [h1, e3, List.flatMap_cons, List.append_assoc]⟩
    · cases bs with
      | nil =>
        simp at h2
        obtain ⟨l1, b, l2, p1, p2, e1, e2, e3⟩ := ih [] post e (by simp [h2])
        exact ⟨a :: l1, b, l2, p1, p2, by rw [e1]; rfl, e2, by
          simp at h1
          rw [← h1, List.flatMap_cons, List.append_assoc, ← e3]; simp⟩
      | cons b bs =>
        simp at h2
        obtain ⟨rfl, h2⟩ := h2
        exact ⟨[], a, l, pre, bs, rfl, h1, by simp⟩

/-! ## Theorems -/

/-- No strictness about the year (a no-space format counts as one without a year, see `C14_strict`). -/
def YearNotRequired (cfg : Cfg) : Prop := cfg.strict = false ∧ "year".toList ∉ cfg.requiredParts

/-- The no-space parser makes a date and time out of the digit runs `runs` (in order), trying the formats in
order: the first run for which any format has a reading, the first format that has one, the
greediest way to cut. -/
def Chosen (formats runs : List (List Char)) (r : DateRes) : Prop :=
  ∃ (before : List (List Char)) (ds : List Char) (after : List (List Char))
    (earlier : List (List Char)) (f : List Char) (later : List (List Char))
    (parts : List (List Char)) (s : Stamp),
    runs = before ++ ds :: after ∧ (∀ x ∈ before, ∀ g ∈ formats, ∀ p s, ¬ Reading g x p s) ∧
    formats = earlier ++ f :: later ∧ (∀ g ∈ earlier, ∀ p s, ¬ Reading g ds p s) ∧
    Reading f ds parts s ∧ (∀ p s', Reading f ds p s' → p = parts ∨ Greedier parts p) ∧
    Shows r.time s.year s.month s.day s.hour s.minute s.second 0 ∧ r.time.loc = Loc.utc ∧ r.period = .day

theorem loop_chosen (cfg : Cfg) (hc : YearNotRequired cfg) (ny : Int) (hny : 2001 ≤ ny ∧ ny ≤ 2999)
    (formats runs : List (List Char)) (hf : ∀ f ∈ formats, FormatOK f) :
    let es := runs.flatMap fun ds => formats.flatMap fun f => (candidateParts ny f ds).map fun c => (f, c)
    (∃ r, nsLoop cfg es DateRes.zero = .ok r ∧ Chosen formats runs r) ∨
    (nsLoop cfg es DateRes.zero = .error .error ∧ ∀ ds ∈ runs, ∀ f ∈ formats, ∀ p s, ¬ Reading f ds p s) := by
  intro es
  have hstrict : checkStrictParsing cfg ["year".toList] = true := by
    unfold checkStrictParsing
    simp only [hc.1, Bool.false_and, Bool.false_eq_true, if_false, List.all_eq_true]
    intro x hx
    have : x ≠ "year".toList := fun h => hc.2 (h ▸ hx)
    simpa using this
  have hes : ∀ e ∈ es, EntryOK cfg e := by
    intro e he
    obtain ⟨ds, _, he⟩ := List.mem_flatMap.mp he
    obtain ⟨f, hfm, he⟩ := List.mem_flatMap.mp he
    obtain ⟨c, hcm, rfl⟩ := List.mem_map.mp he
    rcases candidate_parse (hf f hfm) ny hny hcm with ⟨_, h⟩ | ⟨_, st, t, _, h2, _, _, h5, h6, h7⟩
    · exact Or.inl h
    · exact Or.inr ⟨t, h2, h5, h6, by rw [h7]; exact hstrict, (hf f hfm).period⟩
  have noReading : ∀ (f ds : List Char), f ∈ formats →
      (∀ e ∈ (candidateParts ny f ds).map fun c => (f, c), entryParse e = none) → ∀ p s, ¬ Reading f ds p s := by
    intro f ds hfm hall p s hr
    obtain ⟨h1, h2, _⟩ := reading_candidate (hf f hfm) ny hny hr
    have := hall (f, p) (List.mem_map.mpr ⟨p, h1, rfl⟩)
    rcases candidate_parse (hf f hfm) ny hny h1 with ⟨h3, _⟩ | ⟨_, st, t, _, h4, _⟩
    · exact h3 h2
    · have h4' : entryParse (f, p) = some t := h4
      rw [this] at h4'; cases h4'
  rcases nsLoop_first cfg es hes with ⟨pre, e, post, t, he, hpre, het, hr⟩ | ⟨h1, h2⟩
  · left
    refine ⟨_, hr, ?_⟩
    obtain ⟨before, ds, after, p1, p2, hruns, hg, hpre1⟩ := flatMap_split _ runs pre post e he
    obtain ⟨earlier, f, later, q1, q2, hform, hg2, hp1⟩ := flatMap_split _ formats p1 p2 e hg
    have hfm : f ∈ formats := by rw [hform]; simp
    have hemem : e ∈ (candidateParts ny f ds).map fun c => (f, c) := by rw [hg2]; simp
    obtain ⟨parts, hpm, rfl⟩ := List.mem_map.mp hemem
    rcases candidate_parse (hf f hfm) ny hny hpm with ⟨_, h⟩ | ⟨_, st, t', hread, ht', hsh, hloc, _, _, _⟩
    · have h' : entryParse (f, parts) = none := h
      rw [h'] at het; cases het
    have ht2 : entryParse (f, parts) = some t' := ht'
    rw [ht2] at het
    cases het
    refine ⟨before, ds, after, earlier, f, later, parts, st, hruns, ?_, hform, ?_, hread, ?_, hsh, hloc, rfl⟩
    · intro x hx g hg'
      refine noReading g x hg' (fun e he => hpre e ?_)
      rw [hpre1]
      refine List.mem_append_left _ (List.mem_flatMap.mpr ⟨x, hx, List.mem_flatMap.mpr ⟨g, hg', he⟩⟩)
    · intro g hg'
      refine noReading g ds (by rw [hform]; simp [hg']) (fun e he => hpre e ?_)
      rw [hpre1, hp1]
      exact List.mem_append_right _ (List.mem_append_left _ (List.mem_flatMap.mpr ⟨g, hg', he⟩))
    · intro p s' hr'
      obtain ⟨c1, c2, _⟩ := reading_candidate (hf f hfm) ny hny hr'
      have hm : (f, p) ∈ q1 ++ (f, parts) :: q2 := by
        rw [← hg2]; exact List.mem_map.mpr ⟨p, c1, rfl⟩
      have hpw : ((candidateParts ny f ds).map fun c => (f, c)).Pairwise (fun a b => Greedier a.2 b.2) := by
        rw [List.pairwise_map]; exact candidateParts_pairwise (hf f hfm) ny ds
      rw [hg2] at hpw
      rcases List.mem_append.mp hm with hm | hm
      · have := hpre (f, p) (by rw [hpre1, hp1]; simp [hm])
        rcases candidate_parse (hf f hfm) ny hny c1 with ⟨h3, _⟩ | ⟨_, _, t'', _, h4, _⟩
        · exact absurd c2 h3
        · have h4' : entryParse (f, p) = some t'' := h4
          rw [this] at h4'; cases h4'
      · rcases List.mem_cons.mp hm with hm | hm
        · left; simpa using hm
        · right
          have := (List.pairwise_append.mp hpw).2.1
          exact (List.pairwise_cons.mp this).1 (f, p) hm
  · right
    refine ⟨h2, ?_⟩
    intro ds hds f hfm
    refine noReading f ds hfm (fun e he => h1 e ?_)
    exact List.mem_flatMap.mpr ⟨ds, hds, List.mem_flatMap.mpr ⟨f, hfm, he⟩⟩

/-- The runs of digits in a text without colons, from left to right. -/
def digitRuns (s : List Char) : List (List Char) := ((tokenize s).filter (·.typ == .digit)).map (·.text)

theorem nospace_entries (formats : List (List Char)) (ny : Int) (s : List Char) :
    (((tokenize s).filter (·.typ == .digit)).flatMap fun token =>
      formats.flatMap fun f => (candidateParts ny f token.text).map fun c => (f, c)) =
    (digitRuns s).flatMap fun ds => formats.flatMap fun f => (candidateParts ny f ds).map fun c => (f, c) := by
  unfold digitRuns
  rw [List.flatMap_map]

/-- **C14** With a DateOrder set, whatever the string: the parser either finds a date, and then it is a
reading of a run of digits as `Chosen` says, or it reports an error, and then no run has a reading in any format
(or the string is not one for this parser).  `nowYear` is the year of the computer's clock. -/
theorem C14_readings (cfg : Cfg) (hc : YearNotRequired cfg) (nowYear : Int) (hny : 2001 ≤ nowYear ∧ nowYear ≤ 2999)
    (str : List Char) (formats : List (List Char)) (ho : cfg.dateOrder ≠ [])
    (hf : dateTimeFormats (toLower cfg.dateOrder) = some formats) :
    (∃ r, nospaceParse cfg nowYear str = .ok r ∧ Chosen formats (digitRuns (nsClean str)) r) ∨
    (nospaceParse cfg nowYear str = .error .error ∧
      (nsEligible str = true → ∀ ds ∈ digitRuns (nsClean str), ∀ f ∈ formats, ∀ p s, ¬ Reading f ds p s)) := by
  have he : cfg.dateOrder.isEmpty = false := by simp [ho]
  unfold nospaceParse
  by_cases hel : nsEligible str = true
  · simp only [hel, Bool.not_true, Bool.false_eq_true, if_false, he, Bool.false_and, hf]
    by_cases hs : (nsClean str).isEmpty = true
    · right
      simp only [hs, if_true]
      refine ⟨trivial, ?_⟩
      intro _ ds hds
      simp at hs
      rw [hs] at hds
      simp [digitRuns, tokenize] at hds
    · simp only [hs, if_false]
      have hz : DateRes.zero.isZero = true := by simp [DateRes.isZero, DateRes.zero]
      simp only [hz, Bool.not_true, Bool.false_eq_true, if_false]
      rw [nospace_entries]
      rcases loop_chosen cfg hc nowYear hny formats (digitRuns (nsClean str)) (formats_ok hf) with h | ⟨h1, h2⟩
      · exact Or.inl h
      · exact Or.inr ⟨h1, fun _ => h2⟩
  · right
    simp [hel]

/-- The digits, possibly with one colon between two of them. -/
def WithColon (ds str : List Char) : Prop := str = ds ∨ ∃ a b, b ≠ [] ∧ ds = a ++ b ∧ str = a ++ ':' :: b

theorem sanitize_plain (s : List Char) (h : ∀ c ∈ s, isSpace c = false) : sanitizeSpaces s = s := by
  unfold sanitizeSpaces
  have e : s.filter (fun c => c != '\u00a0') = s := by
    rw [List.filter_eq_self]
    intro c hc
    have := h c hc
    have hn : c ≠ '\u00a0' := by
      rintro rfl
      exact absurd this (by decide)
    simpa using hn
  rw [e]
  cases s with
  | nil => rfl
  | cons c cs =>
    have hw : Word (c :: cs) := ⟨by simp, h⟩
    have hj := fields_join [c :: cs] (by intro w hw'; simp at hw'; rw [hw']; exact hw)
    simp only [joinWith] at hj
    rw [hj]; rfl

theorem clean_digits {ds str : List Char} (hd : IsNumeral ds) (hw : WithColon ds str) :
    nsClean str = ds ∧ nsEligible str = true := by
  have hdig : ∀ c, c.isDigit = true → isSpace c = false := by
    intro c hc
    exact digits_not_space (s := [c]) (by intro x hx; simp at hx; rw [hx]; exact hc) c (by simp)
  have hcol : ∀ c, c.isDigit = true → (c != ':') = true := by
    intro c hc
    have : c ≠ ':' := by rintro rfl; exact absurd hc (by decide)
    simpa using this
  have fself : ∀ l : List Char, (∀ c ∈ l, c.isDigit = true) → l.filter (· != ':') = l := by
    intro l hl
    rw [List.filter_eq_self]
    exact fun c hc => hcol c (hl c hc)
  have dw : ∀ l r : List Char, (∀ c ∈ l, c.isDigit = true) → (l ++ r).dropWhile Char.isDigit = r.dropWhile Char.isDigit := by
    intro l r hl
    induction l with
    | nil => rfl
    | cons a l ih =>
      rw [List.cons_append, List.dropWhile_cons_of_pos (hl a (by simp))]
      exact ih (fun c hc => hl c (by simp [hc]))
  rcases hw with rfl | ⟨a, b, hb, rfl, rfl⟩
  · refine ⟨?_, ?_⟩
    · unfold nsClean
      rw [sanitize_plain _ (fun c hc => hdig c (hd.2 c hc)), fself _ hd.2]
    · have := dw str [] hd.2
      simp only [List.append_nil] at this
      unfold nsEligible
      rw [this]; simp
  · have ha : ∀ c ∈ a, c.isDigit = true := fun c hc => hd.2 c (by simp [hc])
    have hb' : ∀ c ∈ b, c.isDigit = true := fun c hc => hd.2 c (by simp [hc])
    refine ⟨?_, ?_⟩
    · unfold nsClean
      rw [sanitize_plain]
      · rw [List.filter_append, List.filter_cons_of_neg (by simp), fself a ha, fself b hb']
      · intro c hc
        simp only [List.mem_append, List.mem_cons] at hc
        rcases hc with h | rfl | h
        · exact hdig c (ha c h)
        · decide
        · exact hdig c (hb' c h)
    · unfold nsEligible
      rw [dw a _ ha]
      cases b with
      | nil => exact absurd rfl hb
      | cons x b =>
        have hx := hb' x (by simp)
        have h0 : (':' : Char).isDigit = false := by decide
        rw [List.dropWhile_cons_of_neg (by simp [h0]), List.takeWhile_cons_of_pos (by simp [h0]),
          List.takeWhile_cons_of_neg (by simp [hx])]
        simp

theorem runs_digits {ds : List Char} (hd : IsNumeral ds) : digitRuns ds = [ds] := by
  have hr : Run .digit ds := by
    intro c hc
    have := (isDigitTok_iff c).mp (Or.inl (hd.2 c hc))
    simp [classOf, this]
  unfold digitRuns
  rw [tokenize_single .digit ds hd.1 hr]
  rfl

/-- **C14** A string of digits (one colon allowed): if any format has a reading of it, the parser finds
one: a reading in the first format that has one, cut as greedily as possible.  If none has, it reports an error. -/
theorem C14_digits (cfg : Cfg) (hc : YearNotRequired cfg) (nowYear : Int) (hny : 2001 ≤ nowYear ∧ nowYear ≤ 2999)
    (ds str : List Char) (hd : IsNumeral ds) (hw : WithColon ds str) (formats : List (List Char))
    (ho : cfg.dateOrder ≠ []) (hf : dateTimeFormats (toLower cfg.dateOrder) = some formats) :
    (∃ r earlier f later parts s, nospaceParse cfg nowYear str = .ok r ∧
      formats = earlier ++ f :: later ∧ (∀ g ∈ earlier, ∀ p s, ¬ Reading g ds p s) ∧
      Reading f ds parts s ∧ (∀ p s', Reading f ds p s' → p = parts ∨ Greedier parts p) ∧
      Shows r.time s.year s.month s.day s.hour s.minute s.second 0 ∧ r.time.loc = Loc.utc ∧ r.period = .day) ∨
    (nospaceParse cfg nowYear str = .error .error ∧ ∀ f ∈ formats, ∀ p s, ¬ Reading f ds p s) := by
  obtain ⟨hcl, hel⟩ := clean_digits hd hw
  rcases C14_readings cfg hc nowYear hny str formats ho hf with ⟨r, h1, h2⟩ | ⟨h1, h2⟩
  · left
    rw [hcl, runs_digits hd] at h2
    obtain ⟨before, ds', after, earlier, f, later, parts, s, hr, _, h3⟩ := h2
    have : ds' = ds := by
      cases before with
      | nil => simp at hr; exact hr.1.symm
      | cons b bs => simp at hr
    subst this
    exact ⟨r, earlier, f, later, parts, s, h1, h3⟩
  · right
    rw [hcl, runs_digits hd] at h2
    exact ⟨h1, h2 hel ds (by simp)⟩

/-- The six orders give lists of formats (so `hf` above is met by every valid DateOrder). -/
theorem formats_exist (o : Order) : ∃ formats, dateTimeFormats o.letters = some formats := by
  cases o <;> exact ⟨_, rfl⟩

/-- **C14** Under StrictParsing, or when the year is a required part, the no-space parser finds nothing
(finding: every format counts as lacking the year, since none has both `y` and `Y`). -/
theorem C14_strict (cfg : Cfg) (nowYear : Int) (hny : 2001 ≤ nowYear ∧ nowYear ≤ 2999) (str : List Char)
    (ho : cfg.dateOrder ≠ []) (hs : cfg.strict = true ∨ "year".toList ∈ cfg.requiredParts) :
    nospaceParse cfg nowYear str = .error .error := by
  have he : cfg.dateOrder.isEmpty = false := by simp [ho]
  have hstrict : checkStrictParsing cfg ["year".toList] = false := by
    unfold checkStrictParsing
    rcases hs with h | h
    · simp [h]
    · cases cfg.strict with
      | true => simp
      | false =>
        simp only [Bool.false_and, Bool.false_eq_true, if_false, List.all_eq_false]
        exact ⟨_, h, by simp⟩
  have loop : ∀ (es : List (List Char × List (List Char))),
      (∀ e ∈ es, ∃ ds, e.2 ∈ candidateParts nowYear e.1 ds ∧ FormatOK e.1) →
      nsLoop cfg es DateRes.zero = .error .error := by
    intro es
    induction es with
    | nil => intro _; rfl
    | cons e es ih =>
      intro h
      have ih := ih (fun x hx => h x (by simp [hx]))
      obtain ⟨f, parts⟩ := e
      obtain ⟨ds, hm, hf⟩ := h (f, parts) (by simp)
      unfold nsLoop
      rcases candidate_parse hf nowYear hny hm with ⟨_, h⟩ | ⟨_, st, t, _, h2, _, _, h5, h6, h7⟩
      · simp only at h
        simp only [h, ih]
      · simp only at h2 h7
        simp only [h2, h5, Bool.false_eq_true, if_false, h7, hstrict, ih]
        rw [if_neg (by omega)]
  unfold nospaceParse
  by_cases hel : nsEligible str = true
  · simp only [hel, Bool.not_true, Bool.false_eq_true, if_false, he, Bool.false_and]
    split
    · rfl
    · have hz : DateRes.zero.isZero = true := by simp [DateRes.isZero, DateRes.zero]
      simp only [hz, Bool.not_true, Bool.false_eq_true, if_false]
      split
      · rfl
      · rename_i formats hf
        refine loop _ ?_
        intro e he
        obtain ⟨tok, _, he⟩ := List.mem_flatMap.mp he
        obtain ⟨f, hfm, he⟩ := List.mem_flatMap.mp he
        obtain ⟨c, hcm, rfl⟩ := List.mem_map.mp he
        exact ⟨tok.text, hcm, formats_ok hf f hfm⟩
  · simp [hel]

/-! ## C15: eight digits -/

/-- Two digits. -/
def TwoDigits (s : List Char) : Prop := IsNumeral s ∧ s.length = 2
/-- Four digits. -/
def FourDigits (s : List Char) : Prop := IsNumeral s ∧ s.length = 4

/-- Two digit day and month and four digit year written without separators in an order. -/
def Order.solid (o : Order) (d m y : List Char) : List Char := o.write d m y [] []

/-- The format of an order with a four digit year. -/
def Order.format (o : Order) : List Char := [(o.pick 'd' 'm' 'Y').1, (o.pick 'd' 'm' 'Y').2.1, (o.pick 'd' 'm' 'Y').2.2]

/-- The parts in order. -/
def Order.cut (o : Order) (d m y : List Char) : List (List Char) :=
  [(o.pick d m y).1, (o.pick d m y).2.1, (o.pick d m y).2.2]

theorem solid_cut (o : Order) (d m y : List Char) : (Order.cut o d m y).flatten = Order.solid o d m y := by
  cases o <;> simp [Order.solid, Order.cut, Order.write, Order.pick]

theorem solid_numeral (o : Order) {d m y : List Char} (hd : TwoDigits d) (hm : TwoDigits m) (hy : FourDigits y) : IsNumeral (Order.solid o d m y) := by
  refine ⟨?_, ?_⟩
  · have := hd.1.1
    cases o <;> simp [Order.solid, Order.write, this]
  · intro c hc
    have : c ∈ d ∨ c ∈ m ∨ c ∈ y := by
      cases o <;> simp [Order.solid, Order.write] at hc <;> rcases hc with h | h | h <;> simp [h]
    rcases this with h | h | h
    · exact hd.1.2 c h
    · exact hm.1.2 c h
    · exact hy.1.2 c h

theorem solid_length (o : Order) {d m y : List Char} (hd : TwoDigits d) (hm : TwoDigits m) (hy : FourDigits y) : (Order.solid o d m y).length = 8 := by
  have := hd.2; have := hm.2; have := hy.2
  cases o <;> simp [Order.solid, Order.write] <;> omega

theorem partText_two {l : Char} {s : List Char} (h : TwoDigits s) (h1 : l ≠ 'Y') (h2 : l ≠ 'y') : PartText l s := by
  refine ⟨h.1, ?_⟩
  simp only [h1, h2, if_false]
  have := h.2; omega

theorem partText_four {s : List Char} (h : FourDigits s) (hy : 1000 ≤ number s) : PartText 'Y' s := ⟨h.1, by simp [h.2, hy]⟩

/-- The intended reading. -/
theorem solid_reading (o : Order) {d m y : List Char} (hd : TwoDigits d) (hm : TwoDigits m) (hy : FourDigits y) (hy1 : 1000 ≤ number y)
    (hdate : IsDate (number y) (number m) (number d)) :
    Reading (Order.format o) (Order.solid o d m y) (Order.cut o d m y) { year := number y, month := number m, day := number d } := by
  refine ⟨solid_cut o d m y, ?_, hdate, by simp [IsClock]⟩
  have pd : PartText 'd' d := partText_two hd (by decide) (by decide)
  have pm : PartText 'm' m := partText_two hm (by decide) (by decide)
  have py := partText_four hy hy1
  have nd : Stamp.put { } 'd' (number d) = { day := number d } := rfl
  cases o
  all_goals
    refine .part _ _ _ _ _ _ (by assumption) (.part _ _ _ _ _ _ (by assumption) (.part _ _ _ _ _ _ (by assumption) ?_))
    exact .done _

theorem append3_inj {a b c a' b' c' : List Char} (h : a ++ b ++ c = a' ++ b' ++ c') (h1 : a.length = a'.length)
    (h2 : b.length = b'.length) : a = a' ∧ b = b' ∧ c = c' := by
  simp only [List.append_assoc] at h
  obtain ⟨r1, r2⟩ := List.append_inj h h1
  obtain ⟨r3, r4⟩ := List.append_inj r2 h2
  exact ⟨r1, r3, r4⟩

/-- It is the only reading in this format. -/
theorem solid_unique (o : Order) {d m y : List Char} (hd : TwoDigits d) (hm : TwoDigits m) (hy : FourDigits y) {p : List (List Char)} {s : Stamp}
    (h : Reading (Order.format o) (Order.solid o d m y) p s) :
    p = Order.cut o d m y ∧ s = { year := number y, month := number m, day := number d } := by
  obtain ⟨h1, h2, _⟩ := h
  have h8 := solid_length o hd hm hy
  have hl := hd.2; have hl' := hm.2; have hl'' := hy.2
  cases o
  all_goals
    simp only [Order.format, Order.pick] at h2
    cases h2 with
    | part _ _ _ _ t1 _ p1 h2 =>
    cases h2 with
    | part _ _ _ _ t2 _ p2 h2 =>
    cases h2 with
    | part _ _ _ _ t3 _ p3 h2 =>
    cases h2
    have q1 := p1.2
    have q2 := p2.2
    have q3 := p3.2
    simp at q1 q2 q3
    have hlen := congrArg List.length h1
    rw [h8] at hlen
    simp at hlen
    simp only [List.flatten_cons, List.flatten_nil, List.append_nil, Order.solid, Order.write] at h1
    rw [← List.append_assoc] at h1
    obtain ⟨rfl, rfl, rfl⟩ := append3_inj h1 (by omega) (by omega)
    exact ⟨rfl, rfl⟩

/-- If nothing before format `f` reads the digits and `f` reads them in one way only, this is the result. -/
theorem nospace_unique (cfg : Cfg) (hc : YearNotRequired cfg) (nowYear : Int) (hny : 2001 ≤ nowYear ∧ nowYear ≤ 2999)
    (ds str : List Char) (hd : IsNumeral ds) (hw : WithColon ds str) (pre : List (List Char)) (f : List Char) (post : List (List Char))
    (ho : cfg.dateOrder ≠ []) (hf : dateTimeFormats (toLower cfg.dateOrder) = some (pre ++ f :: post))
    (hpre : ∀ g ∈ pre, ∀ p s, ¬ Reading g ds p s) (parts : List (List Char)) (s : Stamp) (hr : Reading f ds parts s)
    (huniq : ∀ p s', Reading f ds p s' → s' = s) :
    ∃ r, nospaceParse cfg nowYear str = .ok r ∧ Shows r.time s.year s.month s.day s.hour s.minute s.second 0 ∧
      r.time.loc = Loc.utc ∧ r.period = .day := by
  rcases C14_digits cfg hc nowYear hny ds str hd hw _ ho hf with
    ⟨r, earlier, f', later, parts', s', h1, h2, h3, h4, _, h6, h7, h8⟩ | ⟨_, h⟩
  · have : f' = f := by
      rw [List.append_eq_append_iff] at h2
      rcases h2 with ⟨as, e1, e2⟩ | ⟨bs, e1, e2⟩
      · cases as with
        | nil => simp at e2; exact e2.1.symm
        | cons a as =>
          simp at e2
          exact absurd hr (h3 f (by rw [e1, e2.1]; simp) parts s)
      · cases bs with
        | nil => simp at e2; exact e2.1
        | cons b bs =>
          simp at e2
          exact absurd h4 (hpre f' (by rw [e1, e2.1]; simp) parts' s')
    subst this
    have := huniq parts' s' h4
    subst this
    exact ⟨r, h1, h6, h7, h8⟩
  · exact absurd hr (h f (by simp) parts s)

/-- **C15** Eight digits that are a date in the configured order (years from 1000) mean this date, at
midnight UTC; any order but MDY. -/
theorem C15_eight_digits (cfg : Cfg) (hc : YearNotRequired cfg) (nowYear : Int) (hny : 2001 ≤ nowYear ∧ nowYear ≤ 2999)
    (o : Order) (ho : toLower cfg.dateOrder = o.letters) (hmdy : o ≠ .mdy) (d m y : List Char)
    (hd : TwoDigits d) (hm : TwoDigits m) (hy : FourDigits y) (hy1 : 1000 ≤ number y) (hdate : IsDate (number y) (number m) (number d)) :
    ∃ r, nospaceParse cfg nowYear (Order.solid o d m y) = .ok r ∧ Shows r.time (number y) (number m) (number d) 0 0 0 0 ∧
      r.time.loc = Loc.utc ∧ r.period = .day := by
  have hne : cfg.dateOrder ≠ [] := by
    intro h; rw [h] at ho; cases o <;> simp [toLower, Order.letters] at ho
  obtain ⟨post, hpost⟩ : ∃ post, dateTimeFormats o.letters = some ([] ++ Order.format o :: post) := by
    cases o
    case mdy => exact absurd rfl hmdy
    all_goals exact ⟨_, rfl⟩
  exact nospace_unique cfg hc nowYear hny _ _ (solid_numeral o hd hm hy) (Or.inl rfl) [] (Order.format o) post hne
    (by rw [ho]; exact hpost) (by simp) _ _ (solid_reading o hd hm hy hy1 hdate) (fun p s' h => (solid_unique o hd hm hy h).2)

theorem two_chars {s : List Char} (h : TwoDigits s) : ∃ a b, s = [a, b] := by
  match s, h.2 with
  | [a, b], _ => exact ⟨a, b, rfl⟩

theorem four_chars {s : List Char} (h : FourDigits s) : ∃ a b c d, s = [a, b, c, d] := by
  match s, h.2 with
  | [a, b, c, d], _ => exact ⟨a, b, c, d, rfl⟩

/-- What the two preferred formats make of eight digits: only `YmdHM`, with one digit each after the year. -/
theorem preferred_eight {ds : List Char} (h8 : ds.length = 8) {g : List Char} (hg : g ∈ nsPreferred) {p : List (List Char)} {s : Stamp}
    (h : Reading g ds p s) : g = "YmdHM".toList ∧ ∃ (a b c d e f g h : Char), ds = [a, b, c, d, e, f, g, h] ∧
      1000 ≤ number [a, b, c, d] ∧
      s = { year := number [a, b, c, d], month := number [e], day := number [f], hour := number [g], minute := number [h] } := by
  have pos : ∀ {l : Char} {t : List Char}, PartText l t → 1 ≤ t.length := by
    intro l t hp
    have := hp.1.1
    cases t with
    | nil => exact absurd rfl this
    | cons _ _ => simp
  obtain ⟨h1, h2, _⟩ := h
  simp only [nsPreferred, List.map_cons, List.map_nil, List.mem_cons, List.not_mem_nil, or_false] at hg
  rcases hg with rfl | rfl
  · refine ⟨rfl, ?_⟩
    cases h2 with
    | part _ _ _ _ t1 _ p1 h2 =>
    cases h2 with
    | part _ _ _ _ t2 _ p2 h2 =>
    cases h2 with
    | part _ _ _ _ t3 _ p3 h2 =>
    cases h2 with
    | part _ _ _ _ t4 _ p4 h2 =>
    cases h2 with
    | part _ _ _ _ t5 _ p5 h2 =>
    cases h2
    have q1 : t1.length = 4 ∧ 1000 ≤ number t1 := p1.2
    have l2 := pos p2; have l3 := pos p3; have l4 := pos p4; have l5 := pos p5
    have hlen := congrArg List.length h1
    rw [h8] at hlen
    simp at hlen
    obtain ⟨e, rfl⟩ := List.length_eq_one_iff.mp (show t2.length = 1 by omega)
    obtain ⟨f, rfl⟩ := List.length_eq_one_iff.mp (show t3.length = 1 by omega)
    obtain ⟨g, rfl⟩ := List.length_eq_one_iff.mp (show t4.length = 1 by omega)
    obtain ⟨h, rfl⟩ := List.length_eq_one_iff.mp (show t5.length = 1 by omega)
    obtain ⟨a, b, c, d, rfl⟩ := four_chars (s := t1) ⟨p1.1, q1.1⟩
    exact ⟨a, b, c, d, e, f, g, h, by rw [← h1]; rfl, q1.2, rfl⟩
  · exfalso
    cases h2 with
    | part _ _ _ _ t1 _ p1 h2 =>
    cases h2 with
    | part _ _ _ _ t2 _ p2 h2 =>
    cases h2 with
    | part _ _ _ _ t3 _ p3 h2 =>
    cases h2 with
    | part _ _ _ _ t4 _ p4 h2 =>
    cases h2 with
    | part _ _ _ _ t5 _ p5 h2 =>
    cases h2 with
    | part _ _ _ _ t6 _ p6 h2 =>
    cases h2
    have q1 : t1.length = 4 ∧ 1000 ≤ number t1 := p1.2
    have l2 := pos p2; have l3 := pos p3; have l4 := pos p4; have l5 := pos p5; have l6 := pos p6
    have hlen := congrArg List.length h1
    rw [h8] at hlen
    simp at hlen
    omega

theorem mdy_formats : ∃ post, dateTimeFormats "mdy".toList = some (nsPreferred ++ Order.format .mdy :: post) := ⟨_, rfl⟩

theorem number_digit {c : Char} (h : c.isDigit = true) : 0 ≤ number [c] ∧ number [c] ≤ 9 := by
  have := digitVal_range h
  simpa [number, digitVal] using this

theorem number_two (a b : Char) : number [a, b] = number [a] * 10 + number [b] := by simp [number]
theorem number_four (a b c d : Char) : number [a, b, c, d] = ((number [a] * 10 + number [b]) * 10 + number [c]) * 10 + number [d] := by
  simp [number]

/-- **C15** The order MDY: right when the month has one digit or the hundreds digit of the year is 0. -/
theorem C15_mdy (cfg : Cfg) (hc : YearNotRequired cfg) (nowYear : Int) (hny : 2001 ≤ nowYear ∧ nowYear ≤ 2999)
    (ho : toLower cfg.dateOrder = Order.mdy.letters) (d m y : List Char)
    (hd : TwoDigits d) (hm : TwoDigits m) (hy : FourDigits y) (hy1 : 1000 ≤ number y) (hdate : IsDate (number y) (number m) (number d))
    (hok : number m < 10 ∨ number y / 100 % 10 = 0) :
    ∃ r, nospaceParse cfg nowYear (Order.solid .mdy d m y) = .ok r ∧ Shows r.time (number y) (number m) (number d) 0 0 0 0 ∧
      r.time.loc = Loc.utc ∧ r.period = .day := by
  have hne : cfg.dateOrder ≠ [] := by
    intro h; rw [h] at ho; simp [toLower, Order.letters] at ho
  obtain ⟨post, hpost⟩ := mdy_formats
  refine nospace_unique cfg hc nowYear hny _ _ (solid_numeral .mdy hd hm hy) (Or.inl rfl) nsPreferred (Order.format .mdy) post hne
    (by rw [ho]; exact hpost) ?_ _ _ (solid_reading .mdy hd hm hy hy1 hdate) (fun p s' h => (solid_unique .mdy hd hm hy h).2)
  intro g hg p s hr
  obtain ⟨_, a, b, c, e, y1, y2, y3, y4, hds, hk, hs⟩ := preferred_eight (solid_length .mdy hd hm hy) hg hr
  obtain ⟨m1, m2, rfl⟩ := two_chars hm
  obtain ⟨d1, d2, rfl⟩ := two_chars hd
  obtain ⟨z1, z2, z3, z4, rfl⟩ := four_chars hy
  simp [Order.solid, Order.write] at hds
  obtain ⟨rfl, rfl, rfl, rfl, rfl, rfl, rfl, rfl⟩ := hds
  rw [number_two] at hok
  rw [number_four] at hok hk
  have A := number_digit (hm.1.2 m1 (by simp))
  have B := number_digit (hm.1.2 m2 (by simp))
  have C := number_digit (hd.1.2 d1 (by simp))
  have D := number_digit (hd.1.2 d2 (by simp))
  have E := number_digit (hy.1.2 z1 (by simp))
  have F := number_digit (hy.1.2 z2 (by simp))
  have G := number_digit (hy.1.2 z3 (by simp))
  have H := number_digit (hy.1.2 z4 (by simp))
  have hex := hr.2.2.1
  rw [hs] at hex
  have := hex.2.2.1
  simp only at this
  omega

/-- **C15** Finding: in the order MDY (the English default), from October to December and with a year whose hundreds
digit is not 0 (such as 1999), the eight digits are taken as `YmdHM`: "12251999" is 1225-01-09 09:09. -/
theorem C15_mdy_misread (cfg : Cfg) (hc : YearNotRequired cfg) (nowYear : Int) (hny : 2001 ≤ nowYear ∧ nowYear ≤ 2999)
    (ho : toLower cfg.dateOrder = Order.mdy.letters) (d m y : List Char)
    (hd : TwoDigits d) (hm : TwoDigits m) (hy : FourDigits y) (hy1 : 1000 ≤ number y) (hm10 : 10 ≤ number m) (hy100 : number y / 100 % 10 ≠ 0) :
    ∃ r, nospaceParse cfg nowYear (Order.solid .mdy d m y) = .ok r ∧
      Shows r.time (number (m ++ d)) (number y / 1000) (number y / 100 % 10) (number y / 10 % 10) (number y % 10) 0 0 ∧
      r.time.loc = Loc.utc ∧ r.period = .day := by
  have hne : cfg.dateOrder ≠ [] := by
    intro h; rw [h] at ho; simp [toLower, Order.letters] at ho
  obtain ⟨post, hpost⟩ := mdy_formats
  have hnum := solid_numeral .mdy hd hm hy
  have hlen := solid_length .mdy hd hm hy
  obtain ⟨m1, m2, rfl⟩ := two_chars hm
  obtain ⟨d1, d2, rfl⟩ := two_chars hd
  obtain ⟨z1, z2, z3, z4, rfl⟩ := four_chars hy
  have A := hm.1.2 m1 (by simp)
  have B := hm.1.2 m2 (by simp)
  have C := hd.1.2 d1 (by simp)
  have D := hd.1.2 d2 (by simp)
  have E := hy.1.2 z1 (by simp)
  have F := hy.1.2 z2 (by simp)
  have G := hy.1.2 z3 (by simp)
  have H := hy.1.2 z4 (by simp)
  have A' := number_digit A; have B' := number_digit B; have C' := number_digit C; have D' := number_digit D
  have E' := number_digit E; have F' := number_digit F; have G' := number_digit G; have H' := number_digit H
  rw [number_two] at hm10
  have e4 := number_four m1 m2 d1 d2
  rw [number_four] at hy1 hy100
  have one : ∀ {l c : Char}, c.isDigit = true → l ≠ 'Y' → l ≠ 'y' → PartText l [c] := by
    intro l c hc h1 h2
    refine ⟨⟨by simp, by intro x hx; simp at hx; rw [hx]; exact hc⟩, ?_⟩
    simp [h1, h2]
  have R : Reading "YmdHM".toList (Order.solid .mdy [d1, d2] [m1, m2] [z1, z2, z3, z4])
      [[m1, m2, d1, d2], [z1], [z2], [z3], [z4]]
      { year := number [m1, m2, d1, d2], month := number [z1], day := number [z2], hour := number [z3], minute := number [z4] } := by
    refine ⟨rfl, ?_, ?_, ?_⟩
    · refine .part _ _ _ _ _ _ (partText_four ⟨⟨by simp, ?_⟩, rfl⟩ (by omega)) (.part _ _ _ _ _ _ (one E (by decide) (by decide))
        (.part _ _ _ _ _ _ (one F (by decide) (by decide)) (.part _ _ _ _ _ _ (one G (by decide) (by decide))
        (.part _ _ _ _ _ _ (one H (by decide) (by decide)) ?_))))
      · intro c hc
        simp at hc
        rcases hc with rfl | rfl | rfl | rfl <;> assumption
      · exact .done _
    · refine ⟨by simp only; omega, by simp only; omega, by simp only; omega, ?_⟩
      simp only
      have : 28 ≤ monthLen (number [m1, m2, d1, d2]) (number [z1]) := by
        unfold monthLen; repeat' split
        all_goals omega
      omega
    · unfold IsClock; simp only; omega
  have U : ∀ p s', Reading "YmdHM".toList (Order.solid .mdy [d1, d2] [m1, m2] [z1, z2, z3, z4]) p s' →
      s' = { year := number [m1, m2, d1, d2], month := number [z1], day := number [z2], hour := number [z3], minute := number [z4] } := by
    intro p s' h
    obtain ⟨_, a, b, c, e, y1, y2, y3, y4, hds, _, hs⟩ := preferred_eight hlen (by decide) h
    simp [Order.solid, Order.write] at hds
    obtain ⟨rfl, rfl, rfl, rfl, rfl, rfl, rfl, rfl⟩ := hds
    exact hs
  obtain ⟨r, h1, h2, h3⟩ := nospace_unique cfg hc nowYear hny _ _ hnum (Or.inl rfl) [] "YmdHM".toList
    ("YmdHMS".toList :: Order.format .mdy :: post) hne
    (by rw [ho]; exact hpost) (by simp) _ _ R U
  refine ⟨r, h1, ?_, h3⟩
  simp only at h2
  have e1 : number [z1, z2, z3, z4] / 1000 = number [z1] := by rw [number_four]; omega
  have e2 : number [z1, z2, z3, z4] / 100 % 10 = number [z2] := by rw [number_four]; omega
  have e3 : number [z1, z2, z3, z4] / 10 % 10 = number [z3] := by rw [number_four]; omega
  have e5 : number [z1, z2, z3, z4] % 10 = number [z4] := by rw [number_four]; omega
  rw [e1, e2, e3, e5]
  exact h2

/-! ### Without a DateOrder -/

/-- Go layout of eight digits in an order. -/
def Order.layout (o : Order) : List Char :=
  (o.pick "02".toList "01".toList "2006".toList).1 ++ (o.pick "02".toList "01".toList "2006".toList).2.1 ++
    (o.pick "02".toList "01".toList "2006".toList).2.2

/-- The orders tried when none is configured. -/
def guessOrders : List Order := [.mdy, .dmy, .ymd, .ydm, .myd, .dym]

theorem eight_layouts : nsEightDigit = guessOrders.map Order.layout := by decide

/-- Eight digits are this date, from year 1000 on, in the order. -/
def EightAs (o : Order) (ds : List Char) (y m d : Int) : Prop :=
  ∃ D M Y, TwoDigits D ∧ TwoDigits M ∧ FourDigits Y ∧ ds = Order.solid o D M Y ∧ number Y = y ∧ number M = m ∧ number D = d ∧
    1000 ≤ y ∧ IsDate y m d

theorem getnum_two {a b : Char} (r : List Char) (ha : a.isDigit = true) (hb : b.isDigit = true) :
    getnum true (a :: b :: r) = some (number [a, b], r) := by
  simp [getnum, ha, hb, number, digitVal]

theorem parse_eight (o : Order) {D M Y : List Char} (hd : TwoDigits D) (hm : TwoDigits M) (hy : FourDigits Y) :
    timeParse (Order.layout o) (Order.solid o D M Y) =
      if IsDate (number Y) (number M) (number D) then some (goDate (number Y) (number M) (number D) 0 0 0 0 Loc.utc) else none := by
  obtain ⟨m1, m2, rfl⟩ := two_chars hm
  obtain ⟨d1, d2, rfl⟩ := two_chars hd
  obtain ⟨z1, z2, z3, z4, rfl⟩ := four_chars hy
  have A := hm.1.2 m1 (by simp)
  have B := hm.1.2 m2 (by simp)
  have C := hd.1.2 d1 (by simp)
  have D := hd.1.2 d2 (by simp)
  have E := hy.1.2 z1 (by simp)
  have gm := fun r => getnum_two r A B
  have gd := fun r => getnum_two r C D
  have ay : atoi [z1, z2, z3, z4] = some (number [z1, z2, z3, z4]) := by
    rw [number_eq]; exact atoi_digits hy.1.2 hy.1.1
  have hd0 := natOfDigits_range (s := [d1, d2]) hd.1.2
  have hm0 := natOfDigits_range (s := [m1, m2]) hm.1.2
  rw [← number_eq] at hd0 hm0
  have ml := fun y m => daysIn_eq y m
  have core : ∀ (st : PState), st = { year := number [z1, z2, z3, z4], month := number [m1, m2], day := number [d1, d2] } →
      (1 ≤ number [m1, m2] ∧ number [m1, m2] ≤ 12) →
      finishParse st Loc.utc = if IsDate (number [z1, z2, z3, z4]) (number [m1, m2]) (number [d1, d2]) then
        some (goDate (number [z1, z2, z3, z4]) (number [m1, m2]) (number [d1, d2]) 0 0 0 0 Loc.utc) else none := by
    rintro st rfl hmr
    rw [finishParse_plain rfl rfl ⟨rfl, rfl⟩]
    simp only [Bool.false_and, Bool.false_eq_true, if_false]
    rw [if_neg (show ¬ number [m1, m2] < 0 by omega), if_neg (show ¬ number [d1, d2] < 0 by omega), daysIn_eq]
    by_cases hv : IsDate (number [z1, z2, z3, z4]) (number [m1, m2]) (number [d1, d2])
    · rw [if_pos hv, if_neg (by have := hv.2.2; omega)]
    · rw [if_neg hv, if_pos ?_]
      unfold IsDate at hv
      omega
  have cm : layoutChunks "01".toList = [.month01] := by decide
  cases o
  all_goals
    unfold timeParse timeParseIn parseWith
  case dmy =>
    rw [show layoutChunks (Order.layout .dmy) = [.day02, .month01, .year4] by decide]
    simp only [Order.solid, Order.write, List.append_nil, List.cons_append, List.nil_append, parseChunks, parseChunk, gd, gm,
      Option.map_some, Option.bind_some]
    by_cases hmr : 1 ≤ number [m1, m2] ∧ number [m1, m2] ≤ 12
    · rw [if_neg (by omega)]
      simp only [List.length_cons, List.length_nil, List.headD_cons, E, List.take, ay, Option.map_some, List.drop,
        List.isEmpty_nil, if_true]
      rw [if_neg (by simp)]
      exact core _ rfl hmr
    · rw [if_pos (by omega), if_neg (by unfold IsDate; omega)]; rfl
  case dym =>
    rw [show layoutChunks (Order.layout .dym) = [.day02, .year4, .month01] by decide]
    simp only [Order.solid, Order.write, List.append_nil, List.cons_append, List.nil_append, parseChunks, parseChunk, gd,
      Option.map_some, List.length_cons, List.length_nil, List.headD_cons, E, List.take, ay, List.drop]
    rw [if_neg (by simp)]
    simp only [gm, Option.bind_some]
    by_cases hmr : 1 ≤ number [m1, m2] ∧ number [m1, m2] ≤ 12
    · rw [if_neg (by omega)]
      simp only [List.isEmpty_nil, if_true]
      exact core _ rfl hmr
    · rw [if_pos (by omega), if_neg (by unfold IsDate; omega)]; rfl
  case mdy =>
    rw [show layoutChunks (Order.layout .mdy) = [.month01, .day02, .year4] by decide]
    simp only [Order.solid, Order.write, List.append_nil, List.cons_append, List.nil_append, parseChunks, parseChunk, gm,
      Option.bind_some]
    by_cases hmr : 1 ≤ number [m1, m2] ∧ number [m1, m2] ≤ 12
    · rw [if_neg (by omega)]
      simp only [gd, Option.map_some, List.length_cons, List.length_nil, List.headD_cons, E, List.take, ay, List.drop,
        List.isEmpty_nil, if_true]
      rw [if_neg (by simp)]
      exact core _ rfl hmr
    · rw [if_pos (by omega), if_neg (by unfold IsDate; omega)]; rfl
  case myd =>
    rw [show layoutChunks (Order.layout .myd) = [.month01, .year4, .day02] by decide]
    simp only [Order.solid, Order.write, List.append_nil, List.cons_append, List.nil_append, parseChunks, parseChunk, gm,
      Option.bind_some]
    by_cases hmr : 1 ≤ number [m1, m2] ∧ number [m1, m2] ≤ 12
    · rw [if_neg (by omega)]
      simp only [List.length_cons, List.length_nil, List.headD_cons, E, List.take, ay, List.drop, Option.map_some]
      rw [if_neg (by simp)]
      simp only [gd, Option.map_some, List.isEmpty_nil, if_true]
      exact core _ rfl hmr
    · rw [if_pos (by omega), if_neg (by unfold IsDate; omega)]; rfl
  case ymd =>
    rw [show layoutChunks (Order.layout .ymd) = [.year4, .month01, .day02] by decide]
    simp only [Order.solid, Order.write, List.append_nil, List.cons_append, List.nil_append, parseChunks, parseChunk,
      List.length_cons, List.length_nil, List.headD_cons, E, List.take, ay, List.drop, Option.map_some]
    rw [if_neg (by simp)]
    simp only [gm, Option.bind_some]
    by_cases hmr : 1 ≤ number [m1, m2] ∧ number [m1, m2] ≤ 12
    · rw [if_neg (by omega)]
      simp only [gd, Option.map_some, List.isEmpty_nil, if_true]
      exact core _ rfl hmr
    · rw [if_pos (by omega), if_neg (by unfold IsDate; omega)]; rfl
  case ydm =>
    rw [show layoutChunks (Order.layout .ydm) = [.year4, .day02, .month01] by decide]
    simp only [Order.solid, Order.write, List.append_nil, List.cons_append, List.nil_append, parseChunks, parseChunk,
      List.length_cons, List.length_nil, List.headD_cons, E, List.take, ay, List.drop, Option.map_some]
    rw [if_neg (by simp)]
    simp only [gd, Option.map_some, gm, Option.bind_some]
    by_cases hmr : 1 ≤ number [m1, m2] ∧ number [m1, m2] ≤ 12
    · rw [if_neg (by omega)]
      simp only [List.isEmpty_nil, if_true]
      exact core _ rfl hmr
    · rw [if_pos (by omega), if_neg (by unfold IsDate; omega)]; rfl

theorem eight_cut (o : Order) {ds : List Char} (hn : IsNumeral ds) (h8 : ds.length = 8) :
    ∃ D M Y, TwoDigits D ∧ TwoDigits M ∧ FourDigits Y ∧ ds = Order.solid o D M Y := by
  have cut : ∀ (i j k : Nat), i + j + k = 8 → 1 ≤ i → 1 ≤ j → 1 ≤ k → ∃ A B C : List Char, ds = A ++ B ++ C ∧ A.length = i ∧ B.length = j ∧ C.length = k ∧
      IsNumeral A ∧ IsNumeral B ∧ IsNumeral C := by
    intro i j k hsum hi hj hk
    have nn : ∀ l : List Char, 1 ≤ l.length → l ≠ [] := by rintro l h rfl; simp at h
    refine ⟨ds.take i, (ds.drop i).take j, (ds.drop i).drop j, ?_, ?_, ?_, ?_, ⟨nn _ ?_, ?_⟩, ⟨nn _ ?_, ?_⟩, ⟨nn _ ?_, ?_⟩⟩
    · rw [List.append_assoc, List.take_append_drop, List.take_append_drop]
    · simp; omega
    · simp; omega
    · simp; omega
    · simp; omega
    · exact fun c hc => hn.2 c (List.mem_of_mem_take hc)
    · simp; omega
    · exact fun c hc => hn.2 c (List.mem_of_mem_drop (List.mem_of_mem_take hc))
    · simp; omega
    · exact fun c hc => hn.2 c (List.mem_of_mem_drop (List.mem_of_mem_drop hc))
  cases o
  · obtain ⟨A, B, C, e, a, b, c, na, nb, nc⟩ := cut 2 2 4 rfl (by omega) (by omega) (by omega)
    exact ⟨A, B, C, ⟨na, a⟩, ⟨nb, b⟩, ⟨nc, c⟩, by simp [Order.solid, Order.write, e]⟩
  · obtain ⟨A, B, C, e, a, b, c, na, nb, nc⟩ := cut 2 4 2 rfl (by omega) (by omega) (by omega)
    exact ⟨A, C, B, ⟨na, a⟩, ⟨nc, c⟩, ⟨nb, b⟩, by simp [Order.solid, Order.write, e]⟩
  · obtain ⟨A, B, C, e, a, b, c, na, nb, nc⟩ := cut 2 2 4 rfl (by omega) (by omega) (by omega)
    exact ⟨B, A, C, ⟨nb, b⟩, ⟨na, a⟩, ⟨nc, c⟩, by simp [Order.solid, Order.write, e]⟩
  · obtain ⟨A, B, C, e, a, b, c, na, nb, nc⟩ := cut 2 4 2 rfl (by omega) (by omega) (by omega)
    exact ⟨C, A, B, ⟨nc, c⟩, ⟨na, a⟩, ⟨nb, b⟩, by simp [Order.solid, Order.write, e]⟩
  · obtain ⟨A, B, C, e, a, b, c, na, nb, nc⟩ := cut 4 2 2 rfl (by omega) (by omega) (by omega)
    exact ⟨C, B, A, ⟨nc, c⟩, ⟨nb, b⟩, ⟨na, a⟩, by simp [Order.solid, Order.write, e]⟩
  · obtain ⟨A, B, C, e, a, b, c, na, nb, nc⟩ := cut 4 2 2 rfl (by omega) (by omega) (by omega)
    exact ⟨B, C, A, ⟨nb, b⟩, ⟨nc, c⟩, ⟨na, a⟩, by simp [Order.solid, Order.write, e]⟩

/-- **C15** Without a DateOrder, eight digits are taken in the first of the orders MDY, DMY, YMD, YDM, MYD,
DYM in which they are a date from year 1000 on. -/
theorem C15_no_order (cfg : Cfg) (hc : cfg.dateOrder = []) (nowYear : Int) (ds : List Char) (hn : IsNumeral ds)
    (h8 : ds.length = 8) (earlier later : List Order) (o : Order) (ho : guessOrders = earlier ++ o :: later)
    (hnot : ∀ o' ∈ earlier, ∀ y m d, ¬ EightAs o' ds y m d) (y m d : Int) (h : EightAs o ds y m d) :
    ∃ r, nospaceParse cfg nowYear ds = .ok r ∧ Shows r.time y m d 0 0 0 0 ∧ r.time.loc = Loc.utc ∧ r.period = .day := by
  have step : ∀ (os : List Order) (rest : List (List Char)), (∀ o' ∈ os, ∀ y m d, ¬ EightAs o' ds y m d) →
      findBestMatchingDate ds (os.map Order.layout ++ rest) = findBestMatchingDate ds rest := by
    intro os
    induction os with
    | nil => intro rest _; rfl
    | cons o' os ih =>
      intro rest hno
      rw [List.map_cons, List.cons_append, findBestMatchingDate]
      obtain ⟨D, M, Y, hD, hM, hY, e⟩ := eight_cut o' hn h8
      have P := parse_eight o' hD hM hY
      rw [← e] at P
      rw [P]
      split
      · rename_i t ht
        split at ht
        · rename_i hv
          cases ht
          have hsh := shows_goDate (l := Loc.utc) hv (show IsClock 0 0 0 0 by unfold IsClock; decide) (Loc.utc_isFixed.noJump _)
          have : ¬ 1000 ≤ number Y := by
            intro hk
            exact hno o' (by simp) _ _ _ ⟨D, M, Y, hD, hM, hY, e, rfl, rfl, rfl, hk, hv⟩
          rw [hsh.year, if_neg (by simp; omega)]
          exact ih rest (fun o hm => hno o (by simp [hm]))
        · cases ht
      · exact ih rest (fun o hm => hno o (by simp [hm]))
  obtain ⟨hcl, hel⟩ := clean_digits hn (Or.inl rfl)
  obtain ⟨D, M, Y, hD, hM, hY, e, rfl, rfl, rfl, hk, hv⟩ := h
  have P := parse_eight o hD hM hY
  rw [← e, if_pos hv] at P
  have hsh := shows_goDate (l := Loc.utc) hv (show IsClock 0 0 0 0 by unfold IsClock; decide) (Loc.utc_isFixed.noJump _)
  have hz : (goDate (number Y) (number M) (number D) 0 0 0 0 Loc.utc).isZero = false := by
    cases hz : Time.isZero _ with
    | false => rfl
    | true =>
      have := utc_zero_year _ rfl hz
      rw [hsh.year] at this
      omega
  have hper : getPeriodFromFormat (Order.layout o) = .day := by cases o <;> decide
  have F : findBestMatchingDate ds nsEightDigit =
      { period := .day, time := goDate (number Y) (number M) (number D) 0 0 0 0 Loc.utc } := by
    rw [eight_layouts, ho, List.map_append, step earlier _ hnot, List.map_cons, findBestMatchingDate, P]
    simp only [hz, Bool.not_false, Bool.true_and, hsh.year, decide_eq_true_eq]
    rw [if_pos (by omega), hper]
  refine ⟨{ period := .day, time := goDate (number Y) (number M) (number D) 0 0 0 0 Loc.utc }, ?_, hsh, rfl, rfl⟩
  unfold nospaceParse
  simp only [hel, Bool.not_true, Bool.false_eq_true, if_false, hcl]
  have h1 : ds.isEmpty = false := by simp [hn.1]
  have h2 : ds.all Char.isDigit = true := List.all_eq_true.mpr hn.2
  simp only [h1, Bool.false_eq_true, if_false, hc, List.isEmpty_nil, h8, h2, beq_self_eq_true, Bool.and_self, if_true, F]
  simp [DateRes.isZero, hz]

/-- The hypotheses are met: "25121999" with DMY, "12252015" and "12251999" with MDY. -/
example : YearNotRequired {} ∧ toLower "DMY".toList = Order.dmy.letters ∧ TwoDigits "25".toList ∧ TwoDigits "12".toList ∧
    FourDigits "1999".toList ∧ 1000 ≤ number "1999".toList ∧ IsDate (number "1999".toList) (number "12".toList) (number "25".toList) ∧
    Order.solid .dmy "25".toList "12".toList "1999".toList = "25121999".toList ∧
    number "2015".toList / 100 % 10 = 0 ∧ 10 ≤ number "12".toList ∧ number "1999".toList / 100 % 10 ≠ 0 ∧
    WithColon "20151112".toList "201511:12".toList := by
  refine ⟨⟨rfl, by simp⟩, by decide, ?_, ?_, ?_, by decide, by decide, by decide, by decide, by decide, by decide,
    Or.inr ⟨"201511".toList, "12".toList, by decide, by decide, by decide⟩⟩
  · unfold TwoDigits IsNumeral; decide
  · unfold TwoDigits IsNumeral; decide
  · unfold FourDigits IsNumeral; decide

/-- "25121999" without a DateOrder: not a date in MDY, one in DMY. -/
example : guessOrders = [.mdy] ++ .dmy :: [.ymd, .ydm, .myd, .dym] ∧
    (∀ y m d, ¬ EightAs .mdy "25121999".toList y m d) ∧ EightAs .dmy "25121999".toList 1999 12 25 := by
  refine ⟨rfl, ?_, "25".toList, "12".toList, "1999".toList, ?_, ?_, ?_, by decide, by decide, by decide, by decide, by decide, by decide⟩
  · rintro y m d ⟨D, M, Y, hD, hM, hY, e, rfl, rfl, rfl, _, hv⟩
    obtain ⟨m1, m2, rfl⟩ := two_chars hM
    obtain ⟨d1, d2, rfl⟩ := two_chars hD
    obtain ⟨z1, z2, z3, z4, rfl⟩ := four_chars hY
    simp [Order.solid, Order.write] at e
    obtain ⟨rfl, rfl, _⟩ := e
    exact absurd hv.2.1 (by decide)
  · unfold TwoDigits IsNumeral; decide
  · unfold TwoDigits IsNumeral; decide
  · unfold FourDigits IsNumeral; decide

end Verif.Props
