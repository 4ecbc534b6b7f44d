import Verif.Lemmas.CalWords
/-! Helper lemmas: the stages of the Jalali parser on a text with a weekday and a day in words. -/
set_option autoImplicit false
namespace Verif.Lemmas
open Verif.Go Verif.Model Verif.Spec Verif.Props Verif.Data

/-! ## Times are not looked for in front of a Latin letter -/

/-- What the patterns for times have before their first letter: digits and spaces. -/
def Gap (r : Rx) : Prop := ∀ s t : MSt, t ∈ r.run s → ∃ w, s.rest = w ++ t.rest ∧ ∀ c ∈ w, c.isDigit = true ∨ isRxSpace c = true

theorem Gap.chr {p : Char → Bool} (h : ∀ c, p c = true → c.isDigit = true ∨ isRxSpace c = true) : Gap (.chr p) := by
  intro s t ht
  simp only [Rx.run] at ht
  cases hr : s.rest with
  | nil => rw [hr] at ht; simp at ht
  | cons c r =>
    rw [hr] at ht
    dsimp only at ht
    split at ht
    · rename_i hp
      rw [List.mem_singleton] at ht
      subst ht
      exact ⟨[c], rfl, by intro x hx; rw [List.mem_singleton] at hx; subst hx; exact h _ hp⟩
    · simp at ht

theorem Gap.eps : Gap .eps := by
  intro s t ht
  simp only [Rx.run, List.mem_singleton] at ht
  subst ht
  exact ⟨[], rfl, by simp⟩

theorem gap_append {w v : List Char} (hw : ∀ c ∈ w, c.isDigit = true ∨ isRxSpace c = true) (hv : ∀ c ∈ v, c.isDigit = true ∨ isRxSpace c = true) :
    ∀ c ∈ w ++ v, c.isDigit = true ∨ isRxSpace c = true := by
  intro c hc
  rcases List.mem_append.mp hc with h | h
  · exact hw c h
  · exact hv c h

theorem Gap.seq {a b : Rx} (ha : Gap a) (hb : Gap b) : Gap (.seq a b) := by
  intro s t ht
  simp only [Rx.run, List.mem_flatMap] at ht
  obtain ⟨u, hu, ht⟩ := ht
  obtain ⟨w, e, hw⟩ := ha s u hu
  obtain ⟨v, e', hv⟩ := hb u t ht
  exact ⟨w ++ v, by rw [e, e', List.append_assoc], gap_append hw hv⟩

theorem Gap.star {a : Rx} (ha : Gap a) : Gap (.star a) := by
  intro s t ht
  simp only [Rx.run] at ht
  have : ∀ (n : Nat) (s : MSt), t ∈ starRun a.run n s → ∃ w, s.rest = w ++ t.rest ∧ ∀ c ∈ w, c.isDigit = true ∨ isRxSpace c = true := by
    intro n
    induction n with
    | zero => intro s h; simp only [starRun, List.mem_singleton] at h; subst h; exact ⟨[], rfl, by simp⟩
    | succ n ih =>
      intro s h
      simp only [starRun, List.mem_append, List.mem_flatMap, List.mem_filter, List.mem_singleton] at h
      rcases h with ⟨u, ⟨hu, _⟩, h⟩ | h
      · obtain ⟨w, e, hw⟩ := ha s u hu
        obtain ⟨v, e', hv⟩ := ih u h
        exact ⟨w ++ v, by rw [e, e', List.append_assoc], gap_append hw hv⟩
      · subst h; exact ⟨[], rfl, by simp⟩
  exact this _ s ht

theorem Gap.digit : Gap .digit := Gap.chr fun _ h => Or.inl h
theorem Gap.space : Gap .space := Gap.chr fun _ h => Or.inr h
theorem Gap.spaces : Gap (.plus .space) := Gap.seq Gap.space (Gap.star Gap.space)
theorem Gap.twoDigits : Gap (.rep .digit 2) := Gap.seq Gap.digit (Gap.seq Gap.digit Gap.eps)

/-- Digits and spaces, then a letter beyond ASCII: not where a Latin letter comes first. -/
theorem gap_fails {g : Rx} (hg : Gap g) {y : Char} (hy : 128 ≤ y.toNat) (r q : Rx) {b s : List Char} {x : Char} (hb : isAscii (b ++ [x]) = true)
    (hx : x.isDigit = false) (hx' : isRxSpace x = false) (p : Option Char) : (Rx.seq g (.seq (.seq (.chr (· == y)) r) q)).Fails ⟨p, b ++ x :: s, []⟩ := by
  unfold Rx.Fails
  rw [List.eq_nil_iff_forall_not_mem]
  intro t ht
  simp only [Rx.run, List.mem_flatMap] at ht
  obtain ⟨u, hu, v, ⟨w, hw, _⟩, _⟩ := ht
  obtain ⟨k, e, hk⟩ := hg _ _ hu
  dsimp only at e
  cases hr : u.rest with
  | nil => rw [hr] at hw; simp at hw
  | cons c cs =>
    rw [hr] at hw e
    dsimp only at hw
    split at hw
    · rename_i hc
      rw [beq_iff_eq] at hc
      subst hc
      -- the first character that is neither a digit nor a space
      rw [show b ++ x :: s = (b ++ [x]) ++ s by simp] at e
      rcases List.append_eq_append_iff.mp e with ⟨l, h1, h2⟩ | ⟨l, h1, h2⟩
      · have : x ∈ k := by rw [h1]; simp
        rcases hk x this with h | h
        · rw [hx] at h; cases h
        · rw [hx'] at h; cases h
      · cases l with
        | nil =>
          rw [List.append_nil] at h1
          have : x ∈ k := by rw [← h1]; simp
          rcases hk x this with h | h
          · rw [hx] at h; cases h
          · rw [hx'] at h; cases h
        | cons z l =>
          simp only [List.cons_append, List.cons.injEq] at h2
          have : c ∈ b ++ [x] := by rw [h1, ← h2.1]; simp
          have := isAscii_mem hb c this
          omega
    · simp at hw

/-- A prefix that ends with a Latin letter. -/
structure LatinEnd (pre : List Char) : Prop where
  ascii : isAscii pre = true
  last : ∃ b x, pre = b ++ [x] ∧ x.isDigit = false ∧ isRxSpace x = false

theorem LatinEnd.suffix {pre a b : List Char} (h : LatinEnd pre) (e : pre = a ++ b) (hb : b ≠ []) : LatinEnd b := by
  obtain ⟨h1, b0, x, h2, h3, h4⟩ := h
  refine ⟨?_, ?_⟩
  · rw [e] at h1; unfold isAscii at h1 ⊢; rw [List.all_append, Bool.and_eq_true] at h1; exact h1.2
  · have hl : b.getLast? = some x := by
      have : pre.getLast? = some x := by rw [h2]; simp
      rw [e, List.getLast?_append] at this
      cases hb' : b.getLast? with
      | none => rw [List.getLast?_eq_none_iff] at hb'; exact absurd hb' hb
      | some z => rw [hb'] at this; simpa using this
    obtain ⟨b1, e1⟩ := List.getLast?_eq_some_iff.mp hl
    exact ⟨b1, x, e1, h3, h4⟩

theorem time_prefix {pre : List Char} (h : LatinEnd pre) (s : List Char) : ∃ z, replaceTime (pre ++ s) = pre ++ z ∧ replaceTime s = z := by
  refine ⟨replaceTime s, ?_, rfl⟩
  have key : ∀ (r : Rx) (f : List Char → List (Nat × List Char) → List Char), noLook false r = true →
      (∀ p b s', LatinEnd b → r.Fails ⟨p, b ++ s', []⟩) → ∀ s', subst r f (pre ++ s') = pre ++ subst r f s' := by
    intro r f hr hf s'
    exact subst_prefix hr f pre s' (fun p a b e hb => hf p b s' (h.suffix e hb)) (by simp)
  have hgap : ∀ (g : Rx) (y : Char) (r q : Rx), Gap g → 128 ≤ y.toNat → ∀ p b s', LatinEnd b → (Rx.seq g (.seq (.seq (.chr (· == y)) r) q)).Fails ⟨p, b ++ s', []⟩ := by
    intro g y r q hg hy p b s' hb
    obtain ⟨ha, b0, x, rfl, hx, hx'⟩ := hb
    rw [List.append_assoc]
    exact gap_fails hg hy r q ha hx hx' p
  have h1 : ∀ p b s', LatinEnd b → rxHourPattern.Fails ⟨p, b ++ s', []⟩ := by
    intro p b s' hb
    have : rxHourPattern = .seq (.seq (.chr (· == 'س')) (Rx.lit "اعت".toList)) (Rx.seqs [.plus .space, .rep .digit 2]) := rfl
    rw [this]
    refine Rx.Fails.seq_left (Rx.Fails.seq_left (Rx.Fails.chr ?_))
    intro c hc
    obtain ⟨ha, b0, x, rfl, _, _⟩ := hb
    have : c.toNat < 128 := by
      cases b0 with
      | nil => simp at hc; subst hc; exact isAscii_mem ha x (by simp)
      | cons d b0 => simp at hc; subst hc; exact isAscii_mem ha d (by simp)
    rw [beq_eq_false_iff_ne]
    rintro rfl
    revert this; decide
  have h2 : ∀ p b s', LatinEnd b → rxMinutePattern.Fails ⟨p, b ++ s', []⟩ := by
    intro p b s' hb
    have e : ∀ p s, rxMinutePattern.run ⟨p, s, []⟩ = (Rx.seq (.seq (.rep .digit 2) (.plus .space)) (.seq (.seq (.chr (· == 'د')) (Rx.lit "قیقه".toList)) .eps)).run ⟨p, s, []⟩ := by
      intro p s
      show (Rx.seq (.rep .digit 2) (.seq (.plus .space) (.seq (.seq (.chr (· == 'د')) (Rx.lit "قیقه".toList)) .eps))).run _ = _
      simp only [Rx.run, List.flatMap_assoc]
    unfold Rx.Fails
    rw [e]
    exact hgap _ 'د' _ _ (Gap.seq Gap.twoDigits Gap.spaces) (by decide) p b s' hb
  have h3 : ∀ p b s', LatinEnd b → rxSecondPattern.Fails ⟨p, b ++ s', []⟩ := by
    intro p b s' hb
    have e : ∀ p s, rxSecondPattern.run ⟨p, s, []⟩ = (Rx.seq (.seq (.rep .digit 2) (.plus .space)) (.seq (.seq (.chr (· == 'ث')) (Rx.lit "انیه".toList)) .eps)).run ⟨p, s, []⟩ := by
      intro p s
      show (Rx.seq (.rep .digit 2) (.seq (.plus .space) (.seq (.seq (.chr (· == 'ث')) (Rx.lit "انیه".toList)) .eps))).run _ = _
      simp only [Rx.run, List.flatMap_assoc]
    unfold Rx.Fails
    rw [e]
    exact hgap _ 'ث' _ _ (Gap.seq Gap.twoDigits Gap.spaces) (by decide) p b s' hb
  have h4 : ∀ p b s', LatinEnd b → rxColon.Fails ⟨p, b ++ s', []⟩ := by
    intro p b s' hb
    have e : rxColon = Rx.seq (.plus .space) (.seq (.seq (.chr (· == 'و')) .eps) (.seq (.plus .space) .eps)) := rfl
    rw [e]
    exact hgap _ 'و' _ _ Gap.spaces (by decide) p b s' hb
  unfold replaceTime
  rw [numbersOnly_subst rxHourPattern, key _ _ (by decide) h1, ← numbersOnly_subst rxHourPattern, numbersOnly_subst rxMinutePattern, key _ _ (by decide) h2,
    ← numbersOnly_subst rxMinutePattern, numbersOnly_subst rxSecondPattern, key _ _ (by decide) h3, ← numbersOnly_subst rxSecondPattern,
    replaceAll_subst rxColon, key _ _ (by decide) h4, ← replaceAll_subst rxColon, deleteStr_repl, replaceStr_prefix (by decide) h.ascii, ← deleteStr_repl]

/-! ## The stages -/

def monthPats : List (List Char × List Char) := jalaliMonths.flatMap fun x => x.2.1.map fun p => (p, [' '] ++ x.1 ++ [' '])
def weekdayPats : List (List Char × List Char) := jalaliWeekdays.flatMap fun x => x.2.map fun p => (p, [' '] ++ x.1 ++ [' '])
def dayPats : List (List Char × List Char) := jalaliDays.flatMap fun x => x.2.map fun p => (p, x.1)
def latinPats : List (List Char × List Char) := jalaliWeekdays.map fun x => (x.1, [' '])

theorem months_eq (s : List Char) : replaceMonths s = replaceEach monthPats s := by unfold replaceMonths monthPats; exact Eq.refl _
theorem weekdays_eq (s : List Char) : replaceWeekdays s = replaceEach weekdayPats s := by unfold replaceWeekdays weekdayPats; exact Eq.refl _
theorem days_eq (s : List Char) : replaceDays s = replaceEach dayPats (delOrd s) := by unfold replaceDays dayPats; rw [deleteAll_ord]
theorem latin_eq (s : List Char) : removeWeekdays s = replaceEach latinPats s := by unfold removeWeekdays latinPats; exact Eq.refl _
theorem latin_nil : removeWeekdays [] = [] := by decide +kernel

theorem pats_ok : (noSpaces monthPats && beyond weekdayPats && singles weekdayPats && beyond dayPats && singles dayPats && noSpaces latinPats) = true := by decide +kernel

section
attribute [local irreducible] monthPats weekdayPats dayPats latinPats replaceMonths replaceWeekdays replaceDays removeWeekdays replaceTime

theorem split_months (a b : List Char) : replaceMonths (a ++ ' ' :: b) = replaceMonths a ++ ' ' :: replaceMonths b := by
  have hp := pats_ok
  simp only [Bool.and_eq_true] at hp
  simp only [months_eq]
  exact each_noSpace hp.1.1.1.1.1 _ _
theorem split_latin (a b : List Char) : removeWeekdays (a ++ ' ' :: b) = removeWeekdays a ++ ' ' :: removeWeekdays b := by
  have hp := pats_ok
  simp only [Bool.and_eq_true] at hp
  simp only [latin_eq]
  exact each_noSpace hp.2 _ _
theorem split_weekdays (a b : List Char) : replaceWeekdays (a ++ ' ' :: ' ' :: b) = replaceWeekdays a ++ ' ' :: ' ' :: replaceWeekdays b := by
  have hp := pats_ok
  simp only [Bool.and_eq_true] at hp
  simp only [weekdays_eq]
  exact each_twoSpaces hp.1.1.1.1.2 hp.1.1.1.2 _ _
theorem prefix_weekdays {a : List Char} (h : isAscii a = true) (b : List Char) : replaceWeekdays (a ++ b) = a ++ replaceWeekdays b := by
  have hp := pats_ok
  simp only [Bool.and_eq_true] at hp
  simp only [weekdays_eq]
  exact each_prefix hp.1.1.1.1.2 h _
theorem split_days (a b : List Char) : replaceDays (a ++ ' ' :: ' ' :: b) = replaceDays a ++ ' ' :: ' ' :: replaceDays b := by
  have hp := pats_ok
  simp only [Bool.and_eq_true] at hp
  simp only [days_eq]
  rw [delOrd_split, delOrd_cons (by decide)]
  exact each_twoSpaces hp.1.1.2 hp.1.2 _ _
theorem prefix_days {a : List Char} (h : isAscii a = true) (b : List Char) : replaceDays (a ++ b) = a ++ replaceDays b := by
  have hp := pats_ok
  simp only [Bool.and_eq_true] at hp
  simp only [days_eq]
  rw [delOrd_prefix h]
  exact each_prefix hp.1.1.2 h _

/-- What a day is in the text: the words, and the digits they stand for. -/
structure DayPart (D d : List Char) : Prop where
  months : replaceMonths D = D
  weekdays : replaceWeekdays D = D
  days : replaceDays D = d
  latin : removeWeekdays d = d
  digits : d ≠ [] ∧ ∀ c ∈ d, c.isDigit = true

/-- … and a weekday: the words, and its name in Latin letters. -/
structure WeekPart (W L : List Char) : Prop where
  months : replaceMonths W = W
  reach : noReaches weekdayPats W = true
  weekdays : replaceWeekdays W = ' ' :: L ++ [' ']
  ascii : isAscii L = true
  latin : ∀ c ∈ removeWeekdays (' ' :: L ++ [' ']), c = ' '

/-- The rest: a month name comes first. -/
structure RestPart (R : List Char) (x : Char) (R' : List Char) : Prop where
  months : replaceMonths R = ' ' :: x :: R'
  letter : x.toNat < 128 ∧ x.isDigit = false ∧ isRxSpace x = false

theorem digits_ascii {d : List Char} (h : ∀ c ∈ d, c.isDigit = true) : isAscii d = true := by
  unfold isAscii
  rw [List.all_eq_true]
  intro c hc
  have := digit_ascii (h c hc)
  simpa using this

/-- Up to the times. -/
theorem stages_words {D d R : List Char} {x : Char} {R' : List Char} (hD : DayPart D d) (hR : RestPart R x R') :
    replaceWeekdays (replaceMonths (D ++ ' ' :: R)) = D ++ ' ' :: ' ' :: ([x] ++ replaceWeekdays R') ∧
    replaceDays (D ++ ' ' :: ' ' :: ([x] ++ replaceWeekdays R')) = d ++ ' ' :: ' ' :: ([x] ++ replaceDays (replaceWeekdays R')) := by
  have hx : isAscii [x] = true := by simp [isAscii, hR.letter.1]
  constructor
  · rw [split_months, hD.months, hR.months, split_weekdays, hD.weekdays, show x :: R' = [x] ++ R' from rfl, prefix_weekdays hx]
  · rw [split_days, hD.days, prefix_days hx]

theorem latin_end {pre d : List Char} {x : Char} (hp : isAscii pre = true) (hd : ∀ c ∈ d, c.isDigit = true) (h1 : x.toNat < 128) (h2 : x.isDigit = false) (h3 : isRxSpace x = false) :
    LatinEnd (pre ++ (d ++ ' ' :: ' ' :: [x])) := by
  refine ⟨?_, pre ++ (d ++ [' ', ' ']), x, by simp, h2, h3⟩
  have := digits_ascii hd
  unfold isAscii at this hp ⊢
  rw [List.all_append, List.all_append, this, hp]
  simp [h1]

theorem remove_rest {d : List Char} {x : Char} (hd : removeWeekdays d = d) (z : List Char) : removeWeekdays (d ++ ' ' :: ' ' :: ([x] ++ z)) = d ++ ' ' :: ' ' :: removeWeekdays ([x] ++ z) := by
  rw [split_latin, hd, show ' ' :: ([x] ++ z) = [] ++ ' ' :: ([x] ++ z) from rfl, split_latin, latin_nil]
  rfl

theorem stages_day {D d R : List Char} {x : Char} {R' : List Char} (hD : DayPart D d) (hR : RestPart R x R') :
    jalaliStages (D ++ ' ' :: R) = d ++ ' ' :: ' ' :: removeWeekdays ([x] ++ replaceTime (replaceDays (replaceWeekdays R'))) := by
  obtain ⟨e1, e2⟩ := stages_words hD hR
  obtain ⟨z, z1, z2⟩ := time_prefix (latin_end (pre := []) rfl hD.digits.2 hR.letter.1 hR.letter.2.1 hR.letter.2.2) (replaceDays (replaceWeekdays R'))
  unfold jalaliStages
  rw [e1, e2, z2]
  have : d ++ ' ' :: ' ' :: ([x] ++ replaceDays (replaceWeekdays R')) = [] ++ (d ++ ' ' :: ' ' :: [x]) ++ replaceDays (replaceWeekdays R') := by simp
  rw [this, z1, ← remove_rest hD.latin]
  congr 1
  simp

theorem stages_week {W L D d R : List Char} {x : Char} {R' : List Char} (hW : WeekPart W L) (hD : DayPart D d) (hR : RestPart R x R') :
    ∃ S, (∀ c ∈ S, c = ' ') ∧ jalaliStages (W ++ ' ' :: (D ++ ' ' :: R)) = S ++ jalaliStages (D ++ ' ' :: R) := by
  obtain ⟨e1, e2⟩ := stages_words hD hR
  have hpre : isAscii (' ' :: L ++ [' ', ' ']) = true := by
    have := hW.ascii
    unfold isAscii at this ⊢
    rw [List.cons_append, List.all_cons, List.all_append, this]
    decide
  have f1 : replaceWeekdays (replaceMonths (W ++ ' ' :: (D ++ ' ' :: R))) = (' ' :: L ++ [' ', ' ']) ++ (D ++ ' ' :: ' ' :: ([x] ++ replaceWeekdays R')) := by
    rw [split_months, hW.months, weekdays_eq, each_noReach hW.reach, ← weekdays_eq, ← weekdays_eq, e1, hW.weekdays]
    simp
  obtain ⟨z, z1, z2⟩ := time_prefix (latin_end hpre hD.digits.2 hR.letter.1 hR.letter.2.1 hR.letter.2.2) (replaceDays (replaceWeekdays R'))
  refine ⟨removeWeekdays (' ' :: L ++ [' ']) ++ [' '], ?_, ?_⟩
  · intro c hc
    rcases List.mem_append.mp hc with h | h
    · exact hW.latin c h
    · rw [List.mem_singleton] at h; exact h
  · rw [stages_day hD hR]
    unfold jalaliStages
    rw [f1, prefix_days hpre, e2, z2]
    have : (' ' :: L ++ [' ', ' ']) ++ (d ++ ' ' :: ' ' :: ([x] ++ replaceDays (replaceWeekdays R'))) =
      ((' ' :: L ++ [' ', ' ']) ++ (d ++ ' ' :: ' ' :: [x])) ++ replaceDays (replaceWeekdays R') := by simp
    rw [this, z1]
    have : ((' ' :: L ++ [' ', ' ']) ++ (d ++ ' ' :: ' ' :: [x])) ++ z = (' ' :: L ++ [' ']) ++ ' ' :: (d ++ ' ' :: ' ' :: ([x] ++ z)) := by simp
    rw [this, split_latin, remove_rest hD.latin]
    simp

end

end Verif.Lemmas
