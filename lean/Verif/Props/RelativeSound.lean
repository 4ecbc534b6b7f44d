import Verif.Lemmas.RelSound
import Verif.Props.Relative
/-! # C61: what a relative date is made of, in any text -/
set_option autoImplicit false
namespace Verif.Props
open Verif.Go Verif.Model Verif.Lemmas Verif.Spec

theorem relNow_nowIn (cfg : Cfg) (sysNow : Time) (tz : Option Tz) : relNow cfg sysNow tz = nowIn cfg sysNow tz := by
  unfold relNow nowIn
  cases tz with
  | some z => rfl
  | none => cases cfg.defaultTz <;> rfl

/-- **C61** Every text has its amounts with units, and only one way to find them from left to right. -/
theorem C61_amounts (s : List Char) (hp : Plain s) : ∃ segs tail, Mentions s segs tail ∧
    ∀ segs' tail', Mentions s segs' tail' → segs'.map (fun x => (x.1, x.2.amount, x.2.unit)) = segs.map (fun x => (x.1, x.2.amount, x.2.unit)) ∧ tail' = tail := by
  obtain ⟨segs, tail, hm⟩ := mentions_exist s
  refine ⟨segs, tail, hm, fun segs' tail' hm' => ?_⟩
  have e1 := mentions_find hm hp (s.length + 1) none (by omega)
  have e2 := mentions_find hm' hp (s.length + 1) none (by omega)
  have e := e2.1.symm.trans e1.1
  refine ⟨?_, e2.2.symm.trans e1.2⟩
  clear e1 e2 hm hm'
  induction segs' generalizing segs with
  | nil => cases segs with
    | nil => rfl
    | cons y l => simp at e
  | cons x k ih => cases segs with
    | nil => simp at e
    | cons y l =>
      simp only [List.map_cons, List.cons.injEq, Prod.mk.injEq] at e ⊢
      exact ⟨⟨e.1.1, e.1.2.1, (name_inj _ _).mp e.1.2.2⟩, ih l e.2⟩

/-- **C61** No amount with a unit, or a word that begins as none of a relative date does: no date. -/
theorem C61_refuses (popTz : List Char → List Char × Option Tz) (big : Int) (cfg : Cfg) (sysNow : Time) (str s : List Char) (tz : Option Tz)
    (hpop : popTz (stripBraces str) = (s, tz)) (hp : Plain s) (segs : List (List Char × Item)) (tail : List Char) (hm : Mentions s segs tail)
    (h : segs = [] ∨ ∃ w, IsWordOf (sanitizeSpaces s) w ∧ ¬ RelWord w) :
    relativeParse popTz big cfg sysNow str = { period := .none, time := Time.zero } := by
  unfold relativeParse
  rw [hpop]
  unfold relParseAfterTz
  simp only [relParseDate_refuses big cfg _ hm hp h]

/-- **C61** Otherwise, if the amounts are whole and no digit stands outside them: the current time, in the zone that applies, moved by
exactly the amounts in the text - for every unit the one given last - into the direction its words say. -/
theorem C61_exact (popTz : List Char → List Char × Option Tz) (big : Int) (cfg : Cfg) (sysNow : Time) (str s : List Char) (tz : Option Tz)
    (hpop : popTz (stripBraces str) = (s, tz)) (hp : Plain s) (segs : List (List Char × Item)) (tail : List Char) (hm : Mentions s segs tail)
    (hne : segs ≠ []) (hw : ∀ w, IsWordOf (sanitizeSpaces s) w → RelWord w) (hr : WholeInRange (segs.map (·.2)))
    (hnd : ∀ c ∈ outside segs tail, c.isDigit = false) (sg : Int) (hd : Direction s cfg.dateSource sg) :
    relativeParse popTz big cfg sysNow str =
      { period := if cfg.timeAsPeriod || !(finest (segs.map (·.2))).isTime then finest (segs.map (·.2)) else .day
        time := shifted cfg.preserveEndOfMonth (nowIn cfg sysNow tz) sg (segs.map (·.2)) } := by
  unfold relativeParse
  rw [hpop]
  unfold relParseAfterTz
  have hnone : relParseTime s = none := by
    unfold relParseTime
    apply parseTime_nodigit
    intro c hc
    have := mem_deleteAll hc
    rw [mentions_delete hm hp] at this
    exact hnd c this
  simp only [hnone, relNow_nowIn, relParseDate_mentions big cfg _ hm hp hne hw hr hd]
  congr 1
  cases cfg.timeAsPeriod <;> cases (finest (segs.map (·.2))).isTime <;> rfl

/-- **C61** With digits outside the amounts, too, the date is that of the moved time; only a time of day may replace its clock. -/
theorem C61_date (popTz : List Char → List Char × Option Tz) (big : Int) (cfg : Cfg) (sysNow : Time) (str s : List Char) (tz : Option Tz)
    (hpop : popTz (stripBraces str) = (s, tz)) (hp : Plain s) (segs : List (List Char × Item)) (tail : List Char) (hm : Mentions s segs tail)
    (hne : segs ≠ []) (hw : ∀ w, IsWordOf (sanitizeSpaces s) w → RelWord w) (hr : WholeInRange (segs.map (·.2)))
    (sg : Int) (hd : Direction s cfg.dateSource sg) (t : Time) (ht : t = shifted cfg.preserveEndOfMonth (nowIn cfg sysNow tz) sg (segs.map (·.2))) :
    (relativeParse popTz big cfg sysNow str).time = t ∨
    ∃ h m s n, (0 ≤ h ∧ h ≤ 23) ∧ (0 ≤ m ∧ m ≤ 59) ∧ (0 ≤ s ∧ s ≤ 59) ∧ (0 ≤ n ∧ n < 1000000000) ∧
      (relativeParse popTz big cfg sysNow str).time = goDate t.year t.month t.day h m s n t.loc := by
  unfold relativeParse
  rw [hpop]
  unfold relParseAfterTz
  simp only [relNow_nowIn, relParseDate_mentions big cfg _ hm hp hne hw hr hd, ← ht]
  cases hpt : relParseTime s with
  | none => left; rfl
  | some q =>
    obtain ⟨q, qp⟩ := q
    dsimp only
    split
    · left; rfl
    · right
      have := Time.clockOK q (parseTime_wf hpt)
      unfold ClockOK at this
      exact ⟨q.hour, q.minute, q.second, q.nsec, by omega, by omega, by omega, by omega, rfl⟩

/-- An amount begins with a digit. -/
theorem begins_digit {s : List Char} {i : Item} {r : List Char} (h : BeginsWith s i r) : ∃ d, s.head? = some d ∧ d.isDigit = true := by
  obtain ⟨h1, rfl, _⟩ := h
  unfold Item.text Item.amount
  have := h1.whole
  cases hw : i.whole with
  | nil => exact absurd hw this.1
  | cons d r => exact ⟨d, rfl, this.2 d (by simp [hw])⟩

theorem mentions_next (pre : List Char) (i : Item) (rest : List Char) (segs : List (List Char × Item)) (tail : List Char)
    (hpre : ∀ c ∈ pre, c.isDigit = false) (hi : i.OK) (hr : ∀ c, rest.head? = some c → ¬ IsWordChar c) (h : Mentions rest segs tail) :
    Mentions (pre ++ (i.text ++ rest)) ((pre, i) :: segs) tail := by
  refine .next pre i rest segs tail ?_ ⟨hi, rfl, hr⟩ h
  rintro a b e hb ⟨j, r, hj⟩
  obtain ⟨d, h1, h2⟩ := begins_digit hj
  cases b with
  | nil => exact hb rfl
  | cons x b =>
    simp at h1
    rw [hpre d (by rw [e]; simp [h1])] at h2
    simp at h2

theorem mentions_done (s : List Char) (h : ∀ c ∈ s, c.isDigit = false) : Mentions s [] s := by
  refine .done s ?_
  rintro a b e ⟨j, r, hj⟩
  obtain ⟨d, h1, h2⟩ := begins_digit hj
  rw [h d (by rw [e]; cases b with | nil => simp at h1 | cons x b => simp at h1; simp [h1])] at h2
  simp at h2

/-- Settings for the cases below. -/
def relCfg : Cfg := { currentTime := goDate 2015 5 31 12 0 0 0 Loc.utc }

/-- Year, month, day and hour, and the period. -/
def relShown (r : DateRes) : List Int × Period := ([r.time.year, r.time.month, r.time.day, r.time.hour], r.period)

/-- The amounts of a text that gives days twice. -/
def twiceSegs : List (List Char × Item) :=
  [([], { whole := "1".toList, gap := " ".toList, unit := .week }), (", ".toList, { whole := "2".toList, gap := " ".toList, unit := .day }),
   (" ".toList, { whole := "3".toList, gap := [], unit := .day })]

theorem twice_mentions : Mentions "1 week, 2 day 3day ago".toList twiceSegs " ago".toList := by
  have ok : ∀ i ∈ twiceSegs.map (·.2), i.OK := by
    intro i hi
    simp only [twiceSegs, List.map_cons, List.map_nil, List.mem_cons, List.not_mem_nil, or_false] at hi
    rcases hi with rfl | rfl | rfl <;> exact ⟨by decide, by simp, by simp, by simp [IsBlank]⟩
  refine mentions_next [] { whole := "1".toList, gap := " ".toList, unit := .week } ", 2 day 3day ago".toList _ _ (by decide) (ok _ (by simp [twiceSegs])) ?_ ?_
  · intro c hc; simp at hc; subst hc; rw [← isWordC_iff]; decide
  refine mentions_next ", ".toList { whole := "2".toList, gap := " ".toList, unit := .day } " 3day ago".toList _ _ (by decide) (ok _ (by simp [twiceSegs])) ?_ ?_
  · intro c hc; simp at hc; subst hc; rw [← isWordC_iff]; decide
  refine mentions_next " ".toList { whole := "3".toList, gap := [], unit := .day } " ago".toList _ _ (by decide) (ok _ (by simp [twiceSegs])) ?_ ?_
  · intro c hc; simp at hc; subst hc; rw [← isWordC_iff]; decide
  exact mentions_done _ (by decide)

/-- The hypotheses of C61 are met by a text that gives days twice: only the second counts (a week and 3 days). -/
example : relativeParse (fun s => (s, none)) 0 relCfg Time.zero "1 week, 2 day 3day ago".toList =
    { period := .day, time := shifted false (goDate 2015 5 31 12 0 0 0 Loc.utc) (-1) (twiceSegs.map (·.2)) } ∧
    (lastAmount (twiceSegs.map (·.2)) .week, lastAmount (twiceSegs.map (·.2)) .day) = (1, 3) := by
  refine ⟨?_, by decide⟩
  have hp : Plain "1 week, 2 day 3day ago".toList := by unfold Plain; decide
  have hw : ∀ w, IsWordOf (sanitizeSpaces "1 week, 2 day 3day ago".toList) w → RelWord w :=
    (words_iff hp).mp (by decide +kernel)
  have := C61_exact (fun s => (s, none)) 0 relCfg Time.zero "1 week, 2 day 3day ago".toList "1 week, 2 day 3day ago".toList none
    (by decide +kernel) hp twiceSegs _ twice_mentions (by simp [twiceSegs]) hw
    ⟨by decide, fun u => by cases u <;> decide, by decide, by decide⟩ (by decide) (-1)
    (Or.inr ⟨by rintro ⟨_, h⟩; exact h ((ago_iff hp).mp (by decide +kernel)), rfl⟩)
  rw [this]
  rfl

/-- **C61, a finding.** Only the beginnings of words are looked at: a text with any other word in which the letters of a unit, "in",
"ago", "am" or "pm" come first is still read as a relative date - the relative parser takes an income, an Indian or a monthly thing for
one (such words only reach it in languages that know them). -/
theorem C61_beginnings : ["income 2 day", "indian monthly 2 day", "ampere 2 day"].map (fun s =>
    relShown (relativeParse (fun s => (s, none)) 0 relCfg Time.zero s.toList)) = List.replicate 3 ([2015, 5, 29, 12], .day) := by decide +kernel

/-- A word of another kind: no date. -/
example : relShown (relativeParse (fun s => (s, none)) 0 relCfg Time.zero "only 2 day".toList) = ([1, 1, 1, 0], .none) := by
  decide +kernel

end Verif.Props
