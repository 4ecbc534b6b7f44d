import Verif.Lemmas.RelTime
import Verif.Spec.RelativeTime
import Verif.Props.Relative
/-! # C16: a relative date followed by a time of day -/
set_option autoImplicit false
namespace Verif.Props
open Verif.Go Verif.Model Verif.Lemmas Verif.Spec

theorem blank_space {c : Char} (h : IsBlank c) : isSpace c = true := by
  rcases h with rfl | rfl | rfl | rfl | rfl <;> decide

theorem parseTime_blank {g s : List Char} (h : ∀ c ∈ g, IsBlank c) : parseTime (g ++ s) = parseTime s := by
  unfold parseTime trimSpace
  have : (g ++ s).dropWhile isSpace = s.dropWhile isSpace := by
    induction g with
    | nil => rfl
    | cons c g ih =>
      rw [List.cons_append, List.dropWhile_cons, blank_space (h c (by simp))]
      exact ih fun x hx => h x (by simp [hx])
  rw [this]

theorem min_finer {p : Phrase} {c : Clock} {n : Notation} {mr : Meridian} (h : n.meaning mr = some c) :
    p.period.min c.period = finer p.period c.period := by
  have hc : c.period = .second ∨ c.period = .minute ∨ c.period = .hour := by
    cases n <;> simp only [Notation.meaning] at h <;> split at h <;> simp at h <;> subst h <;> simp
  have hp : p.period ≠ .none := by unfold Phrase.period; repeat' split
                                   all_goals decide
  revert hp
  cases p.period <;> rcases hc with h | h | h <;> rw [h] <;> decide

/-- What is left for the time of day. -/
theorem relTime_text (p : Phrase) (g : List Char) (n : Notation) (mr : Meridian) (h : p.OK) (hs : p.Spaced)
    (ht : p.tail = g ++ n.text) (hg : ∀ c ∈ g, IsBlank c) (hne : g ≠ []) (hn : n.Written mr) :
    relParseTime p.text = parseTime n.text := by
  have hok : TailOK p.tail := by rw [ht]; exact tail_clock hg hne hn
  have hend : ∀ q k, Rx.leftFuel rxInAgo k q p.tail = p.tail := fun q k => left_none (inago_none hok.noIn hok.noAgo q)
  have hhead : optWord p.tail.head? = false := by
    cases hh : p.tail.head? with
    | none => rfl
    | some c => exact hok.head c hh
  have hgaps : ∀ c ∈ (p.more.map (·.1)).flatten, IsBlank c := by
    intro c hc
    simp only [List.mem_flatten, List.mem_map] at hc
    obtain ⟨_, ⟨x, hx, rfl⟩, hc⟩ := hc
    exact hs.more x hx c hc
  unfold relParseTime
  rw [phrase_delete h hok]
  have fin : ∀ b : List Char, (∀ c ∈ b, IsBlank c) → parseTime (b ++ p.tail) = parseTime n.text := by
    intro b hb
    rw [parseTime_blank hb, ht, parseTime_blank hg]
  have nw : ∀ b : List Char, (∀ c ∈ b, IsBlank c) → ∀ c ∈ b, isWordC c = false := fun b hb c hc => blank_not_word (hb c hc)
  have lastNw : ∀ (q : Option Char) (b : List Char), b ≠ [] → (∀ c ∈ b, IsBlank c) → optWord (lastOr q b) = false := by
    intro q b hb hbl
    unfold lastOr
    cases hl : b.getLast? with
    | none => simp at hl; exact absurd hl hb
    | some y => exact nw b hbl y (List.mem_of_getLast? hl)
  have hdB : ∀ (b r : List Char), b ≠ [] → (∀ c ∈ b, IsBlank c) → optWord (b ++ r).head? = false := by
    intro b r hb hbl
    cases b with
    | nil => exact absurd rfl hb
    | cons c b => exact nw _ hbl c (by simp)
  generalize (p.more.map (·.1)).flatten = B at hgaps ⊢
  rw [deleteAll_left]
  -- everything after the word "in"
  have rest : ∀ (b : List Char) (q : Option Char) (k : Nat), (∀ c ∈ b, IsBlank c) → 0 < k →
      parseTime (Rx.leftFuel rxInAgo k q (b ++ (agoText p ++ p.tail))) = parseTime n.text := by
    intro b q k hb hk
    obtain ⟨k, rfl⟩ : ∃ j, k = j + 1 := ⟨k - 1, by omega⟩
    unfold agoText
    cases ha : p.ago with
    | none =>
      simp only [List.nil_append]
      rw [left_none]
      · exact fin b hb
      · exact inago_none (Chain.filler (nw b hb) hok.noIn) (Chain.filler (nw b hb) hok.noAgo) q
    | some x =>
      obtain ⟨g', w⟩ := x
      have hag := h.ago g' w ha
      have hbl := hs.ago g' w ha
      have hbb : ∀ c ∈ b ++ g', IsBlank c := by
        intro c hc; rcases List.mem_append.mp hc with hc | hc
        · exact hb c hc
        · exact hbl c hc
      have e : b ++ (g' ++ w ++ p.tail) = (b ++ g') ++ (w ++ p.tail) := by simp
      simp only [e]
      rw [left_word (nw _ hbb) (lastNw q _ (by simp [hag.2.1]) hbb) (Or.inr hag.1) hhead, hend]
      exact fin _ hbb
  cases hl : p.lead with
  | none =>
    have e : leadText p = [] := by unfold leadText; rw [hl]
    rw [e]
    exact rest B none _ hgaps (by omega)
  | some x =>
    obtain ⟨w, g'⟩ := x
    have hld := h.lead w g' hl
    have hbl := hs.lead w g' hl
    have hw0 : w ≠ [] := by rintro rfl; simp [toLower] at hld
    have e : leadText p = w ++ g' := by unfold leadText; rw [hl]
    rw [e]
    have e2 : w ++ g' ++ (B ++ (agoText p ++ p.tail)) = [] ++ (w ++ (g' ++ (B ++ (agoText p ++ p.tail)))) := by simp
    have hlen : 0 < (w ++ (g' ++ (B ++ (agoText p ++ p.tail)))).length := by
      cases w with
      | nil => exact absurd rfl hw0
      | cons c w => simp
    have hp0 : optWord (lastOr none []) = false := rfl
    rw [e2]
    generalize hk : ([] ++ (w ++ (g' ++ (B ++ (agoText p ++ p.tail))))).length = k
    have hk0 : 0 < k := by rw [← hk]; simpa using hlen
    rw [left_word (pre := []) (a := w) (by simp) hp0 (Or.inl hld.1) (hdB _ _ hld.2.1 hbl), List.nil_append,
      ← List.append_assoc g']
    refine rest (g' ++ B) _ k ?_ hk0
    intro c hc
    rcases List.mem_append.mp hc with hc | hc
    · exact hbl c hc
    · exact hgaps c hc

/-- **C16, with a time of day.** A relative date with whole amounts, written with white space, followed by a time
of day: the day reached, at that time of day, in the same time zone; the period is the finer of the two. -/
theorem C16_with_time (popTz : List Char → List Char × Option Tz) (big : Int) (cfg : Cfg) (sysNow : Time)
    (tz : Option Tz) (p : Phrase) (g : List Char) (n : Notation) (mr : Meridian) (c : Clock)
    (h : p.OK) (hs : p.Spaced) (ht : p.tail = g ++ n.text) (hg : ∀ c ∈ g, IsBlank c) (hne : g ≠ [])
    (hn : n.Written mr) (hm : n.meaning mr = some c) (hw : p.Whole) (hr : p.InRange)
    (hpop : popTz p.text = (p.text, tz)) (hz : (p.moment cfg (nowIn cfg sysNow tz)).isZero = false) :
    relativeParse popTz big cfg sysNow p.text =
      { period := if cfg.timeAsPeriod then finer p.period c.period else .day
        time := atClock (p.moment cfg (nowIn cfg sysNow tz)) c } := by
  have hok : TailOK p.tail := by rw [ht]; exact tail_clock hg hne hn
  unfold relativeParse
  rw [phrase_braces h hok, hpop]
  unfold relParseAfterTz
  rw [relTime_text p g n mr h hs ht hg hne hn]
  have hclock := C37_time_of_day n mr hn
  rw [hm] at hclock
  have hnow : relNow cfg sysNow tz = nowIn cfg sysNow tz := by
    unfold relNow nowIn
    cases tz with
    | some z => rfl
    | none => cases cfg.defaultTz <;> rfl
  simp only [hnow]
  rw [relParseDate_phrase big cfg _ p h hok hw hr]
  unfold clockOf at hclock
  cases hp : parseTime n.text with
  | none => rw [hp] at hclock; simp at hclock
  | some x =>
    obtain ⟨t, tp⟩ := x
    rw [hp] at hclock
    simp only [Option.map_some, Option.some.injEq] at hclock
    have hper : c.period = tp := by rw [← hclock]
    have hti : (p.period.min tp).isTime = true := by
      have hc : tp = .second ∨ tp = .minute ∨ tp = .hour := by
        rw [← hper]
        cases n <;> simp only [Notation.meaning] at hm <;> split at hm <;> simp at hm <;> subst hm <;> simp
      have hp : p.period ≠ .none := by unfold Phrase.period; repeat' split
                                       all_goals decide
      revert hp
      cases p.period <;> rcases hc with h | h | h <;> rw [h] <;> decide
    simp only [hz, Bool.false_eq_true, if_false, hti, Bool.and_true]
    congr 1
    · rw [← hper, min_finer hm]
      cases cfg.timeAsPeriod <;> rfl
    · unfold atClock
      rw [← hclock]

/-- The hypotheses are met by e.g. `In 2 month 3 day 10:30 PM` and `1 week ago 7:05`. -/
example :
    let p : Phrase := {
      lead := some ("In".toList, " ".toList),
      first := { whole := "2".toList, gap := " ".toList, unit := .month },
      more := [(" ".toList, { whole := "3".toList, gap := " ".toList, unit := .day })],
      tail := " ".toList ++ (Notation.hmMer "10".toList "30".toList "PM".toList).text }
    let q : Phrase := {
      first := { whole := "1".toList, gap := " ".toList, unit := .week },
      ago := some (" ".toList, "ago".toList), tail := " ".toList ++ (Notation.hm "7".toList "05".toList).text }
    p.text = "In 2 month 3 day 10:30 PM".toList ∧ q.text = "1 week ago 7:05".toList ∧
    (p.OK ∧ p.Spaced ∧ p.Whole ∧ p.InRange) ∧ (q.OK ∧ q.Spaced ∧ q.Whole ∧ q.InRange) ∧
    (Notation.hmMer "10".toList "30".toList "PM".toList).Written .pm ∧
    (Notation.hmMer "10".toList "30".toList "PM".toList).meaning .pm = some ⟨22, 30, 0, 0, .minute⟩ ∧
    (Notation.hm "7".toList "05".toList).Written .am ∧
    (Notation.hm "7".toList "05".toList).meaning .am = some ⟨7, 5, 0, 0, .minute⟩ ∧
    (p.moment {} (goDate 2015 5 31 12 0 0 0 Loc.utc)).isZero = false ∧
    (atClock (p.moment {} (goDate 2015 5 31 12 0 0 0 Loc.utc)) ⟨22, 30, 0, 0, .minute⟩).sec = (goDate 2015 8 3 22 30 0 0 Loc.utc).sec ∧
    (atClock (q.moment {} (goDate 2015 5 31 12 0 0 0 Loc.utc)) ⟨7, 5, 0, 0, .minute⟩).sec = (goDate 2015 5 24 7 5 0 0 Loc.utc).sec := by
  refine ⟨by decide, by decide, ⟨⟨?_, ?_, ?_, ?_, by decide⟩, ⟨?_, ?_, ?_⟩, ?_, ?_⟩,
    ⟨⟨?_, ?_, ?_, ?_, by decide⟩, ⟨?_, ?_, ?_⟩, ?_, ?_⟩, by decide, by decide, by decide, by decide,
    by decide +kernel, by decide +kernel, by decide +kernel⟩
  all_goals first
    | (intro i hi
       simp only [Phrase.items, List.map_cons, List.map_nil, List.mem_cons, List.not_mem_nil, or_false] at hi
       rcases hi with rfl | rfl <;>
         exact ⟨by decide, by simp, by simp, by simp [IsBlank]⟩)
    | (intro i hi
       simp only [Phrase.items, List.map_cons, List.map_nil, List.mem_cons, List.not_mem_nil, or_false] at hi
       rcases hi with rfl
       exact ⟨by decide, by simp, by simp, by simp [IsBlank]⟩)
    | (intro w g h
       simp only [reduceCtorEq] at h
       done)
    | (intro w g h
       simp only [Option.some.injEq, Prod.mk.injEq] at h
       obtain ⟨rfl, rfl⟩ := h
       unfold Filler IsWordChar
       decide)
    | (intro w g h
       simp only [Option.some.injEq, Prod.mk.injEq] at h
       obtain ⟨rfl, rfl⟩ := h
       simp [IsBlank]
       done)
    | (intro x hx
       simp only [List.mem_singleton] at hx
       subst hx
       simp [IsBlank]
       done)
    | (intro x hx
       simp only [List.mem_singleton] at hx
       subst hx
       unfold Filler IsWordChar
       decide)
    | (unfold Phrase.Whole; decide)
    | (simp; done)
    | exact ⟨fun u => by cases u <;> decide, by decide, by decide⟩

/-- **C16, a comma loses the time.** Between amounts a comma is passed over when a date is read
(`C16_relative`), but with a time of day behind it the time is ignored: `1 day, 2 hour ago 10:30` is read as
`1 day, 2 hour ago`, while `1 day 2 hour ago 10:30` is at 10:30. -/
theorem C16_comma :
    let cfg : Cfg := { currentTime := goDate 2015 5 31 12 0 0 0 Loc.utc }
    (relativeParse (fun s => (s, none)) 0 cfg Time.zero "1 day, 2 hour ago 10:30".toList).time.sec =
      (goDate 2015 5 30 10 0 0 0 Loc.utc).sec ∧
    (relativeParse (fun s => (s, none)) 0 cfg Time.zero "1 day 2 hour ago 10:30".toList).time.sec =
      (goDate 2015 5 30 10 30 0 0 Loc.utc).sec := by
  decide +kernel

end Verif.Props
