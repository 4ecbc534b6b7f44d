import Verif.Lemmas.CalTime
/-! Helper lemmas: the texts of Jalali and Hijri dates with a time of day pass the stages before the parser. -/
set_option autoImplicit false
namespace Verif.Lemmas
open Verif.Go Verif.Model Verif.Spec Verif.Props Verif.Data

/-! ## Zones can be seen at letters only -/

/-- Starts with a letter. -/
def letterFirst : List Char → Bool
  | [] => false
  | d :: _ => d.isAlpha

/-- As `nameIn`, looking at letters only. -/
def nameAfter : List Char → Bool
  | [] => false
  | c :: r => (!c.isAlpha && letterFirst r && nameAt r) || nameAfter r

theorem zones_letters : (namedZones.all fun z => letterFirst (z.1.map foldC)) = true := by decide +kernel

theorem nameAt_letter {r : List Char} (h : nameAt r = true) : letterFirst r = true := by
  unfold nameAt at h
  rw [List.any_eq_true] at h
  obtain ⟨z, hz, h⟩ := h
  rw [Bool.and_eq_true] at h
  have hl := List.all_eq_true.mp zones_letters z hz
  cases e : z.1 with
  | nil => rw [e] at hl; simp [letterFirst] at hl
  | cons c w =>
    rw [e] at hl h
    cases r with
    | nil => simp at h
    | cons d r =>
      simp only [List.map_cons, List.isPrefixOf, Bool.and_eq_true, beq_iff_eq] at h
      rw [← h.1.1]
      exact hl

theorem nameAfter_eq : ∀ (s : List Char), nameAfter s = nameIn s
  | [] => rfl
  | c :: r => by
    unfold nameAfter nameIn
    rw [nameAfter_eq r]
    congr 1
    cases hn : nameAt r with
    | false => simp
    | true => rw [nameAt_letter hn]; simp

/-- A text that passes the stages before the zone unchanged. -/
def stagePass (a : List Char) : Bool :=
  isAscii a && cleanDate asciiUni a && noBraces a && (a.all fun c => !(65 ≤ c.toNat && c.toNat ≤ 90)) &&
    !rxOrdinal.matches a && !rxHourPattern.matches a && !rxMinutePattern.matches a && !rxSecondPattern.matches a && !rxColon.matches a

/-- … and has no zone. -/
def asciiPass (a : List Char) : Bool :=
  stagePass a && !nameAfter (a.map foldC) && !containsStr "utc".toList (a.map foldC) &&
    !containsStr "gmt".toList (a.map foldC) && !offsetEnd (a.map foldC)

def timeTmpls : List (List Char) := ["1:23".toList, "12:34".toList, "1:23:45".toList, "12:34:56".toList]
def timeEnds : List (List Char) := [[], " am".toList, " pm".toList]

def timesPass (place : Nat) (sep : Char) : Bool := (shapes place).all fun x => timeTmpls.all fun T => timeEnds.all fun e =>
  asciiPass (tmpl3 x.1 x.2.1 x.2.2 sep ++ ' ' :: (T ++ e))

theorem times_0_slash : timesPass 0 '/' = true := by decide +kernel
theorem times_0_dot : timesPass 0 '.' = true := by decide +kernel
theorem times_0_dash : timesPass 0 '-' = true := by decide +kernel
theorem times_1_slash : timesPass 1 '/' = true := by decide +kernel
theorem times_1_dot : timesPass 1 '.' = true := by decide +kernel
theorem times_2_slash : timesPass 2 '/' = true := by decide +kernel
theorem times_2_dot : timesPass 2 '.' = true := by decide +kernel

theorem times_pass {p : Nat × Char} (h : p ∈ seps) : timesPass p.1 p.2 = true := by
  simp only [seps, List.mem_cons, List.not_mem_nil, or_false] at h
  rcases h with rfl | rfl | rfl | rfl | rfl | rfl | rfl
  · exact times_0_slash
  · exact times_0_dot
  · exact times_0_dash
  · exact times_1_slash
  · exact times_1_dot
  · exact times_2_slash
  · exact times_2_dot

/-! ## Texts that pass -/

theorem contains_char {p : List Char} {c : Char} (hc : c ∈ p) : ∀ {s : List Char}, c ∉ s → containsStr p s = false
  | [], _ => by cases p <;> simp_all [containsStr]
  | x :: s, h => by
    simp only [List.mem_cons, not_or] at h
    unfold containsStr
    rw [contains_char hc h.2, Bool.or_false]
    cases e : p.isPrefixOf (x :: s) with
    | false => rfl
    | true =>
      have := (List.isPrefixOf_iff_prefix.mp e).subset hc
      simp only [List.mem_cons] at this
      rcases this with h1 | h1
      · exact absurd h1 h.1
      · exact absurd h1 h.2

/-- Every pattern has a character that is not in an ASCII text without capital letters. -/
def oddChar (p : List Char) : Bool := p.any fun c => decide (128 ≤ c.toNat) || (65 ≤ c.toNat && c.toNat ≤ 90)

theorem odd_absent {p s : List Char} (hp : oddChar p = true) (hs : ∀ c ∈ s, c.toNat < 128 ∧ ¬ (65 ≤ c.toNat ∧ c.toNat ≤ 90)) : containsStr p s = false := by
  unfold oddChar at hp
  rw [List.any_eq_true] at hp
  obtain ⟨c, hc, h⟩ := hp
  refine contains_char hc fun hm => ?_
  have := hs c hm
  simp only [Bool.or_eq_true, Bool.and_eq_true, decide_eq_true_eq] at h
  omega

theorem odd_patterns : ((jalaliMonths.flatMap fun x => x.2.1.map fun p => (p, [' '] ++ x.1 ++ [' '])).all (fun x => oddChar x.1) &&
    (jalaliWeekdays.flatMap fun x => x.2.map fun p => (p, [' '] ++ x.1 ++ [' '])).all (fun x => oddChar x.1) &&
    (jalaliDays.flatMap fun x => x.2.map fun p => (p, x.1)).all (fun x => oddChar x.1) &&
    (jalaliWeekdays.map fun x => (x.1, [' '])).all (fun x => oddChar x.1) && oddChar hourWord && oddChar "صباحا".toList && oddChar "مساء".toList) = true := by decide +kernel

theorem each_absent {l : List (List Char × List Char)} (hl : l.all (fun x => oddChar x.1) = true) {s : List Char}
    (hs : ∀ c ∈ s, c.toNat < 128 ∧ ¬ (65 ≤ c.toNat ∧ c.toNat ≤ 90)) : replaceEach l s = s := by
  apply replaceEach_absent
  rw [List.all_eq_true] at hl ⊢
  intro x hx
  rw [odd_absent (hl x hx) hs]
  rfl

section
variable {g : Char → Char → Prop}

/-- A text with the digits of such a template replaced. -/
theorem stage_pass {U : Uni} (hU : PersianUni U) {a t : List Char} (hp : stagePass a = true) (h : Rel2 (TagRel g) a t) :
    (jalaliStages t = t ∧ ∀ am, replaceMeridians am t = t) ∧ stripBraces (sanitizeDate U t) = t := by
  simp only [stagePass, Bool.and_eq_true, Bool.not_eq_true'] at hp
  obtain ⟨⟨⟨⟨⟨⟨⟨⟨h1, h2⟩, h3⟩, h8⟩, h9⟩, h10⟩, h11⟩, h12⟩, h13⟩ := hp
  have hcase : Rel2 CaseRel a t := h.mono fun _ _ hxy => hxy.case
  have hlow : ∀ c ∈ t, c.toNat < 128 ∧ ¬ (65 ≤ c.toNat ∧ c.toNat ≤ 90) := by
    have key : ∀ {a t : List Char}, Rel2 (TagRel g) a t → isAscii a = true → (a.all fun c => !(65 ≤ c.toNat && c.toNat ≤ 90)) = true →
        ∀ c ∈ t, c.toNat < 128 ∧ ¬ (65 ≤ c.toNat ∧ c.toNat ≤ 90) := by
      intro a t h
      induction h with
      | nil => intro _ _ c hc; cases hc
      | @cons x y _ _ hxy _ ih =>
        intro ha hb c hc
        simp only [isAscii, List.all_cons, Bool.and_eq_true, decide_eq_true_eq] at ha
        simp only [List.all_cons, Bool.and_eq_true] at hb
        rcases List.mem_cons.mp hc with rfl | hc
        · rcases hxy.same with ⟨_, h2, _⟩ | ⟨_, rfl⟩
          · have := digit_range h2; omega
          · have := hb.1
            simp only [Bool.not_eq_true', Bool.and_eq_false_iff, decide_eq_false_iff_not] at this
            exact ⟨ha.1, by omega⟩
        · exact ih ha.2 hb.2 c hc
    exact key h h1 h8
  have hm : ∀ r, digitRx r = true → r.matches t = r.matches a := fun r hr => (matches_rel (digitRx_rel (g := g) hr) (h.mono fun _ _ hxy => hxy.s)).symm
  have hodd := odd_patterns
  simp only [Bool.and_eq_true] at hodd
  obtain ⟨⟨⟨⟨⟨⟨o1, o2⟩, o3⟩, o4⟩, o5⟩, o6⟩, o7⟩ := hodd
  refine ⟨⟨?_, ?_⟩, ?_⟩
  · unfold jalaliStages
    have e1 : replaceMonths t = t := each_absent o1 hlow
    have e2 : replaceWeekdays t = t := each_absent o2 hlow
    have e3 : replaceDays t = t := by
      unfold replaceDays
      rw [deleteAll_absent (by rw [hm _ (by decide +kernel)]; exact h9)]
      exact each_absent o3 hlow
    have e4 : replaceTime t = t := by
      unfold replaceTime
      rw [numbersOnly_absent (r := rxHourPattern) (by rw [hm _ (by decide +kernel)]; exact h10),
        numbersOnly_absent (r := rxMinutePattern) (by rw [hm _ (by decide +kernel)]; exact h11),
        numbersOnly_absent (r := rxSecondPattern) (by rw [hm _ (by decide +kernel)]; exact h12)]
      have : replaceAllTmpl rxColon [.lit [':']] t = t := by
        simp [replaceAllTmpl, findAll_absent (r := rxColon) (s := t) (by rw [hm _ (by decide +kernel)]; exact h13)]
      rw [this, deleteStr_absent (odd_absent o5 hlow)]
    rw [e1, e2, e3, e4]
    exact each_absent o4 hlow
  · intro am
    unfold replaceMeridians
    apply each_absent _ hlow
    cases am
    · show (oddChar "مساء".toList && (oddChar "صباحا".toList && true)) = true
      rw [o6, o7]; rfl
    · show (oddChar "صباحا".toList && (oddChar "مساء".toList && true)) = true
      rw [o6, o7]; rfl
  · rw [sanitize_clean (by rw [← clean_rel hU.toAsciiUni hcase]; exact h2) fun c hc => (hlow c hc).1]
    exact strip_noBraces (by rw [← noBraces_rel hcase]; exact h3)

theorem ascii_pass {U : Uni} (hU : PersianUni U) {a t : List Char} (hp : asciiPass a = true) (h : Rel2 (TagRel g) a t) {tb : List TzEntry} (ht : IsTable tb) :
    (jalaliStages t = t ∧ ∀ am, replaceMeridians am t = t) ∧ stripBraces (sanitizeDate U t) = t ∧ popTzOffset tb t = (t, none) := by
  simp only [asciiPass, Bool.and_eq_true, Bool.not_eq_true'] at hp
  obtain ⟨⟨⟨⟨h1, h4⟩, h5⟩, h6⟩, h7⟩ := hp
  obtain ⟨h8, h9⟩ := stage_pass hU h1 h
  refine ⟨h8, h9, plain_pop ?_ ht⟩
  simp only [stagePass, Bool.and_eq_true] at h1
  rw [← calPlain_rel h]
  unfold calPlain mayHaveZone
  rw [h1.1.1.1.1.1.1.2, ← nameAfter_eq, h4, h5, h6, h7]
  rfl
end

/-- A word of other letters at the end is replaced. -/
theorem replace_end {w new : List Char} {x : Char} {r : List Char} (hw : w = x :: r) {P : List Char} (hx : x ∉ P) : replaceStr w new (P ++ w) = P ++ new := by
  have key : ∀ (P acc : List Char), x ∉ P → splitGo w 0 acc (P ++ w) = [acc.reverse ++ P, []] := by
    intro P
    induction P with
    | nil =>
      intro acc _
      have skip : ∀ (q : List Char) (n : Nat), q.length = n → splitGo w n [] q = [[]] := by
        intro q
        induction q with
        | nil => intro n h; subst h; simp [splitGo]
        | cons c q ih => intro n h; subst h; simp only [List.length_cons, splitGo]; exact ih _ rfl
      subst hw
      simp only [List.nil_append, splitGo]
      rw [if_pos (by simp)]
      simp [skip r r.length rfl]
    | cons c P ih =>
      intro acc h
      simp only [List.mem_cons, not_or] at h
      have hn : w.isPrefixOf (c :: (P ++ w)) = false := by
        rw [hw]
        simp [List.isPrefixOf, h.1]
      simp only [List.cons_append, splitGo, hn, Bool.false_eq_true, if_false]
      rw [ih _ h.2]
      simp
  unfold replaceStr splitStr
  rw [key P [] hx]
  simp [joinWith]

end Verif.Lemmas
