import Verif.Model.Timestamp
import Verif.Lemmas.PartValue
import Verif.Spec.Text
/-! # C13: Unix timestamps -/
set_option autoImplicit false
namespace Verif.Props
open Verif.Go Verif.Model Verif.Lemmas Verif.Spec

/-! ## Specification -/

/-- What may follow a timestamp: nothing, or a period or ASCII white space and then anything. -/
def StampEnd (tail : List Char) : Prop :=
  tail = [] ∨ ∃ c r, tail = c :: r ∧ (c = '.' ∨ c = ' ' ∨ c = '\t' ∨ c = '\n' ∨ c = '\x0c' ∨ c = '\r')

/-- Nanoseconds since 1970-01-01 00:00:00 UTC. -/
def sinceEpoch (t : Time) : Int := t.sec * 10 ^ 9 + t.nsec

/-- Nanoseconds in the unit a timestamp of so many digits counts in. -/
inductive StampUnit : Nat → Int → Prop
  | seconds : StampUnit 10 1000000000
  | millis : StampUnit 13 1000000
  | micros : StampUnit 16 1000

/-! ## Proof -/

theorem digit_rep_run (n : Nat) : ∀ (p : Option Char) (ds tail : List Char) (c : List (Nat × List Char)),
    Digits ds → (∀ x, tail.head? = some x → x.isDigit = false) →
    (Rx.digit.rep n).run ⟨p, ds ++ tail, c⟩ =
      if n ≤ ds.length then [⟨((ds.take n).getLast?).or p, ds.drop n ++ tail, c⟩] else [] := by
  induction n with
  | zero => intro p ds tail c _ _; simp [Rx.rep, Rx.run]
  | succ n ih =>
    intro p ds tail c hd ht
    cases ds with
    | nil =>
      have : Rx.Fails Rx.digit ⟨p, tail, c⟩ := Rx.Fails.chr ht
      have := Rx.Fails.seq_left (b := Rx.digit.rep n) this
      unfold Rx.Fails at this
      simp [Rx.rep, this]
    | cons d ds =>
      have h1 : Rx.digit.run ⟨p, d :: (ds ++ tail), c⟩ = [⟨some d, ds ++ tail, c⟩] := by
        simp [Rx.digit, Rx.run, hd d (by simp)]
      simp only [Rx.rep, List.cons_append, Rx.seq_one h1]
      rw [ih _ _ _ _ (fun x hx => hd x (by simp [hx])) ht]
      simp only [List.length_cons, Nat.add_le_add_iff_right, List.take_succ_cons, List.drop_succ_cons,
        List.getLast?_cons]
      cases (ds.take n).getLast? <;> simp

/-- `(?:\.|\s|$)` -/
def rxStop : Rx := .alt (.chr (· == '.')) (.alt Rx.space .eos)

theorem stop_run (p : Option Char) (tail : List Char) (c : List (Nat × List Char)) :
    (StampEnd tail → ∃ t, rxStop.run ⟨p, tail, c⟩ = [t] ∧ t.caps = c ∧ t.rest = tail.drop 1) ∧
    (¬ StampEnd tail → rxStop.run ⟨p, tail, c⟩ = []) := by
  constructor
  · rintro (rfl | ⟨x, r, rfl, h⟩)
    · exact ⟨⟨p, [], c⟩, rfl, rfl, rfl⟩
    · refine ⟨⟨some x, r, c⟩, ?_, rfl, rfl⟩
      rcases h with rfl | rfl | rfl | rfl | rfl | rfl <;> rfl
  · intro h
    cases tail with
    | nil => exact absurd (Or.inl rfl) h
    | cons x r =>
      have hx : ¬ (x = '.' ∨ x = ' ' ∨ x = '\t' ∨ x = '\n' ∨ x = '\x0c' ∨ x = '\r') :=
        fun hh => h (Or.inr ⟨x, r, rfl, hh⟩)
      simp only [not_or] at hx
      simp [rxStop, Rx.run, Rx.space, isRxSpace, hx]

theorem stampEnd_digit {ds tail : List Char} (hd : Digits ds) (hne : ds ≠ []) : ¬ StampEnd (ds ++ tail) := by
  rintro (h | ⟨c, r, h, hc⟩)
  · simp [hne] at h
  · cases ds with
    | nil => exact hne rfl
    | cons d ds =>
      simp at h
      have := hd d (by simp)
      rw [h.1] at this
      rcases hc with rfl | rfl | rfl | rfl | rfl | rfl <;> simp [Char.isDigit] at this

/-- What the tail of the patterns captures. -/
theorem tail_run (p : Option Char) (ds tail : List Char) (c : List (Nat × List Char)) (hd : Digits ds)
    (ht : ∀ x, tail.head? = some x → x.isDigit = false) :
    (StampEnd tail ∧ ds.length = 0 → ∃ t l, rxStampTail.run ⟨p, ds ++ tail, c⟩ = t :: l ∧ t.caps = c ∧ t.rest = tail.drop 1) ∧
    (StampEnd tail ∧ ds.length = 3 → ∃ t l, rxStampTail.run ⟨p, ds ++ tail, c⟩ = t :: l ∧ t.caps = (2, ds) :: c ∧ t.rest = tail.drop 1) ∧
    (StampEnd tail ∧ ds.length = 6 → ∃ t l, rxStampTail.run ⟨p, ds ++ tail, c⟩ = t :: l ∧
      t.caps = (3, ds.drop 3) :: (2, ds.take 3) :: c ∧ t.rest = tail.drop 1) ∧
    (¬ (StampEnd tail ∧ (ds.length = 0 ∨ ds.length = 3 ∨ ds.length = 6)) → rxStampTail.run ⟨p, ds ++ tail, c⟩ = []) := by
  have hdd : ∀ k, Digits (ds.drop k) := fun k x hx => hd x (List.mem_of_mem_drop hx)
  have e : rxStampTail = .seq (.opt (.grp 2 (Rx.digit.rep 3))) (.seq (.opt (.grp 3 (Rx.digit.rep 3))) rxStop) := rfl
  have g : ∀ (k : Nat) (p : Option Char) (es : List Char) (c : List (Nat × List Char)), Digits es →
      (Rx.opt (.grp k (Rx.digit.rep 3))).run ⟨p, es ++ tail, c⟩ =
        if 3 ≤ es.length then
          [⟨((es.take 3).getLast?).or p, es.drop 3 ++ tail, (k, es.take 3) :: c⟩, ⟨p, es ++ tail, c⟩]
        else [⟨p, es ++ tail, c⟩] := by
    intro k p es c hes
    simp only [Rx.run, digit_rep_run 3 p es tail c hes ht]
    split
    · rename_i hl
      simp only [List.map_cons, List.map_nil, List.cons_append, List.nil_append]
      have : (es ++ tail).take ((es ++ tail).length - (es.drop 3 ++ tail).length) = es.take 3 := by
        have : (es ++ tail).length - (es.drop 3 ++ tail).length = 3 := by
          simp; omega
        rw [this, List.take_append_of_le_length hl]
      rw [this]
    · simp
  have stopN : ∀ (p : Option Char) (es : List Char) (c : List (Nat × List Char)), Digits es → es ≠ [] →
      rxStop.run ⟨p, es ++ tail, c⟩ = [] := fun p es c h h' => (stop_run p _ c).2 (stampEnd_digit h h')
  have i1 : ∀ (p : Option Char) (es : List Char) (c : List (Nat × List Char)), Digits es → es.length ≠ 0 → es.length ≠ 3 →
      (Rx.seq (.opt (.grp 3 (Rx.digit.rep 3))) rxStop).run ⟨p, es ++ tail, c⟩ = [] := by
    intro p es c hes h0 h3
    have hne : es ≠ [] := by intro h; simp [h] at h0
    rw [Rx.run, g 3 p es c hes]
    split
    · rename_i hl
      have h4 : es.drop 3 ≠ [] := by
        intro h; have := congrArg List.length h; simp at this; omega
      simp [stopN _ _ _ hes hne, stopN _ (es.drop 3) _ (fun x hx => hes x (List.mem_of_mem_drop hx)) h4]
    · simp [stopN _ _ _ hes hne]
  have i2 : ∀ (p : Option Char) (es : List Char) (c : List (Nat × List Char)), Digits es → ¬ StampEnd tail →
      (Rx.seq (.opt (.grp 3 (Rx.digit.rep 3))) rxStop).run ⟨p, es ++ tail, c⟩ = [] := by
    intro p es c hes hn
    have hall : ∀ (p : Option Char) (es : List Char) (c : List (Nat × List Char)), Digits es → rxStop.run ⟨p, es ++ tail, c⟩ = [] := by
      intro p es c h
      by_cases hne : es = []
      · subst hne; exact (stop_run p tail c).2 hn
      · exact stopN p es c h hne
    rw [Rx.run, g 3 p es c hes]
    split
    · simp [hall _ _ _ hes, hall _ (es.drop 3) _ (fun x hx => hes x (List.mem_of_mem_drop hx))]
    · simp [hall _ _ _ hes]
  have i3 : ∀ (p : Option Char) (c : List (Nat × List Char)), StampEnd tail →
      ∃ t, (Rx.seq (.opt (.grp 3 (Rx.digit.rep 3))) rxStop).run ⟨p, tail, c⟩ = [t] ∧ t.caps = c ∧ t.rest = tail.drop 1 := by
    intro p c hs
    obtain ⟨t, h1, h2⟩ := (stop_run p tail c).1 hs
    refine ⟨t, ?_, h2⟩
    have := g 3 p [] c (by intro x hx; cases hx)
    simp at this
    rw [Rx.run, this]; simp [h1]
  have i4 : ∀ (p : Option Char) (es : List Char) (c : List (Nat × List Char)), Digits es → es.length = 3 → StampEnd tail →
      ∃ t, (Rx.seq (.opt (.grp 3 (Rx.digit.rep 3))) rxStop).run ⟨p, es ++ tail, c⟩ = [t] ∧ t.caps = (3, es) :: c ∧ t.rest = tail.drop 1 := by
    intro p es c hes hl hs
    obtain ⟨t, h1, h2⟩ := (stop_run (((es.take 3).getLast?).or p) tail ((3, es) :: c)).1 hs
    refine ⟨t, ?_, h2⟩
    have e1 : es.drop 3 = [] := List.drop_eq_nil_of_le (by omega)
    have e2 : es.take 3 = es := List.take_of_length_le (by omega)
    have hne : es ≠ [] := by intro h; simp [h] at hl
    rw [Rx.run, g 3 p es c hes, if_pos (by omega)]
    rw [e2] at h1
    simp [e1, e2, h1, stopN _ _ _ hes hne]
  have G := g 2 p ds c hd
  refine ⟨?_, ?_, ?_, ?_⟩
  · rintro ⟨hs, hl⟩
    have : ds = [] := List.eq_nil_of_length_eq_zero hl
    subst this
    obtain ⟨t, h1, h2⟩ := i3 p c hs
    refine ⟨t, [], ?_, h2⟩
    rw [e, Rx.run, G]; simp [h1]
  · rintro ⟨hs, hl⟩
    have e1 : ds.drop 3 = [] := List.drop_eq_nil_of_le (by omega)
    have e2 : ds.take 3 = ds := List.take_of_length_le (by omega)
    obtain ⟨t, h1, h2⟩ := i3 (((ds.take 3).getLast?).or p) ((2, ds) :: c) hs
    refine ⟨t, [⟨p, ds ++ tail, c⟩].flatMap (Rx.seq (.opt (.grp 3 (Rx.digit.rep 3))) rxStop).run, ?_, h2⟩
    rw [e, Rx.run, G, if_pos (by omega), List.flatMap_cons]
    rw [e1, e2]; rw [e2] at h1
    rw [List.nil_append, h1]; rfl
  · rintro ⟨hs, hl⟩
    obtain ⟨t, h1, h2⟩ := i4 (((ds.take 3).getLast?).or p) (ds.drop 3) ((2, ds.take 3) :: c) (hdd 3) (by simp [hl]) hs
    refine ⟨t, [⟨p, ds ++ tail, c⟩].flatMap (Rx.seq (.opt (.grp 3 (Rx.digit.rep 3))) rxStop).run, ?_, h2⟩
    rw [e, Rx.run, G, if_pos (by omega), List.flatMap_cons, h1]; rfl
  · intro h
    rw [e, Rx.run, G]
    by_cases hs : StampEnd tail
    · have h0 : ds.length ≠ 0 := fun hh => h ⟨hs, Or.inl hh⟩
      have h3 : ds.length ≠ 3 := fun hh => h ⟨hs, Or.inr (Or.inl hh)⟩
      have h6 : ds.length ≠ 6 := fun hh => h ⟨hs, Or.inr (Or.inr hh)⟩
      split
      · rename_i hl
        have := i1 (((ds.take 3).getLast?).or p) (ds.drop 3) ((2, ds.take 3) :: c) (hdd 3) (by simp; omega) (by simp; omega)
        simp [this, i1 p ds c hd h0 h3]
      · simp [i1 p ds c hd h0 h3]
    · split
      · simp [i2 _ (ds.drop 3) _ (hdd 3) hs, i2 p ds c hd hs]
      · simp [i2 p ds c hd hs]

theorem parseSmallInt_digits {s : List Char} (h : Digits s) : parseSmallInt s = natOfDigits s := by
  unfold parseSmallInt
  split
  · rename_i r
    have := h '-' (by simp)
    simp [Char.isDigit] at this
  · rfl

/-- Every string is a run of digits followed by something that does not begin with a digit. -/
theorem digits_split (s : List Char) : ∃ ds tail, s = ds ++ tail ∧ Digits ds ∧ (∀ x, tail.head? = some x → x.isDigit = false) := by
  refine ⟨s.takeWhile Char.isDigit, s.dropWhile Char.isDigit, by simp, ?_, ?_⟩
  · intro c hc
    exact List.all_eq_true.mp List.all_takeWhile c hc
  · intro x hx
    have := List.head?_dropWhile_not Char.isDigit s
    rw [hx] at this
    simpa using this

theorem stampEnd_head {tail : List Char} (h : StampEnd tail) : ∀ x, tail.head? = some x → x.isDigit = false := by
  intro x hx
  rcases h with rfl | ⟨c, r, rfl, hc⟩
  · simp at hx
  · simp at hx; subst hx
    rcases hc with rfl | rfl | rfl | rfl | rfl | rfl <;> rfl

/-- The groups captured by both patterns; `pre` is the text of group 1. -/
theorem stamp_caps (first : Rx) (s pre ds tail : List Char) (p : Option Char) (hd : Digits ds)
    (ht : ∀ x, tail.head? = some x → x.isDigit = false)
    (h1 : (Rx.grp 1 first).run ⟨none, s, []⟩ = [⟨p, ds ++ tail, [(1, pre)]⟩]) :
    (∀ m, (Rx.seq .bos (.seq (.grp 1 first) rxStampTail)).findFirst s = some m →
      StampEnd tail ∧ m.after.cap 1 = pre ∧
        ((ds.length = 0 ∧ m.after.cap 2 = [] ∧ m.after.cap 3 = []) ∨
         (ds.length = 3 ∧ m.after.cap 2 = ds ∧ m.after.cap 3 = []) ∨
         (ds.length = 6 ∧ m.after.cap 2 = ds.take 3 ∧ m.after.cap 3 = ds.drop 3))) ∧
    ((Rx.seq .bos (.seq (.grp 1 first) rxStampTail)).findFirst s = none →
      ¬ (StampEnd tail ∧ (ds.length = 0 ∨ ds.length = 3 ∨ ds.length = 6))) := by
  rw [Rx.find_bos, Rx.seq_one h1]
  obtain ⟨A, B, C, D⟩ := tail_run p ds tail [(1, pre)] hd ht
  by_cases hok : StampEnd tail ∧ (ds.length = 0 ∨ ds.length = 3 ∨ ds.length = 6)
  · obtain ⟨hs, h0 | h3 | h6⟩ := hok
    · obtain ⟨t, l, e, hc, _⟩ := A ⟨hs, h0⟩
      rw [e]
      refine ⟨?_, by simp⟩
      intro m hm; simp at hm; subst hm
      exact ⟨hs, by simp [MSt.cap, hc], Or.inl ⟨h0, by simp [MSt.cap, hc], by simp [MSt.cap, hc]⟩⟩
    · obtain ⟨t, l, e, hc, _⟩ := B ⟨hs, h3⟩
      rw [e]
      refine ⟨?_, by simp⟩
      intro m hm; simp at hm; subst hm
      exact ⟨hs, by simp [MSt.cap, hc], Or.inr (Or.inl ⟨h3, by simp [MSt.cap, hc], by simp [MSt.cap, hc]⟩)⟩
    · obtain ⟨t, l, e, hc, _⟩ := C ⟨hs, h6⟩
      rw [e]
      refine ⟨?_, by simp⟩
      intro m hm; simp at hm; subst hm
      exact ⟨hs, by simp [MSt.cap, hc], Or.inr (Or.inr ⟨h6, by simp [MSt.cap, hc], by simp [MSt.cap, hc]⟩)⟩
  · rw [D hok]
    exact ⟨by simp, fun _ => hok⟩

/-- Group 1 of the pattern for non-negative timestamps. -/
theorem stamp_first (ds tail : List Char) (hd : Digits ds) (ht : ∀ x, tail.head? = some x → x.isDigit = false) :
    (10 ≤ ds.length → ∃ p, (Rx.grp 1 (Rx.digit.rep 10)).run ⟨none, ds ++ tail, []⟩ =
      [⟨p, ds.drop 10 ++ tail, [(1, ds.take 10)]⟩]) ∧
    (¬ 10 ≤ ds.length → (Rx.grp 1 (Rx.digit.rep 10)).run ⟨none, ds ++ tail, []⟩ = []) := by
  refine ⟨fun h => ⟨((ds.take 10).getLast?).or none, ?_⟩, fun h => ?_⟩
  · rw [Rx.run, digit_rep_run 10 none ds tail [] hd ht, if_pos h]
    have e : (ds ++ tail).length - (ds.drop 10 ++ tail).length = 10 := by simp; omega
    simp only [List.map_cons, List.map_nil, e, List.take_append_of_le_length h]
  · rw [Rx.run, digit_rep_run 10 none ds tail [] hd ht, if_neg h]; rfl

theorem stamp_first_neg (ds tail : List Char) (hd : Digits ds) (ht : ∀ x, tail.head? = some x → x.isDigit = false) :
    (10 ≤ ds.length → ∃ p, (Rx.grp 1 (.seq (.chr (· == '-')) (Rx.digit.rep 10))).run ⟨none, '-' :: (ds ++ tail), []⟩ =
      [⟨p, ds.drop 10 ++ tail, [(1, '-' :: ds.take 10)]⟩]) ∧
    (¬ 10 ≤ ds.length → (Rx.grp 1 (.seq (.chr (· == '-')) (Rx.digit.rep 10))).run ⟨none, '-' :: (ds ++ tail), []⟩ = []) := by
  have h0 : (Rx.chr (· == '-')).run ⟨none, '-' :: (ds ++ tail), []⟩ = [⟨some '-', ds ++ tail, []⟩] := rfl
  refine ⟨fun h => ⟨((ds.take 10).getLast?).or (some '-'), ?_⟩, fun h => ?_⟩
  · rw [Rx.run, Rx.seq_one h0, digit_rep_run 10 _ ds tail [] hd ht, if_pos h]
    have e : ('-' :: (ds ++ tail)).length - (ds.drop 10 ++ tail).length = 11 := by simp; omega
    simp only [List.map_cons, List.map_nil, e, List.take_succ_cons, List.take_append_of_le_length h]
  · rw [Rx.run, Rx.seq_one h0, digit_rep_run 10 _ ds tail [] hd ht, if_neg h]; rfl

/-- The captured numbers. -/
theorem stamp_value (ds : List Char) (hd : Digits ds) (h10 : 10 ≤ ds.length) (c2 c3 : List Char)
    (h : ((ds.drop 10).length = 0 ∧ c2 = [] ∧ c3 = []) ∨ ((ds.drop 10).length = 3 ∧ c2 = ds.drop 10 ∧ c3 = []) ∨
      ((ds.drop 10).length = 6 ∧ c2 = (ds.drop 10).take 3 ∧ c3 = (ds.drop 10).drop 3)) :
    ∃ u, StampUnit ds.length u ∧
      0 ≤ parseSmallInt c3 * 1000 + parseSmallInt c2 * 1000000 ∧
      parseSmallInt c3 * 1000 + parseSmallInt c2 * 1000000 < 1000000000 ∧
      number (ds.take 10) * 10 ^ 9 + (parseSmallInt c3 * 1000 + parseSmallInt c2 * 1000000) = number ds * u := by
  have nd : ∀ x : List Char, number x = natOfDigits x := fun _ => rfl
  have z : parseSmallInt [] = 0 := rfl
  have hsplit : natOfDigits ds = natOfDigits (ds.take 10) * 10 ^ (ds.drop 10).length + natOfDigits (ds.drop 10) := by
    rw [← natOfDigits_append, List.take_append_drop]
  have hdd : Digits (ds.drop 10) := fun x hx => hd x (List.mem_of_mem_drop hx)
  simp only [nd]
  rcases h with ⟨hl, rfl, rfl⟩ | ⟨hl, rfl, rfl⟩ | ⟨hl, rfl, rfl⟩
  · have : ds.length = 10 := by simp at hl; omega
    have e0 : ds.drop 10 = [] := List.eq_nil_of_length_eq_zero hl
    rw [hl, e0] at hsplit
    refine ⟨1000000000, this ▸ .seconds, by simp [z], by simp [z], ?_⟩
    have n0 : natOfDigits [] = 0 := rfl
    rw [z]; omega
  · have : ds.length = 13 := by simp at hl; omega
    rw [hl] at hsplit
    have hr := natOfDigits_range hdd
    rw [hl] at hr
    rw [parseSmallInt_digits hdd, z]
    refine ⟨1000000, this ▸ .millis, by omega, by omega, ?_⟩
    rw [hsplit]; omega
  · have : ds.length = 16 := by simp at hl; omega
    have ha : Digits ((ds.drop 10).take 3) := fun x hx => hdd x (List.mem_of_mem_take hx)
    have hb : Digits ((ds.drop 10).drop 3) := fun x hx => hdd x (List.mem_of_mem_drop hx)
    have ra := natOfDigits_range ha
    have rb := natOfDigits_range hb
    have la : ((ds.drop 10).take 3).length = 3 := by simp; omega
    have lb : ((ds.drop 10).drop 3).length = 3 := by simp; omega
    have h2 : natOfDigits (ds.drop 10) = natOfDigits ((ds.drop 10).take 3) * 10 ^ 3 + natOfDigits ((ds.drop 10).drop 3) := by
      have := natOfDigits_append ((ds.drop 10).take 3) ((ds.drop 10).drop 3)
      rwa [List.take_append_drop, lb] at this
    rw [hl, h2] at hsplit
    rw [la] at ra
    rw [lb] at rb
    rw [parseSmallInt_digits ha, parseSmallInt_digits hb]
    refine ⟨1000, this ▸ .micros, by omega, by omega, ?_⟩
    rw [hsplit]; omega

/-! ## Theorems -/

/-- **C13** A string of 10, 13 or 16 digits, alone or followed by a period or white space and anything,
is exactly that many seconds, milliseconds or microseconds after 1970, shown in the local zone. -/
theorem C13_exact (cfg : Cfg) (localZone : Loc) (ds tail : List Char) (u : Int)
    (hn : IsNumeral ds) (hu : StampUnit ds.length u) (ht : StampEnd tail) :
    let r := timestampParse cfg localZone (ds ++ tail) false
    sinceEpoch r.time = number ds * u ∧ r.time.WF ∧ r.time.loc = localZone ∧ r.isZero = false ∧
      r.period = (if cfg.timeAsPeriod then .second else .day) := by
  have hd : Digits ds := hn.2
  have hh := stampEnd_head ht
  have h10 : 10 ≤ ds.length := by generalize hk : ds.length = k at *; cases hu <;> omega
  have hl : (ds.drop 10).length = 0 ∨ (ds.drop 10).length = 3 ∨ (ds.drop 10).length = 6 := by
    rw [List.length_drop]; generalize hk : ds.length = k at *; cases hu <;> simp
  obtain ⟨p, h1⟩ := (stamp_first ds tail hd hh).1 h10
  have hdd : Digits (ds.drop 10) := fun x hx => hd x (List.mem_of_mem_drop hx)
  have hS := stamp_caps _ _ _ _ tail p hdd hh h1
  unfold timestampParse
  simp only [Bool.false_eq_true, if_false]
  cases hf : rxTimestamp.findFirst (ds ++ tail) with
  | none => exact absurd ⟨ht, hl⟩ (hS.2 hf)
  | some m =>
    obtain ⟨_, hc1, hc⟩ := hS.1 m hf
    obtain ⟨u', hu', v0, v1, v2⟩ := stamp_value ds hd h10 _ _ hc
    have : u' = u := by generalize ds.length = k at *; cases hu <;> cases hu' <;> rfl
    subst this
    have ht10 : Digits (ds.take 10) := fun x hx => hd x (List.mem_of_mem_take hx)
    have r0 := natOfDigits_range ht10
    have nd : number (ds.take 10) = natOfDigits (ds.take 10) := rfl
    simp only [hc1, parseSmallInt_digits ht10]
    generalize parseSmallInt (m.after.cap 3) * 1000 + parseSmallInt (m.after.cap 2) * 1000000 = ns at *
    rw [nd] at v2
    refine ⟨?_, ?_, rfl, ?_, trivial⟩
    · simp only [sinceEpoch, goUnix]; omega
    · simp only [Time.WF, goUnix]; omega
    · have hp : (if cfg.timeAsPeriod = true then Period.second else Period.day) ≠ .none := by split <;> simp
      have : (natOfDigits (ds.take 10) + ns / 1000000000 == -62135596800) = false := by
        rw [beq_eq_false_iff_ne]; omega
      simp [DateRes.isZero, Time.isZero, goUnix, this, hp]

/-- **C13** Nothing else is taken for a timestamp. -/
theorem C13_only (cfg : Cfg) (localZone : Loc) (str : List Char)
    (h : (timestampParse cfg localZone str false).isZero = false) :
    ∃ ds tail u, str = ds ++ tail ∧ IsNumeral ds ∧ StampUnit ds.length u ∧ StampEnd tail := by
  obtain ⟨ds, tail, rfl, hd, hh⟩ := digits_split str
  unfold timestampParse at h
  simp only [Bool.false_eq_true, if_false] at h
  have A := stamp_first ds tail hd hh
  by_cases h10 : 10 ≤ ds.length
  · obtain ⟨p, h1⟩ := A.1 h10
    have hdd : Digits (ds.drop 10) := fun x hx => hd x (List.mem_of_mem_drop hx)
    have hS := stamp_caps _ _ _ _ tail p hdd hh h1
    cases hf : rxTimestamp.findFirst (ds ++ tail) with
    | none => rw [hf] at h; simp [DateRes.zero, DateRes.isZero] at h
    | some m =>
      obtain ⟨hs, hc1, hc⟩ := hS.1 m hf
      obtain ⟨u, hu, _⟩ := stamp_value ds hd h10 _ _ hc
      exact ⟨ds, tail, u, rfl, ⟨by intro hh; simp [hh] at h10, hd⟩, hu, hs⟩
  · have : rxTimestamp.findFirst (ds ++ tail) = none := by
      have e : rxTimestamp = .seq .bos (.seq (.grp 1 (Rx.digit.rep 10)) rxStampTail) := rfl
      rw [e, Rx.find_bos]
      have := Rx.Fails.seq_left (b := rxStampTail) (A.2 h10)
      unfold Rx.Fails at this
      rw [this]
    rw [this] at h
    simp [DateRes.zero, DateRes.isZero] at h

/-- **C13** The negative-timestamp parser: a minus and ten digits are that many seconds before 1970;
three or six digits more are milliseconds or microseconds *after* that second. -/
theorem C13_negative (cfg : Cfg) (localZone : Loc) (ds frac tail : List Char) (u : Int)
    (hn : IsNumeral ds) (hl : ds.length = 10) (hf : ∀ c ∈ frac, c.isDigit = true)
    (hu : StampUnit (10 + frac.length) u) (ht : StampEnd tail) :
    let r := timestampParse cfg localZone ('-' :: (ds ++ frac ++ tail)) true
    sinceEpoch r.time = -(number ds * 10 ^ 9) + number frac * u ∧
      r.time.WF ∧ r.time.loc = localZone ∧ r.isZero = false ∧
      r.period = (if cfg.timeAsPeriod then .second else .day) := by
  have hds : Digits ds := hn.2
  have hfr : Digits frac := hf
  have hd : Digits (ds ++ frac) := by
    intro c hc
    rcases List.mem_append.mp hc with h | h
    · exact hds c h
    · exact hf c h
  have hh := stampEnd_head ht
  have hlen : (ds ++ frac).length = 10 + frac.length := by simp [hl]
  have h10 : 10 ≤ (ds ++ frac).length := by omega
  obtain ⟨p, h1⟩ := (stamp_first_neg (ds ++ frac) tail hd hh).1 h10
  have hdd : Digits ((ds ++ frac).drop 10) := fun x hx => hd x (List.mem_of_mem_drop hx)
  have hS := stamp_caps _ _ _ _ tail p hdd hh h1
  have e10 : (ds ++ frac).take 10 = ds := List.take_left' hl
  have l' : ((ds ++ frac).drop 10).length = 0 ∨ ((ds ++ frac).drop 10).length = 3 ∨ ((ds ++ frac).drop 10).length = 6 := by
    rw [List.length_drop, hlen]
    generalize hk : 10 + frac.length = k at *
    cases hu <;> simp
  unfold timestampParse
  simp only [if_true]
  cases hf : rxNegativeTimestamp.findFirst ('-' :: (ds ++ frac ++ tail)) with
  | none => exact absurd ⟨ht, l'⟩ (hS.2 hf)
  | some m =>
    obtain ⟨_, hc1, hc⟩ := hS.1 m hf
    obtain ⟨u', hu', v0, v1, v2⟩ := stamp_value (ds ++ frac) hd h10 _ _ hc
    have : u' = u := by rw [hlen] at hu'; generalize 10 + frac.length = k at *; cases hu <;> cases hu' <;> rfl
    subst this
    have r0 := natOfDigits_range hds
    rw [hl] at r0
    have nd : number ds = natOfDigits ds := rfl
    have z1 : parseSmallInt ('-' :: ds) = -(natOfDigits ds) := rfl
    have hsum : number (ds ++ frac) * u' = number ds * 10 ^ 9 + number frac * u' := by
      have e1 : number (ds ++ frac) = number ds * 10 ^ frac.length + number frac := natOfDigits_append ds frac
      rw [e1, Int.add_mul, Int.mul_assoc]
      congr 2
      clear v2 hu'
      generalize hk : 10 + frac.length = k at hu
      cases hu
      · rw [show frac.length = 0 by omega]; rfl
      · rw [show frac.length = 3 by omega]; rfl
      · rw [show frac.length = 6 by omega]; rfl
    rw [e10, hsum] at v2
    simp only [hc1, e10, z1]
    generalize parseSmallInt (m.after.cap 3) * 1000 + parseSmallInt (m.after.cap 2) * 1000000 = ns at *
    generalize number frac * u' = w at *
    rw [nd] at v2 ⊢
    refine ⟨?_, ?_, rfl, ?_, trivial⟩
    · simp only [sinceEpoch, goUnix]; omega
    · simp only [Time.WF, goUnix]; omega
    · have hp : (if cfg.timeAsPeriod = true then Period.second else Period.day) ≠ .none := by split <;> simp
      have : (-natOfDigits ds + ns / 1000000000 == -62135596800) = false := by
        rw [beq_eq_false_iff_ne]; omega
      simp [DateRes.isZero, Time.isZero, goUnix, this, hp]

/-- **C13** Nothing else is taken for a negative timestamp. -/
theorem C13_negative_only (cfg : Cfg) (localZone : Loc) (str : List Char)
    (h : (timestampParse cfg localZone str true).isZero = false) :
    ∃ ds tail u, str = '-' :: (ds ++ tail) ∧ IsNumeral ds ∧ StampUnit ds.length u ∧ StampEnd tail := by
  have e : rxNegativeTimestamp = .seq .bos (.seq (.grp 1 (.seq (.chr (· == '-')) (Rx.digit.rep 10))) rxStampTail) := rfl
  unfold timestampParse at h
  simp only [if_true] at h
  cases str with
  | nil => simp [e, Rx.findFirst, Rx.find, Rx.run, DateRes.zero, DateRes.isZero] at h
  | cons x str =>
    by_cases hx : x = '-'
    · subst hx
      obtain ⟨ds, tail, rfl, hd, hh⟩ := digits_split str
      have A := stamp_first_neg ds tail hd hh
      by_cases h10 : 10 ≤ ds.length
      · obtain ⟨p, h1⟩ := A.1 h10
        have hdd : Digits (ds.drop 10) := fun x hx => hd x (List.mem_of_mem_drop hx)
        have hS := stamp_caps _ _ _ _ tail p hdd hh h1
        cases hf : rxNegativeTimestamp.findFirst ('-' :: (ds ++ tail)) with
        | none => rw [hf] at h; simp [DateRes.zero, DateRes.isZero] at h
        | some m =>
          obtain ⟨hs, hc1, hc⟩ := hS.1 m hf
          obtain ⟨u, hu, _⟩ := stamp_value ds hd h10 _ _ hc
          exact ⟨ds, tail, u, rfl, ⟨by intro hh; simp [hh] at h10, hd⟩, hu, hs⟩
      · have : rxNegativeTimestamp.findFirst ('-' :: (ds ++ tail)) = none := by
          rw [e, Rx.find_bos]
          have := Rx.Fails.seq_left (b := rxStampTail) (A.2 h10)
          unfold Rx.Fails at this
          rw [this]
        rw [this] at h
        simp [DateRes.zero, DateRes.isZero] at h
    · have : rxNegativeTimestamp.findFirst (x :: str) = none := by
        rw [e, Rx.find_bos]
        simp [Rx.run, hx]
      rw [this] at h
      simp [DateRes.zero, DateRes.isZero] at h

/-- The hypotheses are met by "1570308760263" and "-1570308760 x". -/
example : IsNumeral "1570308760263".toList ∧ StampUnit "1570308760263".toList.length 1000000 ∧ StampEnd [] ∧
    IsNumeral "1570308760".toList ∧ "1570308760".toList.length = 10 ∧ StampEnd " x".toList ∧
    sinceEpoch (timestampParse {} Loc.utc "1570308760263".toList false).time = 1570308760263000000 ∧
    sinceEpoch (timestampParse {} Loc.utc "-1570308760 x".toList true).time = -1570308760000000000 := by
  refine ⟨by unfold IsNumeral; decide, .millis, Or.inl rfl, by unfold IsNumeral; decide, rfl,
    Or.inr ⟨' ', ['x'], rfl, by decide⟩, by decide +kernel, by decide +kernel⟩

/-- Finding: with milliseconds a negative timestamp is not exact, the fraction is added instead of
subtracted: "-1570308760263" should be -1570308760263 ms, it is -1570308759737 ms. -/
theorem C13_negative_millis :
    sinceEpoch (timestampParse {} Loc.utc "-1570308760263".toList true).time = -1570308759737 * 10 ^ 6 := by
  decide +kernel

end Verif.Props
