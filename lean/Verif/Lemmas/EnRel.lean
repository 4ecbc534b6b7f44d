import Verif.Lemmas.Tags
import Verif.Props.Relative
/-! Helper definitions and lemmas: English relative dates. -/
set_option autoImplicit false
namespace Verif.Lemmas
open Verif.Go Verif.Model Verif.Data Verif.Spec

/-- The phrase a form is translated to. -/
def RelForm.phrase (f : RelForm) (n : List Char) (u : RelUnit) : Phrase :=
  match f with
  | .ago => { first := { whole := n, gap := [' '], unit := u }, ago := some ([' '], "ago".toList) }
  | .within => { lead := some ("in".toList, [' ']), first := { whole := n, gap := [' '], unit := u } }
  | .later => { lead := some ("in".toList, [' ']), first := { whole := n, gap := [' '], unit := u } }

/-- The form with these unit words passes, with numbers written like `n`. -/
def relPass (f : RelForm) (words : List (List Char × RelUnit)) (n : List Char) : Bool :=
  words.all fun x => isAscii (f.write n x.1) && passes enData [['t']] (f.write n x.1) (RelForm.phrase f n x.2).text

theorem filler_nil : Filler [] := fun _ h => by cases h
theorem filler_space : Filler [' '] := by
  intro c hc
  simp only [List.mem_singleton] at hc
  subst hc
  exact ⟨by unfold IsWordChar; decide, by decide⟩

theorem phrase_ok (f : RelForm) {n : List Char} (hn : IsNumeral n) (u : RelUnit) : (RelForm.phrase f n u).OK := by
  have hi : ∀ i ∈ [({ whole := n, gap := [' '], unit := u } : Item)], i.OK := by
    intro i hi
    simp only [List.mem_singleton] at hi
    subst hi
    refine ⟨hn, ?_, ?_, ?_⟩
    · intro c f h; cases h
    · intro c f h; cases h
    · intro c hc
      simp only [List.mem_singleton] at hc
      exact Or.inl hc
  cases f <;> refine ⟨hi, ?_, ?_, ?_, by simp [RelForm.phrase, Phrase.items]⟩
  all_goals first
    | (intro x h; cases h; done)
    | (intro x y h; cases h; done)
    | (intro x y h; cases h; exact ⟨by decide, by simp, filler_space⟩)

theorem phrase_tail (f : RelForm) (n : List Char) (u : RelUnit) : Filler (RelForm.phrase f n u).tail := by cases f <;> exact filler_nil

theorem phrase_items (f : RelForm) (n : List Char) (u : RelUnit) :
    (RelForm.phrase f n u).items = [{ whole := n, gap := [' '], unit := u }] := by cases f <;> rfl

theorem phrase_whole (f : RelForm) (n : List Char) (u : RelUnit) : (RelForm.phrase f n u).Whole := by
  intro i hi
  rw [phrase_items] at hi
  simp only [List.mem_singleton] at hi
  subst hi; rfl

theorem phrase_amount (f : RelForm) (n : List Char) (u v : RelUnit) : (RelForm.phrase f n u).amount v = if u = v then number n else 0 := by
  unfold Phrase.amount
  rw [phrase_items]
  by_cases h : u = v
  · subst h; simp
  · simp [h]

theorem phrase_has (f : RelForm) (n : List Char) (u v : RelUnit) : (RelForm.phrase f n u).has v = decide (u = v) := by
  unfold Phrase.has
  rw [phrase_items]
  by_cases h : u = v
  · subst h; simp
  · simp [h]

theorem phrase_range (f : RelForm) {n : List Char} (h0 : 0 ≤ number n) (h : number n ≤ 2562047) (u : RelUnit) : (RelForm.phrase f n u).InRange := by
  refine ⟨fun v => ?_, ?_, ?_⟩ <;> rw [phrase_amount] <;> split <;> omega

theorem phrase_sign (f : RelForm) (n : List Char) (u : RelUnit) (src : DateSource) : (RelForm.phrase f n u).sign src = f.sign := by
  cases f <;> simp [RelForm.phrase, Phrase.sign, Phrase.future, RelForm.sign]

theorem phrase_period (f : RelForm) (n : List Char) (u : RelUnit) (b : Bool) :
    (if b || !(RelForm.phrase f n u).period.isTime then (RelForm.phrase f n u).period else .day) = u.period b := by
  unfold Phrase.period
  simp only [phrase_has]
  cases u <;> cases b <;> rfl

theorem later_zero (t : Time) : later t 0 = t := by unfold later; simp

/-- `time.Date` gives the time back from its own fields.  (This fails in an hour that the zone's clock shows twice.) -/
theorem moved_none (keep : Bool) (t : Time) (h : goDate t.year t.month t.day t.hour t.minute t.second t.nsec t.loc = t) :
    moved keep t 0 0 0 = t := by
  have hv := t.year_month_day_valid
  have e1 : (12 * t.year + (t.month - 1) + 12 * 0 + 0) / 12 = t.year := by omega
  have e2 : (12 * t.year + (t.month - 1) + 12 * 0 + 0) % 12 + 1 = t.month := by omega
  have e3 : min t.day (monthLen t.year t.month) = t.day := by
    rw [daysIn_eq] at hv
    omega
  unfold moved
  simp only [e1, e2, e3]
  cases keep with
  | false => simp only [Bool.false_eq_true, if_false, Int.add_zero]; exact h
  | true => simp only [if_true, h, Int.add_zero]

theorem phrase_moment (f : RelForm) (n : List Char) (u : RelUnit) (cfg : Cfg) (t : Time)
    (h : u.isClock = true → goDate t.year t.month t.day t.hour t.minute t.second t.nsec t.loc = t) :
    (RelForm.phrase f n u).moment cfg t = u.shift cfg.preserveEndOfMonth (f.sign * number n) t := by
  unfold Phrase.moment
  simp only [phrase_sign, phrase_amount]
  generalize hk : f.sign * number n = k
  have e7 : f.sign * (7 * number n) = 7 * k := by rw [← hk, ← Int.mul_assoc, Int.mul_comm f.sign 7, Int.mul_assoc]
  have e10 : f.sign * (10 * number n) = 10 * k := by rw [← hk, ← Int.mul_assoc, Int.mul_comm f.sign 10, Int.mul_assoc]
  have e60 : f.sign * (60 * number n) = 60 * k := by rw [← hk, ← Int.mul_assoc, Int.mul_comm f.sign 60, Int.mul_assoc]
  have e3600 : f.sign * (3600 * number n) = 3600 * k := by rw [← hk, ← Int.mul_assoc, Int.mul_comm f.sign 3600, Int.mul_assoc]
  cases u <;> simp [RelUnit.shift, hk, e7, e10, e60, e3600, later_zero]
  all_goals rw [moved_none _ _ (h rfl)]

theorem nowIn_base (c : PCfg) (now : Time) (h : (baseTime c now).isZero = false) : nowIn (enCfg c now) now none = zonedBase c now := by
  unfold nowIn zonedBase
  rw [enCfg_now, h, enCfg_tz]
  simp only [Bool.false_eq_true, if_false]
  cases c.defaultTz <;> rfl

end Verif.Lemmas
