import Verif.Model.Relative
import Verif.Lemmas.Rx
import Verif.Lemmas.PartValue
import Verif.Lemmas.Text
import Verif.Spec.Relative
/-! Helper lemmas: how the relative parser reads its text. -/
set_option autoImplicit false
namespace Verif.Lemmas
open Verif.Go Verif.Model Verif.Spec

theorem isWordC_iff (c : Char) : isWordC c = true ↔ IsWordChar c := by
  unfold isWordC IsWordChar; simp

theorem isRxSpace_iff (c : Char) : isRxSpace c = true ↔ IsBlank c := by
  unfold isRxSpace IsBlank; simp; constructor <;> (intro h; simpa [or_assoc] using h)

theorem blank_not_word {c : Char} (h : IsBlank c) : isWordC c = false := by
  rcases h with rfl | rfl | rfl | rfl | rfl <;> decide

theorem blank_not_digit {c : Char} (h : IsBlank c) : c.isDigit = false := by
  rcases h with rfl | rfl | rfl | rfl | rfl <;> decide

theorem digit_word {c : Char} (h : c.isDigit = true) : isWordC c = true := by
  unfold isWordC Char.isAlphanum; simp [h]

theorem digit_not_blank {c : Char} (h : c.isDigit = true) : isRxSpace c = false := by
  cases hs : isRxSpace c with
  | false => rfl
  | true => rw [blank_not_digit ((isRxSpace_iff c).mp hs)] at h; simp at h

/-- The relative pattern only matches where a digit stands. -/
theorem rel_fails {p : Option Char} {s : List Char} (h : ∀ c, s.head? = some c → c.isDigit = false) :
    rxRelativePattern.Fails ⟨p, s, []⟩ := by
  unfold rxRelativePattern
  apply Rx.Fails.seq_left
  apply Rx.Fails.grp
  unfold rxAmount
  apply Rx.Fails.seq_left
  unfold Rx.plus
  apply Rx.Fails.seq_left
  exact Rx.Fails.chr h

theorem units_run (u : RelUnit) (p : Option Char) (rest : List Char) (c : List (Nat × List Char)) :
    ∃ x, isWordC x = true ∧ u.name.getLast? = some x ∧
      rxUnits.run ⟨p, u.name ++ rest, c⟩ = [⟨some x, rest, c⟩] := by
  cases u
  · exact ⟨'e', by decide, by decide, rfl⟩
  · exact ⟨'r', by decide, by decide, rfl⟩
  · exact ⟨'h', by decide, by decide, rfl⟩
  · exact ⟨'k', by decide, by decide, rfl⟩
  · exact ⟨'y', by decide, by decide, rfl⟩
  · exact ⟨'r', by decide, by decide, rfl⟩
  · exact ⟨'e', by decide, by decide, rfl⟩
  · exact ⟨'d', by decide, by decide, rfl⟩

theorem name_head (u : RelUnit) : ∃ x r, u.name = x :: r ∧ x.isDigit = false ∧ x ≠ '.' ∧ x ≠ ',' ∧ isRxSpace x = false ∧
    (x = 'd' ∨ x = 'y' ∨ x = 'm' ∨ x = 'w' ∨ x = 'h' ∨ x = 's') := by
  cases u <;> exact ⟨_, _, rfl, by decide, by decide, by decide, by decide, by decide⟩

theorem name_word (u : RelUnit) : ∀ c ∈ u.name, isWordC c = true ∧ c.isDigit = false := by
  cases u <;> decide

/-- The text after the amount starts with white space or a unit. -/
theorem after_amount (i : Item) (h : i.OK) (rest : List Char) :
    ∃ x r, i.gap ++ (i.unit.name ++ rest) = x :: r ∧ x.isDigit = false ∧ x ≠ '.' ∧ x ≠ ',' := by
  cases hg : i.gap with
  | nil =>
    obtain ⟨x, r, e, h1, h2, h3, _⟩ := name_head i.unit
    exact ⟨x, r ++ rest, by simp [e], h1, h2, h3⟩
  | cons g gs =>
    have hb := h.gap g (by simp [hg])
    refine ⟨g, gs ++ (i.unit.name ++ rest), by simp, blank_not_digit hb, ?_, ?_⟩
    · rintro rfl; rcases hb with h | h | h | h | h <;> exact absurd h (by decide)
    · rintro rfl; rcases hb with h | h | h | h | h <;> exact absurd h (by decide)

theorem First.opt_chr {q : Char → Bool} {p : Option Char} {s : List Char} {c : List (Nat × List Char)}
    (h : ∀ x, s.head? = some x → q x = false) : (Rx.opt (.chr q)).First ⟨p, s, c⟩ ⟨p, s, c⟩ :=
  Rx.First.none (Rx.Fails.chr h)

/-- The amount of an item is matched as a whole. -/
theorem amount_first (i : Item) (h : i.OK) (p : Option Char) (rest : List Char) :
    ∃ q, rxAmount.First ⟨p, i.amount ++ (i.gap ++ (i.unit.name ++ rest)), []⟩ ⟨q, i.gap ++ (i.unit.name ++ rest), []⟩ := by
  obtain ⟨x, r, e, h1, h2, h3⟩ := after_amount i h rest
  unfold rxAmount Item.amount
  cases hf : i.frac with
  | none =>
    simp only [List.append_nil]
    refine ⟨_, Rx.First.seq (First.plus_chr h.whole.1 h.whole.2 ?_)
      (Rx.First.seq (First.opt_chr ?_) (First.star_chr (ds := []) (by simp) ?_))⟩
    · intro y hy; rw [e] at hy; simp at hy; subst hy; exact h1
    · intro y hy; rw [e] at hy; simp at hy; subst hy; simp [h2, h3]
    · intro y hy
      replace hy : (i.gap ++ (i.unit.name ++ rest)).head? = some y := hy
      rw [e] at hy; simp at hy; subst hy; exact h1
  | some cf =>
    obtain ⟨c, f⟩ := cf
    have hc := h.sep c f hf
    have hdig := h.digits c f hf
    simp only [List.append_assoc, List.cons_append]
    refine ⟨_, Rx.First.seq (First.plus_chr h.whole.1 h.whole.2 ?_)
      (Rx.First.seq (Rx.First.some (Rx.First.chr ?_)) (First.star_chr hdig ?_))⟩
    · intro y hy; simp at hy; subst hy; rcases hc with rfl | rfl <;> decide
    · rcases hc with rfl | rfl <;> decide
    · intro y hy; rw [e] at hy; simp at hy; subst hy; exact h1

theorem take_sub (a b : List Char) : (a ++ b).take ((a ++ b).length - b.length) = a := by
  simp

/-- An item is matched as a whole, with amount and unit captured. -/
theorem item_first (i : Item) (h : i.OK) (p : Option Char) (rest : List Char)
    (hrest : ∀ c, rest.head? = some c → isWordC c = false) :
    ∃ x, isWordC x = true ∧
    rxRelativePattern.First ⟨p, i.text ++ rest, []⟩ ⟨some x, rest, [(2, i.unit.name), (1, i.amount)]⟩ := by
  obtain ⟨q, hq⟩ := amount_first i h p rest
  obtain ⟨y, r, e, _, _, _, hsp, _⟩ := name_head i.unit
  have hg := Rx.First.grp (n := 1) hq
  simp only [take_sub] at hg
  have hsp' : (Rx.star Rx.space).First
      ⟨q, i.gap ++ (i.unit.name ++ rest), [(1, i.amount)]⟩ ⟨lastOr q i.gap, i.unit.name ++ rest, [(1, i.amount)]⟩ := by
    apply First.star_chr
    · intro x hx; exact (isRxSpace_iff x).mpr (h.gap x hx)
    · intro x hx; rw [e] at hx; simp at hx; subst hx; exact hsp
  obtain ⟨x, hx, _, hu⟩ := units_run i.unit (lastOr q i.gap) rest [(1, i.amount)]
  have hu' := Rx.First.grp (n := 2) (a := rxUnits) ⟨[], hu⟩
  simp only [take_sub] at hu'
  have hw : Rx.wb.First ⟨some x, rest, [(2, i.unit.name), (1, i.amount)]⟩
      ⟨some x, rest, [(2, i.unit.name), (1, i.amount)]⟩ := by
    refine ⟨[], ?_⟩
    have : optWord rest.head? = false := by
      cases hr : rest.head? with
      | none => rfl
      | some c => exact hrest c hr
    simp [Rx.run, optWord, hx] at *
    simp [this]
  refine ⟨x, hx, ?_⟩
  unfold rxRelativePattern
  have := Rx.First.seq hg (Rx.First.seq hsp' (Rx.First.seq hu' hw))
  simpa [Item.text, List.append_assoc] using this

theorem item_text_ne (i : Item) (h : i.OK) : i.text ≠ [] := by
  unfold Item.text Item.amount
  have := h.whole.1
  simp [this]

/-- Text made of pieces: something without digits, then an item. -/
def segText (segs : List (List Char × Item)) (tail : List Char) : List Char :=
  segs.flatMap (fun x => x.1 ++ x.2.text) ++ tail

theorem segText_cons (x : List Char × Item) (segs : List (List Char × Item)) (tail : List Char) :
    segText (x :: segs) tail = x.1 ++ (x.2.text ++ segText segs tail) := by
  simp [segText, List.append_assoc]

/-- Pieces as they should be; after an item no word character follows. -/
inductive SegsOK (tail : List Char) : List (List Char × Item) → Prop
  | nil : SegsOK tail []
  | cons (pre : List Char) (i : Item) (segs : List (List Char × Item)) (hpre : ∀ c ∈ pre, c.isDigit = false)
      (hi : i.OK) (hrest : ∀ c, (segText segs tail).head? = some c → isWordC c = false)
      (h : SegsOK tail segs) : SegsOK tail ((pre, i) :: segs)

theorem findAllFuel_segs (tail : List Char) (htail : ∀ p, rxRelativePattern.find p tail = none)
    {segs : List (List Char × Item)} (h : SegsOK tail segs) :
    ∀ (n : Nat) (p : Option Char), segs.length ≤ n →
      ((rxRelativePattern.findAllFuel n p (segText segs tail)).1.map
        fun m => (m.before, m.after.cap 1, m.after.cap 2)) = segs.map (fun x => (x.1, x.2.amount, x.2.unit.name)) ∧
      (rxRelativePattern.findAllFuel n p (segText segs tail)).2 = tail := by
  induction h with
  | nil =>
    intro n p _
    have : segText [] tail = tail := rfl
    rw [this, findAllFuel_none (htail p)]
    simp
  | cons pre i segs hpre hi hrest h ih =>
    intro n p hn
    cases n with
    | zero => simp at hn
    | succ n =>
      rw [segText_cons]
      obtain ⟨x, hx, hf⟩ := item_first i hi (lastOr p pre) (segText segs tail) hrest
      have hfind := find_skip (r := rxRelativePattern) pre (i.text ++ segText segs tail) p (by
        intro a b e hb
        apply rel_fails
        intro c hc
        apply hpre c
        rw [e]
        cases b with
        | nil => exact absurd rfl hb
        | cons d b => simp at hc; simp [hc])
      rw [find_here hf, take_sub] at hfind
      simp only [Option.map_some, List.append_nil] at hfind
      rw [findAllFuel_step hfind (item_text_ne i hi)]
      have := ih n (some x) (by simpa using hn)
      simp only [List.map_cons, this.1, this.2]
      exact ⟨rfl, trivial⟩

theorem segs_length_le {segs : List (List Char × Item)} {tail : List Char} (h : SegsOK tail segs) :
    segs.length ≤ (segText segs tail).length := by
  induction h with
  | nil => simp
  | cons pre i segs hpre hi hrest h ih =>
    rw [segText_cons]
    have := item_text_ne i hi
    have : 0 < i.text.length := List.length_pos_iff.mpr this
    simp; omega

theorem findAll_segs {tail : List Char} (htail : ∀ p, rxRelativePattern.find p tail = none)
    {segs : List (List Char × Item)} (h : SegsOK tail segs) :
    ((rxRelativePattern.findAll (segText segs tail)).1.map
        fun m => (m.before, m.after.cap 1, m.after.cap 2)) = segs.map (fun x => (x.1, x.2.amount, x.2.unit.name)) ∧
      (rxRelativePattern.findAll (segText segs tail)).2 = tail :=
  findAllFuel_segs tail htail h _ none (by have := segs_length_le h; omega)

theorem deleteAll_segs {tail : List Char} (htail : ∀ p, rxRelativePattern.find p tail = none)
    {segs : List (List Char × Item)} (h : SegsOK tail segs) :
    rxRelativePattern.deleteAll (segText segs tail) = (segs.map (·.1)).flatten ++ tail := by
  have := findAll_segs htail h
  unfold Rx.deleteAll
  have e : (rxRelativePattern.findAll (segText segs tail)).1.map (·.before) = segs.map (·.1) := by
    have := congrArg (List.map (fun x : List Char × List Char × List Char => x.1)) this.1
    simpa [List.map_map, Function.comp_def] using this
  simp only [e, this.2]

/-- The durations found, before decades, weeks and fractions are dealt with. -/
def foldItems (items : List Item) : FMap := items.foldl (fun m i => m.set i.unit.name (amountValue i.amount)) []

theorem fold_segs {tail : List Char} (htail : ∀ p, rxRelativePattern.find p tail = none)
    {segs : List (List Char × Item)} (h : SegsOK tail segs) :
    (rxRelativePattern.findAll (segText segs tail)).1.foldl
      (fun (m : FMap) x => m.set (x.after.cap 2) (amountValue (x.after.cap 1))) [] = foldItems (segs.map (·.2)) := by
  have e := (findAll_segs htail h).1
  have : ∀ (l : List RxMatch) (k : List (List Char × Item)) (m0 : FMap),
      l.map (fun m => (m.before, m.after.cap 1, m.after.cap 2)) = k.map (fun x => (x.1, x.2.amount, x.2.unit.name)) →
      l.foldl (fun (m : FMap) x => m.set (x.after.cap 2) (amountValue (x.after.cap 1))) m0 =
        (k.map (·.2)).foldl (fun m i => m.set i.unit.name (amountValue i.amount)) m0 := by
    intro l
    induction l with
    | nil => intro k m0 h; cases k with
      | nil => rfl
      | cons a k => simp at h
    | cons a l ih =>
      intro k m0 h
      cases k with
      | nil => simp at h
      | cons b k =>
        simp only [List.map_cons, List.cons.injEq, Prod.mk.injEq] at h
        simp only [List.foldl_cons, List.map_cons]
        rw [h.1.2.1, h.1.2.2]
        exact ih k _ h.2
  exact this _ _ _ e

end Verif.Lemmas
