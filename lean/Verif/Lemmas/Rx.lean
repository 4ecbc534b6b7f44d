import Verif.Go.Regexp
/-! Helper lemmas: searching with regular expressions. -/
set_option autoImplicit false
namespace Verif.Lemmas
open Verif.Go

/-- A match at the position itself. -/
theorem find_here {r : Rx} {p : Option Char} {s : List Char} {t : MSt} (h : r.First ⟨p, s, []⟩ t) :
    r.find p s = some ⟨[], s.take (s.length - t.rest.length), t⟩ := by
  obtain ⟨l, h⟩ := h
  cases s with
  | nil =>
    have := Rx.run_suffix r ⟨p, [], []⟩ t (by rw [h]; simp)
    unfold Rx.find; rw [h]; simp
  | cons c cs => unfold Rx.find; rw [h]

/-- The character before the position after `pre`. -/
def lastOr (p : Option Char) (pre : List Char) : Option Char := pre.getLast?.or p

theorem lastOr_nil (p : Option Char) : lastOr p [] = p := rfl
theorem lastOr_cons (p : Option Char) (c : Char) (r : List Char) : lastOr p (c :: r) = lastOr (some c) r := by
  unfold lastOr
  cases r with
  | nil => simp
  | cons d r =>
    rw [List.getLast?_cons]
    cases h : (d :: r).getLast? with
    | none => simp at h
    | some x => simp

/-- Positions where there is no match are skipped. -/
theorem find_skip {r : Rx} (pre s : List Char) : ∀ (p : Option Char),
    (∀ a b, pre = a ++ b → b ≠ [] → r.Fails ⟨lastOr p a, b ++ s, []⟩) →
    r.find p (pre ++ s) = (r.find (lastOr p pre) s).map fun m => { m with before := pre ++ m.before } := by
  induction pre with
  | nil => intro p _; simp [lastOr_nil]
  | cons c pre ih =>
    intro p h
    have h0 : r.run ⟨p, c :: (pre ++ s), []⟩ = [] := h [] (c :: pre) rfl (by simp)
    rw [List.cons_append, Rx.find, h0, ih (some c)]
    · rw [lastOr_cons]
      cases r.find (lastOr (some c) pre) s <;> simp
    · intro a b e hb
      have := h (c :: a) b (by simp [e]) hb
      rwa [lastOr_cons] at this

/-- No match anywhere. -/
theorem find_none {r : Rx} (s : List Char) (p : Option Char)
    (h : ∀ a b, s = a ++ b → r.Fails ⟨lastOr p a, b, []⟩) : r.find p s = none := by
  have := find_skip (r := r) s [] p (fun a b e _ => by have := h a b e; simpa using this)
  rw [List.append_nil] at this
  rw [this]
  have h0 : r.run ⟨lastOr p s, [], []⟩ = [] := h s [] (by simp)
  simp [Rx.find, h0]

/-- Greedy repetition of one character class takes the whole run first. -/
theorem starRun_chr (q : Char → Bool) : ∀ (ds : List Char) (n : Nat) (p : Option Char) (rest : List Char)
    (c : List (Nat × List Char)), ds.length ≤ n → (∀ x ∈ ds, q x = true) → (∀ x, rest.head? = some x → q x = false) →
    ∃ l, starRun (Rx.chr q).run n ⟨p, ds ++ rest, c⟩ = ⟨lastOr p ds, rest, c⟩ :: l := by
  intro ds
  induction ds with
  | nil =>
    intro n p rest c _ _ hr
    cases n with
    | zero => exact ⟨[], rfl⟩
    | succ n =>
      have : (Rx.chr q).run ⟨p, rest, c⟩ = [] := Rx.Fails.chr hr
      exact ⟨[], by simp [starRun, this, lastOr_nil]⟩
  | cons d ds ih =>
    intro n p rest c hn hd hr
    cases n with
    | zero => simp at hn
    | succ n =>
      have h1 : (Rx.chr q).run ⟨p, d :: (ds ++ rest), c⟩ = [⟨some d, ds ++ rest, c⟩] := by
        simp [Rx.run, hd d (by simp)]
      obtain ⟨l, hl⟩ := ih n (some d) rest c (by simpa using hn) (fun x hx => hd x (by simp [hx])) hr
      refine ⟨l ++ [⟨p, d :: (ds ++ rest), c⟩], ?_⟩
      simp [starRun, h1, hl, lastOr_cons]

theorem First.star_chr {q : Char → Bool} {ds rest : List Char} {p : Option Char} {c : List (Nat × List Char)}
    (hd : ∀ x ∈ ds, q x = true) (hr : ∀ x, rest.head? = some x → q x = false) :
    (Rx.star (.chr q)).First ⟨p, ds ++ rest, c⟩ ⟨lastOr p ds, rest, c⟩ := by
  obtain ⟨l, hl⟩ := starRun_chr q ds (ds ++ rest).length p rest c (by simp) hd hr
  exact ⟨l, hl⟩

theorem First.plus_chr {q : Char → Bool} {ds rest : List Char} {p : Option Char} {c : List (Nat × List Char)}
    (hne : ds ≠ []) (hd : ∀ x ∈ ds, q x = true) (hr : ∀ x, rest.head? = some x → q x = false) :
    (Rx.plus (.chr q)).First ⟨p, ds ++ rest, c⟩ ⟨lastOr p ds, rest, c⟩ := by
  cases ds with
  | nil => exact absurd rfl hne
  | cons d ds =>
    unfold Rx.plus
    rw [lastOr_cons]
    exact Rx.First.seq (Rx.First.chr (hd d (by simp)))
      (First.star_chr (fun x hx => hd x (by simp [hx])) hr)

/-- Text left over when matches are deleted comes from the text. -/
theorem find_split {r : Rx} : ∀ (s : List Char) (p : Option Char) (m : RxMatch), r.find p s = some m →
    s = m.before ++ m.text ++ m.after.rest := by
  intro s
  induction s with
  | nil =>
    intro p m h
    unfold Rx.find at h
    split at h
    · rename_i t l e
      injection h with h; subst h
      obtain ⟨w, hw⟩ := Rx.run_suffix r ⟨p, [], []⟩ t (by rw [e]; simp)
      simp at hw; simp [hw]
    · simp at h
  | cons c cs ih =>
    intro p m h
    unfold Rx.find at h
    split at h
    · rename_i t l e
      injection h with h; subst h
      obtain ⟨w, hw⟩ := Rx.run_suffix r ⟨p, c :: cs, []⟩ t (by rw [e]; simp)
      dsimp only at hw ⊢
      rw [List.nil_append]
      have hl : (c :: cs).length - t.rest.length = w.length := by rw [hw]; simp
      rw [hl, hw]; simp
    · rename_i e
      cases hf : r.find (some c) cs with
      | none => simp [hf] at h
      | some m' =>
        simp [hf] at h; subst h
        have := ih _ _ hf
        simp only [List.cons_append]
        rw [← this]

theorem findAllFuel_mem {r : Rx} : ∀ (n : Nat) (p : Option Char) (s : List Char) (x : Char),
    x ∈ ((r.findAllFuel n p s).1.map (·.before)).flatten ++ (r.findAllFuel n p s).2 → x ∈ s := by
  intro n
  induction n with
  | zero => intro p s x h; simpa [Rx.findAllFuel] using h
  | succ n ih =>
    intro p s x h
    unfold Rx.findAllFuel at h
    split at h
    · simpa using h
    · rename_i m hm
      have e := find_split s p m hm
      split at h
      · simpa using h
      · simp only [List.map_cons, List.flatten_cons, List.append_assoc, List.mem_append] at h
        rw [e]
        rcases h with h | h
        · simp [h]
        · have := ih m.after.prev m.after.rest x (by simpa using h)
          simp [this]

theorem mem_deleteAll {r : Rx} {s : List Char} {x : Char} (h : x ∈ r.deleteAll s) : x ∈ s :=
  findAllFuel_mem _ _ _ _ h

/-- One step of `FindAll`. -/
theorem findAllFuel_step {r : Rx} {n : Nat} {p : Option Char} {s : List Char} {m : RxMatch}
    (h : r.find p s = some m) (hne : m.text ≠ []) :
    r.findAllFuel (n + 1) p s =
      (m :: (r.findAllFuel n m.after.prev m.after.rest).1, (r.findAllFuel n m.after.prev m.after.rest).2) := by
  rw [Rx.findAllFuel, h]
  have : m.text.isEmpty = false := by simpa using hne
  simp [this]

theorem findAllFuel_none {r : Rx} {n : Nat} {p : Option Char} {s : List Char} (h : r.find p s = none) :
    r.findAllFuel n p s = ([], s) := by
  cases n with
  | zero => rfl
  | succ n => rw [Rx.findAllFuel, h]

end Verif.Lemmas
