import Verif.Lemmas.Rx
import Verif.Lemmas.Related
import Verif.Model.Calendars
/-! Helper lemmas: replacing in a text with something in front of it in which no match begins. -/
set_option autoImplicit false
namespace Verif.Lemmas
open Verif.Go Verif.Model

/-- No `^`; no `\b` unless the first argument allows it. -/
def noLook (w : Bool) : Rx → Bool
  | .eps => true
  | .chr _ => true
  | .seq a b => noLook w a && noLook w b
  | .alt a b => noLook w a && noLook w b
  | .opt a => noLook w a
  | .star a => noLook w a
  | .grp _ a => noLook w a
  | .bos => false
  | .eos => true
  | .wb => w

/-- The same state but for the character before, of which at most `\b` matters. -/
structure Same (w : Bool) (s t : MSt) : Prop where
  rest : s.rest = t.rest
  caps : s.caps = t.caps
  prev : w = true → optWord s.prev = optWord t.prev

theorem same_run {w : Bool} : ∀ (r : Rx), noLook w r = true → ∀ (s t : MSt), Same w s t → Rel2 (Same w) (r.run s) (r.run t) := by
  intro r
  induction r with
  | eps => intro _ s t h; exact .single h
  | chr p =>
    intro _ s t h
    simp only [Rx.run, h.rest]
    cases t.rest with
    | nil => exact .nil
    | cons c r =>
      dsimp only
      split
      · exact .single ⟨rfl, h.caps, fun _ => rfl⟩
      · exact .nil
  | seq a b iha ihb =>
    intro hr s t h
    simp only [noLook, Bool.and_eq_true] at hr
    exact Rel2.flatMap (iha hr.1 s t h) (ihb hr.2)
  | alt a b iha ihb =>
    intro hr s t h
    simp only [noLook, Bool.and_eq_true] at hr
    exact (iha hr.1 s t h).append (ihb hr.2 s t h)
  | opt a iha => intro hr s t h; exact (iha hr s t h).append (.single h)
  | star a iha =>
    intro hr s t h
    simp only [Rx.run, h.rest]
    have : ∀ (n : Nat) (s t : MSt), Same w s t → Rel2 (Same w) (starRun a.run n s) (starRun a.run n t) := by
      intro n
      induction n with
      | zero => intro s t h; exact .single h
      | succ n ih =>
        intro s t h
        unfold starRun
        refine Rel2.append (Rel2.flatMap (Rel2.filter (iha hr s t h) ?_) ih) (.single h)
        intro x y hxy
        rw [hxy.rest, h.rest]
    exact this _ s t h
  | grp n a iha =>
    intro hr s t h
    refine Rel2.map (iha hr s t h) ?_
    intro x y hxy
    refine ⟨hxy.rest, ?_, hxy.prev⟩
    simp only [h.rest, hxy.rest, hxy.caps]
  | bos => intro hr; simp [noLook] at hr
  | eos =>
    intro _ s t h
    simp only [Rx.run, h.rest]
    split
    · exact .single h
    · exact .nil
  | wb =>
    intro hr s t h
    simp only [Rx.run, h.rest, h.prev hr]
    split
    · exact .single h
    · exact .nil

structure SameMatch (w : Bool) (m n : RxMatch) : Prop where
  before : m.before = n.before
  text : m.text = n.text
  after : Same w m.after n.after

theorem same_find {w : Bool} {r : Rx} (hr : noLook w r = true) : ∀ (s : List Char) {p q : Option Char}, (w = true → optWord p = optWord q) →
    Opt2 (SameMatch w) (r.find p s) (r.find q s) := by
  intro s
  induction s with
  | nil =>
    intro p q h
    have := same_run r hr ⟨p, [], []⟩ ⟨q, [], []⟩ ⟨rfl, rfl, h⟩
    unfold Rx.find
    revert this
    cases r.run ⟨p, [], []⟩ <;> cases r.run ⟨q, [], []⟩ <;> intro this <;> cases this
    · exact .none
    · rename_i h1 _; exact .some ⟨rfl, rfl, h1⟩
  | cons c s ih =>
    intro p q h
    have := same_run r hr ⟨p, c :: s, []⟩ ⟨q, c :: s, []⟩ ⟨rfl, rfl, h⟩
    unfold Rx.find
    revert this
    cases r.run ⟨p, c :: s, []⟩ <;> cases r.run ⟨q, c :: s, []⟩ <;> intro this <;> cases this
    · dsimp only
      refine (ih (p := some c) (q := some c) (fun _ => rfl)).map ?_
      intro m n hmn
      exact ⟨by rw [hmn.before], hmn.text, hmn.after⟩
    · rename_i u v hu _
      refine .some ⟨rfl, ?_, hu⟩
      rw [hu.rest]

/-- Replacing every match. -/
def substFuel (r : Rx) (f : List Char → List (Nat × List Char) → List Char) (n : Nat) (p : Option Char) (s : List Char) : List Char :=
  ((r.findAllFuel n p s).1.flatMap fun m => m.before ++ f m.text m.after.caps) ++ (r.findAllFuel n p s).2
def subst (r : Rx) (f : List Char → List (Nat × List Char) → List Char) (s : List Char) : List Char := substFuel r f (s.length + 1) none s

theorem find_shorter {r : Rx} : ∀ {s : List Char} {p : Option Char} {m : RxMatch}, r.find p s = some m → m.text ≠ [] → m.after.rest.length < s.length := by
  intro s
  induction s with
  | nil =>
    intro p m h hm
    unfold Rx.find at h
    split at h
    · cases h; exact absurd rfl hm
    · cases h
  | cons c s ih =>
    intro p m h hm
    unfold Rx.find at h
    split at h
    · rename_i t l ht
      cases h
      dsimp only at hm ⊢
      false_or_by_contra
      apply hm
      rw [List.take_eq_nil_iff]
      left
      simp only [List.length_cons] at *
      omega
    · cases h' : r.find (some c) s with
      | none => rw [h'] at h; cases h
      | some n =>
        rw [h'] at h
        simp only [Option.map_some, Option.some.injEq] at h
        subst h
        have := ih h' hm
        simp only [List.length_cons] at *
        omega

theorem same_subst {w : Bool} {r : Rx} (hr : noLook w r = true) (f : List Char → List (Nat × List Char) → List Char) : ∀ (n m : Nat) (s : List Char) (p q : Option Char),
    s.length < n → s.length < m → (w = true → optWord p = optWord q) → substFuel r f n p s = substFuel r f m q s := by
  intro n
  induction n with
  | zero => intro m s p q h; omega
  | succ n ih =>
    intro m s p q hn hm hp
    cases m with
    | zero => omega
    | succ m =>
      have hf := same_find hr s hp
      unfold substFuel Rx.findAllFuel
      cases e1 : r.find p s with
      | none =>
        cases e2 : r.find q s with
        | none => rfl
        | some b => rw [e1, e2] at hf; cases hf
      | some a =>
        cases e2 : r.find q s with
        | none => rw [e1, e2] at hf; cases hf
        | some b =>
          rw [e1, e2] at hf
          cases hf with
          | some hf =>
            dsimp only
            rw [hf.text]
            cases hb : b.text.isEmpty with
            | true => rfl
            | false =>
              have hbe : b.text ≠ [] := by intro e; rw [e] at hb; simp at hb
              have l2 := find_shorter e2 hbe
              have := ih m b.after.rest a.after.prev b.after.prev (by omega) (by omega) hf.after.prev
              unfold substFuel at this
              simp only [Bool.false_eq_true, if_false, List.flatMap_cons, List.append_assoc]
              rw [hf.after.rest, this, hf.before, hf.after.caps, hf.text]

/-- Something in front in which no match begins stays. -/
theorem subst_prefix {w : Bool} {r : Rx} (hr : noLook w r = true) (f : List Char → List (Nat × List Char) → List Char) (pre s : List Char)
    (hp : ∀ p, ∀ a b, pre = a ++ b → b ≠ [] → r.Fails ⟨p, b ++ s, []⟩) (hw : w = true → optWord pre.getLast? = false) :
    subst r f (pre ++ s) = pre ++ subst r f s := by
  unfold subst
  have h0 : substFuel r f (pre ++ s |>.length.succ) none (pre ++ s) = pre ++ substFuel r f ((pre ++ s).length.succ) (lastOr none pre) s := by
    unfold substFuel Rx.findAllFuel
    rw [find_skip pre s none (fun a b e hb => hp _ a b e hb)]
    cases e : r.find (lastOr none pre) s with
    | none => simp
    | some m =>
      simp only [Option.map_some]
      cases hb : m.text.isEmpty with
      | true => simp
      | false => simp
  refine h0.trans ?_
  rw [same_subst hr f _ (s.length + 1) s (lastOr none pre) none (by simp; omega) (by omega)]
  intro h
  have := hw h
  unfold lastOr
  simp only [Option.or_none]
  rw [this]
  rfl

theorem replaceAll_subst (r : Rx) (t : List Tmpl) (s : List Char) : replaceAllTmpl r t s = subst r (fun _ caps => expandTmpl ⟨none, [], caps⟩ t) s := by
  unfold replaceAllTmpl subst substFuel Rx.findAll
  rfl

theorem deleteAll_subst (r : Rx) (s : List Char) : r.deleteAll s = subst r (fun _ _ => []) s := by
  unfold Rx.deleteAll subst substFuel Rx.findAll
  simp [List.flatMap_def]

theorem numbersOnly_subst (r : Rx) (s : List Char) : numbersOnly r s = subst r (fun x _ => x.map fun c => if c.isDigit then c else ' ') s := rfl

end Verif.Lemmas
