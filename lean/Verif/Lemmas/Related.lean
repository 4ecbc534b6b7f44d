import Verif.Go.Regexp
/-!
Helper lemmas: two texts that differ only in characters no pattern can tell apart are treated alike.  `R` relates the
characters.
-/
set_option autoImplicit false
namespace Verif.Lemmas
open Verif.Go

/-- Two lists of the same length, related entry by entry. -/
inductive Rel2 {α β : Type} (R : α → β → Prop) : List α → List β → Prop where
  | nil : Rel2 R [] []
  | cons {a : α} {b : β} {s : List α} {t : List β} : R a b → Rel2 R s t → Rel2 R (a :: s) (b :: t)

namespace Rel2
variable {α β γ δ : Type} {R : α → β → Prop} {Q : γ → δ → Prop}

theorem cons_iff {a : α} {b : β} {s : List α} {t : List β} : Rel2 R (a :: s) (b :: t) ↔ R a b ∧ Rel2 R s t :=
  ⟨fun h => by cases h with | cons h1 h2 => exact ⟨h1, h2⟩, fun h => .cons h.1 h.2⟩
theorem length {s : List α} {t : List β} (h : Rel2 R s t) : s.length = t.length := by
  induction h with
  | nil => rfl
  | cons _ _ ih => simp [ih]
theorem isEmpty {s : List α} {t : List β} (h : Rel2 R s t) : s.isEmpty = t.isEmpty := by cases h <;> rfl
theorem append {s s' : List α} {t t' : List β} (h : Rel2 R s t) (h' : Rel2 R s' t') : Rel2 R (s ++ s') (t ++ t') := by
  induction h with
  | nil => exact h'
  | cons h1 _ ih => exact .cons h1 ih
theorem single {a : α} {b : β} (h : R a b) : Rel2 R [a] [b] := .cons h .nil
theorem map {s : List α} {t : List β} {f : α → γ} {g : β → δ} (h : Rel2 R s t) (hf : ∀ a b, R a b → Q (f a) (g b)) :
    Rel2 Q (s.map f) (t.map g) := by
  induction h with
  | nil => exact .nil
  | cons h1 _ ih => exact .cons (hf _ _ h1) ih
theorem flatMap {s : List α} {t : List β} {f : α → List γ} {g : β → List δ} (h : Rel2 R s t)
    (hf : ∀ a b, R a b → Rel2 Q (f a) (g b)) : Rel2 Q (s.flatMap f) (t.flatMap g) := by
  induction h with
  | nil => exact .nil
  | cons h1 _ ih => simp only [List.flatMap_cons]; exact (hf _ _ h1).append ih
theorem filter {s : List α} {t : List β} {p : α → Bool} {q : β → Bool} (h : Rel2 R s t)
    (hp : ∀ a b, R a b → p a = q b) : Rel2 R (s.filter p) (t.filter q) := by
  induction h with
  | nil => exact .nil
  | cons h1 _ ih =>
    simp only [List.filter_cons, hp _ _ h1]
    split
    · exact .cons h1 ih
    · exact ih
theorem take {s : List α} {t : List β} (h : Rel2 R s t) : ∀ n, Rel2 R (s.take n) (t.take n) := by
  induction h with
  | nil => intro n; simp; exact .nil
  | cons h1 _ ih =>
    intro n
    cases n with
    | zero => exact .nil
    | succ n => exact .cons h1 (ih n)
theorem drop {s : List α} {t : List β} (h : Rel2 R s t) : ∀ n, Rel2 R (s.drop n) (t.drop n) := by
  induction h with
  | nil => intro n; simp; exact .nil
  | cons h1 h2 ih =>
    intro n
    cases n with
    | zero => exact .cons h1 h2
    | succ n => exact ih n
theorem reverse {s : List α} {t : List β} (h : Rel2 R s t) : Rel2 R s.reverse t.reverse := by
  induction h with
  | nil => exact .nil
  | cons h1 _ ih => simp only [List.reverse_cons]; exact ih.append (single h1)
theorem all {s : List α} {t : List β} {p : α → Bool} {q : β → Bool} (h : Rel2 R s t)
    (hp : ∀ a b, R a b → p a = q b) : s.all p = t.all q := by
  induction h with
  | nil => rfl
  | cons h1 _ ih => simp [hp _ _ h1, ih]
theorem any {s : List α} {t : List β} {p : α → Bool} {q : β → Bool} (h : Rel2 R s t)
    (hp : ∀ a b, R a b → p a = q b) : s.any p = t.any q := by
  induction h with
  | nil => rfl
  | cons h1 _ ih => simp [hp _ _ h1, ih]
theorem refl {R : α → α → Prop} (hR : ∀ a, R a a) : ∀ s, Rel2 R s s
  | [] => .nil
  | a :: s => .cons (hR a) (refl hR s)
theorem mono {S : α → β → Prop} {s : List α} {t : List β} (h : Rel2 R s t) (hS : ∀ a b, R a b → S a b) : Rel2 S s t := by
  induction h with
  | nil => exact .nil
  | cons h1 _ ih => exact .cons (hS _ _ h1) ih
theorem eq {s t : List α} (h : Rel2 (fun a b : α => a = b) s t) : s = t := by
  induction h with
  | nil => rfl
  | cons h1 _ ih => rw [h1, ih]
theorem map_eq {s : List α} {t : List β} {f : α → β} (h : Rel2 (fun a b => b = f a) s t) : t = s.map f := by
  induction h with
  | nil => rfl
  | cons h1 _ ih => rw [h1, ih]; rfl
theorem of_map {f : α → β} : ∀ (s : List α), (∀ a ∈ s, R a (f a)) → Rel2 R s (s.map f)
  | [], _ => .nil
  | a :: s, h => .cons (h a (by simp)) (of_map s fun x hx => h x (by simp [hx]))
end Rel2

/-- Two optional values, both there and related or both absent. -/
inductive Opt2 {α β : Type} (R : α → β → Prop) : Option α → Option β → Prop where
  | none : Opt2 R none none
  | some {a : α} {b : β} : R a b → Opt2 R (some a) (some b)

namespace Opt2
variable {α β γ δ : Type} {R : α → β → Prop} {Q : γ → δ → Prop}
theorem isSome {a : Option α} {b : Option β} (h : Opt2 R a b) : a.isSome = b.isSome := by cases h <;> rfl
theorem isNone {a : Option α} {b : Option β} (h : Opt2 R a b) : a.isNone = b.isNone := by cases h <;> rfl
theorem map {a : Option α} {b : Option β} {f : α → γ} {g : β → δ} (h : Opt2 R a b) (hf : ∀ a b, R a b → Q (f a) (g b)) :
    Opt2 Q (a.map f) (b.map g) := by
  cases h with
  | none => exact .none
  | some h => exact .some (hf _ _ h)
end Opt2

theorem Rel2.head? {α β : Type} {R : α → β → Prop} {s : List α} {t : List β} (h : Rel2 R s t) : Opt2 R s.head? t.head? := by
  cases h with
  | nil => exact .none
  | cons h1 _ => exact .some h1
theorem Rel2.getLast? {α β : Type} {R : α → β → Prop} {s : List α} {t : List β} (h : Rel2 R s t) :
    Opt2 R s.getLast? t.getLast? := by
  have := h.reverse.head?
  rwa [List.head?_reverse, List.head?_reverse] at this
theorem Rel2.getElem? {α β : Type} {R : α → β → Prop} {s : List α} {t : List β} (h : Rel2 R s t) :
    ∀ n : Nat, Opt2 R s[n]? t[n]? := by
  induction h with
  | nil => intro n; simp; exact .none
  | cons h1 _ ih =>
    intro n
    cases n with
    | zero => simp; exact .some h1
    | succ n => simpa using ih n

/-- Texts. -/
abbrev TextRel (R : Char → Char → Prop) := Rel2 R

structure StRel (R : Char → Char → Prop) (s t : MSt) : Prop where
  prev : Opt2 R s.prev t.prev
  rest : Rel2 R s.rest t.rest
  caps : Rel2 (fun a b : Nat × List Char => a.1 = b.1 ∧ Rel2 R a.2 b.2) s.caps t.caps

/-- Two patterns of the same form whose classes treat related characters alike. -/
inductive RxRel (R : Char → Char → Prop) : Rx → Rx → Prop where
  | eps : RxRel R .eps .eps
  | chr {p q : Char → Bool} : (∀ x y, R x y → p x = q y) → RxRel R (.chr p) (.chr q)
  | seq {a b a' b' : Rx} : RxRel R a a' → RxRel R b b' → RxRel R (.seq a b) (.seq a' b')
  | alt {a b a' b' : Rx} : RxRel R a a' → RxRel R b b' → RxRel R (.alt a b) (.alt a' b')
  | opt {a a' : Rx} : RxRel R a a' → RxRel R (.opt a) (.opt a')
  | star {a a' : Rx} : RxRel R a a' → RxRel R (.star a) (.star a')
  | grp (n : Nat) {a a' : Rx} : RxRel R a a' → RxRel R (.grp n a) (.grp n a')
  | bos : RxRel R .bos .bos
  | eos : RxRel R .eos .eos
  | wb : (∀ x y, R x y → isWordC x = isWordC y) → RxRel R .wb .wb

theorem starRun_rel {R : Char → Char → Prop} {f g : MSt → List MSt}
    (hf : ∀ s t, StRel R s t → Rel2 (StRel R) (f s) (g t)) :
    ∀ (n : Nat) (s t : MSt), StRel R s t → Rel2 (StRel R) (starRun f n s) (starRun g n t) := by
  intro n
  induction n with
  | zero => intro s t h; exact .single h
  | succ n ih =>
    intro s t h
    unfold starRun
    refine Rel2.append (Rel2.flatMap (Rel2.filter (hf s t h) ?_) ih) (.single h)
    intro a b hab
    rw [hab.rest.length, h.rest.length]

theorem run_rel {R : Char → Char → Prop} {a b : Rx} (h : RxRel R a b) :
    ∀ (s t : MSt), StRel R s t → Rel2 (StRel R) (a.run s) (b.run t) := by
  induction h with
  | eps => intro s t h; exact .single h
  | @chr p q hp =>
    intro s t h
    obtain ⟨sp, sr, sc⟩ := s
    obtain ⟨tp, tr, tc⟩ := t
    obtain ⟨h1, h2, h3⟩ := h
    dsimp only at h1 h2 h3
    cases h2 with
    | nil => exact .nil
    | @cons x y r r' hxy hr =>
      simp only [Rx.run, hp x y hxy]
      split
      · exact .single ⟨.some hxy, hr, h3⟩
      · exact .nil
  | seq _ _ iha ihb => intro s t h; exact Rel2.flatMap (iha s t h) ihb
  | alt _ _ iha ihb => intro s t h; exact (iha s t h).append (ihb s t h)
  | opt _ iha => intro s t h; exact (iha s t h).append (.single h)
  | star _ iha =>
    intro s t h
    simp only [Rx.run, h.rest.length]
    exact starRun_rel iha _ s t h
  | grp n _ iha =>
    intro s t h
    refine Rel2.map (iha s t h) ?_
    intro a b hab
    refine ⟨hab.prev, hab.rest, .cons ⟨rfl, ?_⟩ hab.caps⟩
    show Rel2 R (List.take (s.rest.length - a.rest.length) s.rest) (List.take (t.rest.length - b.rest.length) t.rest)
    rw [h.rest.length, hab.rest.length]
    exact h.rest.take _
  | bos =>
    intro s t h
    simp only [Rx.run, h.prev.isNone]
    split
    · exact .single h
    · exact .nil
  | eos =>
    intro s t h
    simp only [Rx.run, h.rest.isEmpty]
    split
    · exact .single h
    · exact .nil
  | wb hw =>
    intro s t h
    have o : ∀ a b, Opt2 R a b → optWord a = optWord b := by
      intro a b hab
      cases hab with
      | none => rfl
      | some hab => exact hw _ _ hab
    simp only [Rx.run, o _ _ h.prev, o _ _ h.rest.head?]
    split
    · exact .single h
    · exact .nil

structure MatchRel (R : Char → Char → Prop) (m n : RxMatch) : Prop where
  before : Rel2 R m.before n.before
  text : Rel2 R m.text n.text
  after : StRel R m.after n.after

theorem find_rel {R : Char → Char → Prop} {a b : Rx} (h : RxRel R a b) {s t : List Char} (hs : Rel2 R s t) :
    ∀ {p q : Option Char}, Opt2 R p q → Opt2 (MatchRel R) (a.find p s) (b.find q t) := by
  induction hs with
  | nil =>
    intro p q hp
    have := run_rel h ⟨p, [], []⟩ ⟨q, [], []⟩ ⟨hp, .nil, .nil⟩
    unfold Rx.find
    revert this
    cases a.run ⟨p, [], []⟩ <;> cases b.run ⟨q, [], []⟩ <;> intro this <;> cases this
    · exact .none
    · rename_i h1 _
      exact .some ⟨.nil, .nil, h1⟩
  | @cons x y s t hxy hst ih =>
    intro p q hp
    have := run_rel h ⟨p, x :: s, []⟩ ⟨q, y :: t, []⟩ ⟨hp, .cons hxy hst, .nil⟩
    unfold Rx.find
    revert this
    cases a.run ⟨p, x :: s, []⟩ <;> cases b.run ⟨q, y :: t, []⟩ <;> intro this <;> cases this
    · dsimp only
      refine (ih (.some hxy)).map ?_
      intro m n hmn
      exact ⟨.cons hxy hmn.before, hmn.text, hmn.after⟩
    · rename_i u v hu _
      refine .some ⟨.nil, ?_, hu⟩
      show Rel2 R (List.take ((x :: s).length - _) (x :: s)) (List.take ((y :: t).length - _) (y :: t))
      rw [(Rel2.cons hxy hst).length, hu.rest.length]
      exact (Rel2.cons hxy hst).take _

theorem matches_rel {R : Char → Char → Prop} {a b : Rx} (h : RxRel R a b) {s t : List Char} (hs : Rel2 R s t) :
    a.matches s = b.matches t := (find_rel h hs .none).isSome

theorem findAllFuel_rel {R : Char → Char → Prop} {a b : Rx} (h : RxRel R a b) : ∀ (n : Nat) {p q : Option Char} {s t : List Char},
    Opt2 R p q → Rel2 R s t → Rel2 (MatchRel R) (a.findAllFuel n p s).1 (b.findAllFuel n q t).1 ∧
      Rel2 R (a.findAllFuel n p s).2 (b.findAllFuel n q t).2 := by
  intro n
  induction n with
  | zero => intro p q s t _ hs; exact ⟨.nil, hs⟩
  | succ n ih =>
    intro p q s t hp hs
    have := find_rel h hs hp
    unfold Rx.findAllFuel
    revert this
    cases a.find p s <;> cases b.find q t <;> intro this <;> cases this
    · exact ⟨.nil, hs⟩
    · rename_i m m' hm
      dsimp only
      rw [hm.text.isEmpty]
      split
      · exact ⟨.nil, hs⟩
      · have := ih hm.after.prev hm.after.rest
        exact ⟨.cons hm this.1, this.2⟩

theorem findAll_rel {R : Char → Char → Prop} {a b : Rx} (h : RxRel R a b) {s t : List Char} (hs : Rel2 R s t) :
    Rel2 (MatchRel R) (a.findAll s).1 (b.findAll t).1 ∧ Rel2 R (a.findAll s).2 (b.findAll t).2 := by
  unfold Rx.findAll
  rw [hs.length]
  exact findAllFuel_rel h _ .none hs

theorem cap_rel {R : Char → Char → Prop} {s t : MSt} (h : StRel R s t) (n : Nat) : Rel2 R (s.cap n) (t.cap n) := by
  obtain ⟨sp, sr, sc⟩ := s
  obtain ⟨tp, tr, tc⟩ := t
  have hc := h.caps
  dsimp only at hc
  unfold MSt.cap
  dsimp only
  clear h
  induction hc with
  | nil => exact .nil
  | cons h1 _ ih =>
    simp only [List.find?_cons, h1.1]
    split
    · exact h1.2
    · exact ih

end Verif.Lemmas
