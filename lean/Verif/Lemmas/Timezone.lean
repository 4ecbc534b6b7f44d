import Verif.Lemmas.Rx
import Verif.Spec.Timezone
/-! Helper lemmas: the time zone patterns. -/
set_option autoImplicit false
namespace Verif.Lemmas
open Verif.Go Verif.Model Verif.Spec Verif.Data

/-! ## Matching, seen from what is left -/

/-- `w` can be taken. -/
def ItemMatch : TzItem → List Char → Prop
  | .lit c, w => ∃ x, w = [x] ∧ foldC x = foldC c
  | .utcGmt, w => UtcOrGmt w
  | .optColon, w => w = [] ∨ w = [':']
  | .dots, w => '\n' ∉ w

def ItemsMatch : List TzItem → List Char → Prop
  | [], w => w = []
  | i :: r, w => ∃ p q, w = p ++ q ∧ ItemMatch i p ∧ ItemsMatch r q

/-- `r` takes exactly the texts `L`. -/
def Takes (r : Rx) (L : List Char → Prop) : Prop :=
  (∀ s t, t ∈ r.run s → ∃ w, L w ∧ s.rest = w ++ t.rest) ∧
  (∀ (s : MSt) w x, L w → s.rest = w ++ x → ∃ t ∈ r.run s, t.rest = x)

theorem takes_chr (p : Char → Bool) : Takes (.chr p) (fun w => ∃ x, w = [x] ∧ p x = true) := by
  constructor
  · intro s t h
    unfold Rx.run at h
    split at h
    · rename_i c r hr
      split at h
      · rename_i hp
        simp only [List.mem_singleton] at h
        exact ⟨[c], ⟨c, rfl, hp⟩, by rw [h, hr]; rfl⟩
      · simp at h
    · simp at h
  · rintro s w x ⟨y, rfl, hp⟩ hs
    refine ⟨⟨some y, x, s.caps⟩, ?_, rfl⟩
    unfold Rx.run
    rw [hs]
    simp [hp]

theorem takes_congr {r : Rx} {L M : List Char → Prop} (h : Takes r L) (e : ∀ w, L w ↔ M w) : Takes r M := by
  have : L = M := funext fun w => propext (e w)
  rwa [← this]

theorem takes_eps : Takes .eps (fun w => w = []) := by
  constructor
  · intro s t h
    simp only [Rx.run, List.mem_singleton] at h
    exact ⟨[], rfl, by rw [h]; rfl⟩
  · rintro s w x rfl hs
    exact ⟨s, by simp [Rx.run], hs⟩

theorem takes_seq {a b : Rx} {L M : List Char → Prop} (ha : Takes a L) (hb : Takes b M) :
    Takes (.seq a b) (fun w => ∃ p q, w = p ++ q ∧ L p ∧ M q) := by
  constructor
  · intro s t h
    simp only [Rx.run, List.mem_flatMap] at h
    obtain ⟨u, h1, h2⟩ := h
    obtain ⟨p, hp, e1⟩ := ha.1 s u h1
    obtain ⟨q, hq, e2⟩ := hb.1 u t h2
    exact ⟨p ++ q, ⟨p, q, rfl, hp, hq⟩, by rw [e1, e2, List.append_assoc]⟩
  · rintro s w x ⟨p, q, rfl, hp, hq⟩ hs
    rw [List.append_assoc] at hs
    obtain ⟨u, h1, e1⟩ := ha.2 s p (q ++ x) hp hs
    obtain ⟨t, h2, e2⟩ := hb.2 u q x hq e1
    refine ⟨t, ?_, e2⟩
    simp only [Rx.run, List.mem_flatMap]
    exact ⟨u, h1, h2⟩

theorem takes_alt {a b : Rx} {L M : List Char → Prop} (ha : Takes a L) (hb : Takes b M) :
    Takes (.alt a b) (fun w => L w ∨ M w) := by
  constructor
  · intro s t h
    simp only [Rx.run, List.mem_append] at h
    rcases h with h | h
    · obtain ⟨w, h1, h2⟩ := ha.1 s t h; exact ⟨w, Or.inl h1, h2⟩
    · obtain ⟨w, h1, h2⟩ := hb.1 s t h; exact ⟨w, Or.inr h1, h2⟩
  · rintro s w x (h | h) hs
    · obtain ⟨t, h1, h2⟩ := ha.2 s w x h hs; exact ⟨t, by simp [Rx.run, h1], h2⟩
    · obtain ⟨t, h1, h2⟩ := hb.2 s w x h hs; exact ⟨t, by simp [Rx.run, h1], h2⟩

theorem takes_opt {a : Rx} {L : List Char → Prop} (ha : Takes a L) : Takes (.opt a) (fun w => L w ∨ w = []) := by
  constructor
  · intro s t h
    simp only [Rx.run, List.mem_append, List.mem_singleton] at h
    rcases h with h | h
    · obtain ⟨w, h1, h2⟩ := ha.1 s t h; exact ⟨w, Or.inl h1, h2⟩
    · exact ⟨[], Or.inr rfl, by rw [h]; rfl⟩
  · rintro s w x (h | rfl) hs
    · obtain ⟨t, h1, h2⟩ := ha.2 s w x h hs; exact ⟨t, by simp [Rx.run, h1], h2⟩
    · exact ⟨s, by simp [Rx.run], hs⟩

theorem takes_grp {a : Rx} {n : Nat} {L : List Char → Prop} (ha : Takes a L) : Takes (.grp n a) L := by
  constructor
  · intro s t h
    simp only [Rx.run, List.mem_map] at h
    obtain ⟨u, h1, rfl⟩ := h
    exact ha.1 s u h1
  · intro s w x h hs
    obtain ⟨t, h1, h2⟩ := ha.2 s w x h hs
    have hm : ∃ u ∈ (Rx.grp n a).run s, u.rest = t.rest := by
      simp only [Rx.run, List.mem_map]
      exact ⟨_, ⟨t, h1, rfl⟩, rfl⟩
    obtain ⟨u, hu, e⟩ := hm
    exact ⟨u, hu, e.trans h2⟩

theorem takes_star_chr (q : Char → Bool) : Takes (.star (.chr q)) (fun w => ∀ x ∈ w, q x = true) := by
  constructor
  · intro s t h
    have key : ∀ n s t, t ∈ starRun (Rx.chr q).run n s → ∃ w, (∀ x ∈ w, q x = true) ∧ s.rest = w ++ t.rest := by
      intro n
      induction n with
      | zero =>
        intro s t h
        simp only [starRun, List.mem_singleton] at h
        exact ⟨[], by simp, by rw [h]; rfl⟩
      | succ n ih =>
        intro s t h
        simp only [starRun, List.mem_append, List.mem_flatMap, List.mem_filter, List.mem_singleton] at h
        rcases h with ⟨u, ⟨hu, _⟩, h2⟩ | h
        · obtain ⟨w1, ⟨x, rfl, hx⟩, e1⟩ := (takes_chr q).1 s u hu
          obtain ⟨w2, h3, e2⟩ := ih u t h2
          refine ⟨x :: w2, ?_, by rw [e1, e2]; rfl⟩
          intro y hy
          rcases List.mem_cons.mp hy with rfl | hy
          · exact hx
          · exact h3 y hy
        · exact ⟨[], by simp, by rw [h]; rfl⟩
    exact key _ s t h
  · intro s w x h hs
    have key : ∀ (w : List Char) n (s : MSt), s.rest = w ++ x → w.length ≤ n → (∀ y ∈ w, q y = true) →
        ∃ t ∈ starRun (Rx.chr q).run n s, t.rest = x := by
      intro w
      induction w with
      | nil =>
        intro n s hs _ _
        cases n with
        | zero => exact ⟨s, by simp [starRun], hs⟩
        | succ n => exact ⟨s, by simp [starRun], hs⟩
      | cons y w ih =>
        intro n s hs hn hq
        cases n with
        | zero => simp at hn
        | succ n =>
          obtain ⟨t, ht, e⟩ := ih n ⟨some y, w ++ x, s.caps⟩ rfl (by simpa using hn) (fun z hz => hq z (by simp [hz]))
          refine ⟨t, ?_, e⟩
          simp only [starRun, List.mem_append, List.mem_flatMap, List.mem_filter, List.mem_singleton]
          left
          refine ⟨⟨some y, w ++ x, s.caps⟩, ⟨?_, ?_⟩, ht⟩
          · unfold Rx.run; rw [hs]; simp [hq y (by simp)]
          · rw [hs]; simp
    exact key w _ s hs (by rw [hs]; simp) h

theorem takes_folds (n : List Char) : Takes (rxFolds n) (fun w => SameText w n) := by
  induction n with
  | nil =>
    refine takes_congr takes_eps fun w => ?_
    unfold SameText; simp
  | cons c r ih =>
    refine takes_congr (takes_seq (takes_chr _) ih) fun w => ?_
    unfold SameText
    constructor
    · rintro ⟨p, q, rfl, ⟨x, rfl, hx⟩, hq⟩
      simpa [hq] using hx
    · intro h
      cases w with
      | nil => simp at h
      | cons x w =>
        simp only [List.map_cons, List.cons.injEq] at h
        exact ⟨[x], w, rfl, ⟨x, rfl, by simpa using h.1⟩, h.2⟩

theorem foldC_colon (x : Char) : foldC x = foldC ':' ↔ x = ':' := by
  constructor
  · intro h
    rw [show foldC ':' = ':' by decide] at h
    unfold foldC at h
    split at h
    · simp at h
    · split at h
      · simp at h
      · split at h
        · simp at h
        · unfold toLowerC at h
          split at h
          · rename_i hx
            have key : ∀ n : Nat, 65 ≤ n → n ≤ 90 → Char.ofNat (n + 32) ≠ ':' := by
              have : ∀ k : Fin 26, Char.ofNat (65 + k.val + 32) ≠ ':' := by decide
              intro n a b
              have := this ⟨n - 65, by omega⟩
              rwa [show 65 + (⟨n - 65, by omega⟩ : Fin 26).val = n by simp only; omega] at this
            exact absurd h (key _ hx.1 hx.2)
          · exact h
  · rintro rfl; rfl

theorem takes_item (i : TzItem) : Takes i.rx (ItemMatch i) := by
  cases i with
  | lit c =>
    refine takes_congr (takes_chr _) fun w => ?_
    constructor
    · rintro ⟨x, rfl, hx⟩; exact ⟨x, rfl, by simpa using hx⟩
    · rintro ⟨x, rfl, hx⟩; exact ⟨x, rfl, by simpa using hx⟩
  | utcGmt => exact takes_congr (takes_alt (takes_folds _) (takes_folds _)) fun w => Iff.rfl
  | optColon =>
    refine takes_congr (takes_opt (takes_chr _)) fun w => ?_
    constructor
    · rintro (⟨x, rfl, hx⟩ | h)
      · have := (foldC_colon x).mp (by simpa using hx)
        rw [this]; exact Or.inr rfl
      · exact Or.inl h
    · rintro (h | rfl)
      · exact Or.inr h
      · exact Or.inl ⟨':', rfl, by simp⟩
  | dots =>
    refine takes_congr (takes_star_chr _) fun w => ?_
    constructor
    · intro h hn; have := h _ hn; simp at this
    · intro h x hx
      have : x ≠ '\n' := by rintro rfl; exact h hx
      simpa using this

theorem takes_items (l : List TzItem) : Takes (itemsRx l) (ItemsMatch l) := by
  induction l with
  | nil => exact takes_eps
  | cons i r ih => exact takes_seq (takes_item i) ih

/-! ## Where a match is found -/

theorem find_some {r : Rx} : ∀ (s : List Char) (p : Option Char) (m : RxMatch), r.find p s = some m →
    ∃ b p', s = m.before ++ b ∧ m.after ∈ r.run ⟨p', b, []⟩ ∧ m.text = b.take (b.length - m.after.rest.length) := by
  intro s
  induction s with
  | nil =>
    intro p m h
    unfold Rx.find at h
    split at h
    · rename_i t l e
      injection h with h; subst h
      exact ⟨[], p, rfl, by rw [e]; simp, by simp⟩
    · simp at h
  | cons c cs ih =>
    intro p m h
    unfold Rx.find at h
    split at h
    · rename_i t l e
      injection h with h; subst h
      exact ⟨c :: cs, p, rfl, by rw [e]; simp, rfl⟩
    · cases hf : r.find (some c) cs with
      | none => simp [hf] at h
      | some m' =>
        simp [hf] at h; subst h
        obtain ⟨b, p', h1, h2, h3⟩ := ih _ _ hf
        exact ⟨b, p', by rw [h1]; rfl, h2, h3⟩

theorem find_eq_none {r : Rx} : ∀ (s : List Char) (p : Option Char), r.find p s = none →
    ∀ a b, s = a ++ b → r.Fails ⟨lastOr p a, b, []⟩ := by
  intro s
  induction s with
  | nil =>
    intro p h a b e
    have ha : a = [] := by
      cases a with
      | nil => rfl
      | cons x y => simp at e
    subst ha
    have hb : b = [] := by simpa using e.symm
    subst hb
    rw [lastOr_nil]
    unfold Rx.find at h
    split at h
    · simp at h
    · rename_i e; exact e
  | cons c cs ih =>
    intro p h a b e
    unfold Rx.find at h
    split at h
    · simp at h
    · rename_i e0
      cases a with
      | nil =>
        have : b = c :: cs := by simpa using e.symm
        subst this
        exact e0
      | cons x a =>
        rw [List.cons_append] at e
        injection e with e1 e2
        subst e1
        rw [lastOr_cons]
        refine ih (some c) ?_ a b e2
        cases hf : r.find (some c) cs with
        | none => rfl
        | some m => simp [hf] at h

/-! ## The entries of the table -/

/-- The entry matches at this place. -/
def EntryMatch (e : TzEntry) (s : Sight) : Prop :=
  ItemsMatch e.items s.zone ∧
  if e.atEnd then s.c ≠ '\n' ∧ s.next = none ∧ s.rest = []
  else (foldC s.c).isAlpha = false ∧ (match s.next with
    | some d => isWordC (foldC d) = false
    | none => s.rest = [])

theorem takes_dot : Takes rxDot (fun w => ∃ x, w = [x] ∧ x ≠ '\n') :=
  takes_congr (takes_chr _) fun w => by simp


theorem upper_lower (n : Nat) (a : 65 ≤ n) (b : n ≤ 90) : (Char.ofNat (n + 32)).isLower = true := by
  have : ∀ k : Fin 26, (Char.ofNat (65 + k.val + 32)).isLower = true := by decide
  have := this ⟨n - 65, by omega⟩
  rwa [show 65 + (⟨n - 65, by omega⟩ : Fin 26).val = n by simp only; omega] at this

/-- Folding changes only letters, into letters. -/
theorem foldC_plain {x c : Char} (h : foldC x = c) (hl : c.isLower = false) (hc : c ≠ '\u010d') : x = c := by
  unfold foldC toLowerC at h
  split at h
  · subst h; exact absurd hl (by decide)
  · split at h
    · subst h; exact absurd hl (by decide)
    · split at h
      · exact absurd h.symm hc
      · split at h
        · rename_i hx
          have := upper_lower x.toNat hx.1 hx.2
          rw [h, hl] at this
          exact absurd this (by simp)
        · exact h

theorem digit_range {c : Char} (h : c.isDigit = true) : 48 ≤ c.toNat ∧ c.toNat ≤ 57 := by
  unfold Char.isDigit at h
  simp only [ge_iff_le, Bool.and_eq_true, decide_eq_true_eq] at h
  exact ⟨h.1, h.2⟩

theorem digit_cases {P : Char → Prop} (hp : ∀ k : Fin 10, P (Char.ofNat (48 + k.val))) {c : Char} (h : c.isDigit = true) :
    P c := by
  obtain ⟨h1, h2⟩ := digit_range h
  have := hp ⟨c.toNat - 48, by omega⟩
  rw [show 48 + (⟨c.toNat - 48, by omega⟩ : Fin 10).val = c.toNat by simp only; omega, Char.ofNat_toNat] at this
  exact this

theorem foldC_digit (c : Char) (h : c.isDigit = true) : foldC c = c := digit_cases (P := fun c => foldC c = c) (by decide) h
theorem alpha_digit (c : Char) (h : c.isDigit = true) : c.isAlpha = false :=
  digit_cases (P := fun c => c.isAlpha = false) (by decide) h

theorem takes_front : Takes (.alt rxNonWordFold (.alt Rx.digit (.chr (· == '_'))))
    (fun w => ∃ x, w = [x] ∧ (foldC x).isAlpha = false) := by
  refine takes_congr (takes_alt (takes_chr _) (takes_alt (takes_chr _) (takes_chr _))) fun w => ?_
  constructor
  · rintro (⟨x, rfl, hx⟩ | ⟨x, rfl, hx⟩ | ⟨x, rfl, hx⟩)
    · refine ⟨x, rfl, ?_⟩
      have : isWordC (foldC x) = false := by simpa using hx
      cases ha : (foldC x).isAlpha with
      | false => rfl
      | true => rw [isWordC, Char.isAlphanum, ha] at this; simp at this
    · refine ⟨x, rfl, ?_⟩
      have hd : x.isDigit = true := by simpa using hx
      rw [foldC_digit x hd]
      exact alpha_digit x hd
    · have : x = '_' := by simpa using hx
      subst this
      exact ⟨_, rfl, by decide⟩
  · rintro ⟨x, rfl, hx⟩
    have hl : (foldC x).isLower = false := by
      cases hl : (foldC x).isLower with
      | false => rfl
      | true => rw [Char.isAlpha, hl] at hx; simp at hx
    cases hw : isWordC (foldC x) with
    | false => exact Or.inl ⟨x, rfl, by rw [hw]; rfl⟩
    | true =>
      right
      rw [isWordC, Char.isAlphanum, hx] at hw
      simp only [Bool.false_or, Bool.or_eq_true, beq_iff_eq] at hw
      rcases hw with hw | hw
      · left
        have := foldC_plain (x := x) rfl hl (by
          intro h; rw [h] at hw; exact absurd hw (by decide))
        refine ⟨x, rfl, ?_⟩
        rw [← this] at hw; simpa using hw
      · right
        exact ⟨x, rfl, by rw [foldC_plain hw (by decide) (by decide)]; rfl⟩

theorem takes_back (s t : MSt) : (∃ u ∈ (Rx.grp 2 (.alt .eos rxNonWordFold)).run s, u.rest = t.rest) ↔
    (s.rest = [] ∧ t.rest = []) ∨ ∃ d, s.rest = d :: t.rest ∧ isWordC (foldC d) = false := by
  have e : (∃ u ∈ (Rx.grp 2 (.alt .eos rxNonWordFold)).run s, u.rest = t.rest) ↔
      (∃ u ∈ (Rx.alt .eos rxNonWordFold).run s, u.rest = t.rest) := by
    constructor
    · rintro ⟨u, h, e⟩
      simp only [Rx.run, List.mem_map] at h ⊢
      obtain ⟨v, hv, rfl⟩ := h
      exact ⟨v, hv, e⟩
    · rintro ⟨u, h, e⟩
      simp only [Rx.run, List.mem_map] at h ⊢
      exact ⟨_, ⟨u, h, rfl⟩, e⟩
  rw [e]
  constructor
  · rintro ⟨u, h, e⟩
    simp only [Rx.run, List.mem_append] at h
    rcases h with h | h
    · split at h
      · rename_i hr
        simp only [List.mem_singleton] at h
        have hr : s.rest = [] := by simpa using hr
        left; rw [h] at e; exact ⟨hr, by rw [← e, hr]⟩
      · simp at h
    · obtain ⟨w, ⟨x, rfl, hx⟩, e1⟩ := (takes_chr _).1 s u h
      right; exact ⟨x, by rw [e1, e]; rfl, by simpa using hx⟩
  · rintro (⟨h1, h2⟩ | ⟨d, h1, h2⟩)
    · exact ⟨s, by simp [Rx.run, h1], by rw [h1, h2]⟩
    · obtain ⟨u, hu, e⟩ := (takes_chr (fun c => !isWordC (foldC c))).2 s [d] t.rest ⟨d, rfl, by simp [h2]⟩ h1
      exact ⟨u, by simp only [Rx.run, List.mem_append]; right; exact hu, e⟩


theorem takes_grp_rest {a : Rx} {n : Nat} {s u : MSt} (h : u ∈ a.run s) : ∃ v ∈ (Rx.grp n a).run s, v.rest = u.rest := by
  simp only [Rx.run, List.mem_map]
  exact ⟨_, ⟨u, h, rfl⟩, rfl⟩

theorem entry_sound {e : TzEntry} {s t : MSt} (h : t ∈ e.rx.run s) :
    ∃ c zone next, s.rest = c :: (zone ++ Option.toList next ++ t.rest) ∧ EntryMatch e ⟨[], c, zone, next, t.rest⟩ := by
  unfold TzEntry.rx at h
  unfold EntryMatch
  split at h
  · rename_i ha
    simp only [Rx.run] at h
    obtain ⟨u, hu, h⟩ := List.mem_flatMap.mp h
    obtain ⟨v, hv, h⟩ := List.mem_flatMap.mp h
    split at h
    · rename_i hr
      have hr : v.rest = [] := by simpa using hr
      simp only [List.mem_singleton] at h; subst h
      obtain ⟨w1, ⟨c, rfl, hc⟩, e1⟩ := (takes_grp (n := 1) takes_dot).1 s u hu
      obtain ⟨w2, hw, e2⟩ := (takes_items e.items).1 u t hv
      refine ⟨c, w2, none, by rw [e1, e2]; simp, hw, ?_⟩
      simp [ha, hc, hr]
    · simp at h
  · rename_i ha
    have h' : t ∈ (Rx.seq (.grp 1 (.alt rxNonWordFold (.alt Rx.digit (.chr (· == '_')))))
      (.seq (itemsRx e.items) (.grp 2 (.alt .eos rxNonWordFold)))).run s := h
    unfold Rx.run at h'
    obtain ⟨u, hu, h2⟩ := List.mem_flatMap.mp h'
    unfold Rx.run at h2
    obtain ⟨v, hv, h3⟩ := List.mem_flatMap.mp h2
    obtain ⟨w1, ⟨c, rfl, hc⟩, e1⟩ := (takes_grp (n := 1) takes_front).1 s u hu
    obtain ⟨w2, hw, e2⟩ := (takes_items e.items).1 u v hv
    rcases (takes_back v t).mp ⟨t, h3, rfl⟩ with ⟨h4, h5⟩ | ⟨d, h4, h5⟩
    · refine ⟨c, w2, none, by rw [e1, e2, h4, h5]; simp, hw, ?_⟩
      simp [ha, hc, h5]
    · refine ⟨c, w2, some d, by rw [e1, e2, h4]; simp, hw, ?_⟩
      simp [ha, hc, h5]

theorem entry_complete {e : TzEntry} {s : MSt} {g : Sight} (h : EntryMatch e g)
    (hs : s.rest = g.c :: (g.zone ++ g.next.toList ++ g.rest)) : ∃ t ∈ e.rx.run s, t.rest = g.rest := by
  obtain ⟨hz, h⟩ := h
  unfold TzEntry.rx
  split at h
  · rename_i ha
    obtain ⟨hc, hn, hr⟩ := h
    rw [if_pos ha]
    rw [hn, hr] at hs
    obtain ⟨u, hu, e1⟩ := (takes_grp (n := 1) takes_dot).2 s [g.c] (g.zone) ⟨_, rfl, hc⟩ (by rw [hs]; simp)
    obtain ⟨v, hv, e2⟩ := (takes_items e.items).2 u g.zone [] hz (by rw [e1]; simp)
    refine ⟨v, ?_, by rw [e2, hr]⟩
    refine List.mem_flatMap.mpr ⟨u, hu, List.mem_flatMap.mpr ⟨v, hv, ?_⟩⟩
    simp [Rx.run, e2]
  · rename_i ha
    rw [if_neg ha]
    obtain ⟨hc, h⟩ := h
    obtain ⟨u, hu, e1⟩ := (takes_grp (n := 1) takes_front).2 s [g.c] (g.zone ++ g.next.toList ++ g.rest) ⟨_, rfl, hc⟩
      (by rw [hs]; rfl)
    obtain ⟨v, hv, e2⟩ := (takes_items e.items).2 u g.zone (g.next.toList ++ g.rest) hz (by rw [e1]; simp)
    have : ∃ t ∈ (Rx.grp 2 (.alt .eos rxNonWordFold)).run v, t.rest = g.rest := by
      refine (takes_back v ⟨none, g.rest, []⟩).mpr ?_
      cases hn : g.next with
      | none => rw [hn] at h e2; simp only at h; left; exact ⟨by rw [e2, h]; rfl, h⟩
      | some d => rw [hn] at h e2; right; exact ⟨d, by rw [e2]; rfl, h⟩
    obtain ⟨t, ht, e3⟩ := this
    exact ⟨t, List.mem_flatMap.mpr ⟨u, hu, List.mem_flatMap.mpr ⟨v, hv, ht⟩⟩, e3⟩

/-- Where an entry is found. -/
theorem entry_find_some {e : TzEntry} {str : List Char} {m : RxMatch} (h : e.rx.findFirst str = some m) :
    ∃ g : Sight, g.text = str ∧ g.left = cutMatch m ∧ EntryMatch e g := by
  obtain ⟨b, p', e1, h2, h3⟩ := find_some str none m h
  obtain ⟨c, zone, next, e2, hm⟩ := entry_sound h2
  simp only at e2
  refine ⟨⟨m.before, c, zone, next, m.after.rest⟩, ?_, ?_, hm⟩
  · unfold Sight.text; simp only; rw [e1, e2]
  · unfold Sight.left cutMatch; simp only
    rw [h3, e2]
    have : (c :: (zone ++ next.toList ++ m.after.rest)).length - m.after.rest.length = (zone ++ next.toList).length + 1 := by
      simp; omega
    rw [this]
    simp

/-- An entry is found if it matches somewhere. -/
theorem entry_find_none {e : TzEntry} {str : List Char} (h : e.rx.findFirst str = none) (g : Sight) (hg : g.text = str) :
    ¬ EntryMatch e g := by
  intro hm
  have hf := find_eq_none str none h g.before (g.c :: (g.zone ++ g.next.toList ++ g.rest)) hg.symm
  obtain ⟨t, ht, _⟩ := entry_complete (s := ⟨lastOr none g.before, g.c :: (g.zone ++ g.next.toList ++ g.rest), []⟩) hm rfl
  rw [Rx.Fails] at hf
  rw [hf] at ht
  simp at ht

/-- The precheck lets every match of an entry through. -/
theorem items_matches {l : List TzItem} {a w b str : List Char} (h : ItemsMatch l w) (e : str = a ++ w ++ b) :
    (itemsRx l).matches str = true := by
  unfold Rx.matches
  cases hf : (itemsRx l).find none str with
  | some m => rfl
  | none =>
    have := find_eq_none str none hf a (w ++ b) (by rw [e]; simp)
    obtain ⟨t, ht, _⟩ := (takes_items l).2 ⟨lastOr none a, w ++ b, []⟩ w b h rfl
    rw [Rx.Fails] at this
    rw [this] at ht; simp at ht

theorem popLoop_eq {str : List Char} : ∀ (t : List TzEntry) {str' : List Char} {z : Option Tz}, popLoop str t = (str', z) →
    (match z with
    | some z => ∃ e ∈ t, z = ⟨String.ofList e.name, e.offset⟩ ∧ ∃ g : Sight, g.text = str ∧ g.left = str' ∧ EntryMatch e g
    | none => str' = str ∧ ∀ e ∈ t, ∀ g : Sight, g.text = str → ¬ EntryMatch e g) := by
  intro t
  induction t with
  | nil =>
    intro str' z h
    simp only [popLoop, Prod.mk.injEq] at h
    obtain ⟨rfl, rfl⟩ := h
    simp
  | cons e r ih =>
    intro str' z h
    unfold popLoop at h
    split at h
    · rename_i m hm
      simp only [Prod.mk.injEq] at h
      obtain ⟨rfl, rfl⟩ := h
      exact ⟨e, by simp, rfl, entry_find_some hm⟩
    · rename_i hm
      have := ih h
      cases z with
      | some z =>
        obtain ⟨e', h1, h2⟩ := this
        exact ⟨e', by simp [h1], h2⟩
      | none =>
        refine ⟨this.1, ?_⟩
        intro e' he g hg
        rcases List.mem_cons.mp he with rfl | he
        · exact entry_find_none hm g hg
        · exact this.2 e' he g hg

/-- The precheck changes nothing. -/
theorem pop_eq_loop (t : List TzEntry) (str : List Char) : popTzOffset t str = popLoop str t := by
  unfold popTzOffset
  split
  · rfl
  · rename_i hs
    symm
    cases h : popLoop str t with
    | mk str' z =>
      have := popLoop_eq t h
      cases z with
      | none => rw [this.1]
      | some z =>
        exfalso; apply hs
        obtain ⟨e, he, _, g, hg, _, hm⟩ := this
        unfold tzSearch
        refine List.any_eq_true.mpr ⟨e, he, ?_⟩
        refine items_matches (a := g.before ++ [g.c]) (b := g.next.toList ++ g.rest) hm.1 ?_
        rw [← hg]; simp [Sight.text]


/-! ## The entries for offsets -/

def offsetName (neg : Bool) (h m : Nat) : List Char := "UTC".toList ++ signChar neg :: (two h ++ ':' :: two m)

def zoneNeg (z : List Char) : Bool := z.getD 3 ' ' == '-'
def zoneH (z : List Char) : Nat := ((z.getD 4 '0').toNat - 48) * 10 + ((z.getD 5 '0').toNat - 48)
def zoneM (z : List Char) : Nat := ((z.getD 7 '0').toNat - 48) * 10 + ((z.getD 8 '0').toNat - 48)

theorem utcZones_form {z : List Char × Int} (hz : z ∈ utcZones) :
    ∃ neg h m, h < 24 ∧ m < 60 ∧ z.1 = offsetName neg h m ∧ z.2 = seconds neg h m := by
  have key : ∀ z ∈ utcZones, zoneH z.1 < 24 ∧ zoneM z.1 < 60 ∧ z.1 = offsetName (zoneNeg z.1) (zoneH z.1) (zoneM z.1) ∧
      z.2 = seconds (zoneNeg z.1) (zoneH z.1) (zoneM z.1) := by decide +kernel
  exact ⟨_, _, _, key z hz⟩

theorem utcZones_unique : ∀ z ∈ utcZones, ∀ y ∈ utcZones, z.1 = y.1 → z = y := by decide +kernel

/-- Characters folding leaves alone. -/
def Fixed (c : Char) : Prop := ∀ x, foldC x = foldC c ↔ x = c

theorem fixed_of {c : Char} (h1 : c.isLower = false) (h2 : c ≠ '\u010d') (h3 : foldC c = c) : Fixed c := by
  intro x
  constructor
  · intro h; rw [h3] at h; exact foldC_plain h h1 h2
  · rintro rfl; rfl

theorem fixed_sign (neg : Bool) : Fixed (signChar neg) := by
  cases neg <;> exact fixed_of (by decide) (by decide) (by decide)
theorem fixed_colon : Fixed ':' := fixed_of (by decide) (by decide) (by decide)
theorem fixed_digit {n : Nat} (h : n < 10) : Fixed (digitChar n) := by
  have : ∀ k : Fin 10, (digitChar k.val).isLower = false ∧ digitChar k.val ≠ '\u010d' ∧ foldC (digitChar k.val) = digitChar k.val := by
    decide
  have := this ⟨n, h⟩
  exact fixed_of this.1 this.2.1 this.2.2

theorem items_lit (c : Char) (hc : Fixed c) (r : List TzItem) (w : List Char) :
    ItemsMatch (.lit c :: r) w ↔ ∃ q, w = c :: q ∧ ItemsMatch r q := by
  constructor
  · rintro ⟨p, q, rfl, ⟨x, rfl, hx⟩, hq⟩
    rw [(hc x).mp hx]
    exact ⟨q, rfl, hq⟩
  · rintro ⟨q, rfl, hq⟩
    exact ⟨[c], q, rfl, ⟨c, rfl, rfl⟩, hq⟩

theorem items_append (a b : List TzItem) (w : List Char) :
    ItemsMatch (a ++ b) w ↔ ∃ p q, w = p ++ q ∧ ItemsMatch a p ∧ ItemsMatch b q := by
  induction a generalizing w with
  | nil =>
    simp only [List.nil_append, ItemsMatch]
    constructor
    · intro h; exact ⟨[], w, rfl, rfl, h⟩
    · rintro ⟨p, q, rfl, rfl, h⟩; exact h
  | cons i a ih =>
    simp only [List.cons_append, ItemsMatch]
    constructor
    · rintro ⟨p, q, rfl, hi, hq⟩
      obtain ⟨p2, q2, rfl, h1, h2⟩ := (ih q).mp hq
      exact ⟨p ++ p2, q2, by simp, ⟨p, p2, rfl, hi, h1⟩, h2⟩
    · rintro ⟨p, q, rfl, ⟨p1, p2, rfl, hi, h1⟩, h2⟩
      exact ⟨p1, p2 ++ q, by simp, hi, (ih _).mpr ⟨p2, q, rfl, h1, h2⟩⟩

/-- A quoted text matches itself up to case. -/
theorem items_name (n w : List Char) : ItemsMatch (litItems n) w ↔ SameText w n := by
  induction n generalizing w with
  | nil => simp [litItems, ItemsMatch, SameText]
  | cons c n ih =>
    simp only [litItems, List.map_cons, ItemsMatch]
    constructor
    · rintro ⟨p, q, rfl, ⟨x, rfl, hx⟩, hq⟩
      have := (ih q).mp hq
      simp [SameText, hx] at this ⊢; exact this
    · intro h
      cases w with
      | nil => simp [SameText] at h
      | cons x w =>
        simp only [SameText, List.map_cons, List.cons.injEq] at h
        exact ⟨[x], w, rfl, ⟨x, rfl, h.1⟩, (ih w).mpr h.2⟩

/-- A quoted text of fixed characters matches itself only. -/
theorem items_fixed (n : List Char) (hn : ∀ c ∈ n, Fixed c) (w : List Char) : ItemsMatch (litItems n) w ↔ w = n := by
  induction n generalizing w with
  | nil => simp [litItems, ItemsMatch]
  | cons c n ih =>
    have : litItems (c :: n) = .lit c :: litItems n := rfl
    rw [this, items_lit c (hn c (by simp))]
    constructor
    · rintro ⟨q, rfl, hq⟩; rw [(ih (fun d hd => hn d (by simp [hd])) q).mp hq]
    · rintro rfl; exact ⟨n, rfl, (ih (fun d hd => hn d (by simp [hd])) n).mpr rfl⟩

theorem fixed_two {n : Nat} (h : n < 100) : ∀ c ∈ two n, Fixed c := by
  intro c hc
  simp only [two, List.mem_cons, List.not_mem_nil, or_false] at hc
  rcases hc with rfl | rfl
  · exact fixed_digit (by omega)
  · exact fixed_digit (by omega)

theorem items_utc (r : List TzItem) (w : List Char) :
    ItemsMatch (.utcGmt :: r) w ↔ ∃ p q, w = p ++ q ∧ UtcOrGmt p ∧ ItemsMatch r q := Iff.rfl

theorem items_utcname (pre : List Char) (l : List Char) (w : List Char) :
    ItemsMatch (litItems (pre ++ l)) w ↔ ∃ p q, w = p ++ q ∧ SameText p pre ∧ ItemsMatch (litItems l) q := by
  have : litItems (pre ++ l) = litItems pre ++ litItems l := by simp [litItems]
  rw [this, items_append]
  simp only [items_name pre]


theorem fixed_main (neg : Bool) {h m : Nat} (hh : h < 24) (hm : m < 60) (colon : Bool) :
    ∀ c ∈ signChar neg :: (two h ++ (if colon then [':'] else []) ++ two m), Fixed c := by
  intro c hc
  simp only [List.mem_cons, List.mem_append] at hc
  rcases hc with rfl | (hc | hc) | hc
  · exact fixed_sign neg
  · exact fixed_two (by omega) c hc
  · cases colon with
    | false => simp at hc
    | true => have : c = ':' := by simpa using hc
              subst this; exact fixed_colon
  · exact fixed_two (by omega) c hc

/-- A quoted offset with UTC or GMT. -/
theorem quoted_full (pre : List Char) (hp : pre = "UTC".toList ∨ pre = "GMT".toList) (neg : Bool) {h m : Nat} (hh : h < 24)
    (hm : m < 60) (colon : Bool) {w : List Char}
    (hw : ItemsMatch (litItems (pre ++ signChar neg :: (two h ++ (if colon then [':'] else []) ++ two m))) w) :
    OffsetText neg h m w := by
  obtain ⟨p, q, rfl, h1, h2⟩ := (items_utcname _ _ _).mp hw
  rw [items_fixed _ (fixed_main neg hh hm colon)] at h2
  subst h2
  have := OffsetText.full (neg := neg) (h := h) (m := m) p (by
      rcases hp with rfl | rfl
      · exact Or.inl h1
      · exact Or.inr h1) colon []
    (by simp)
  simpa using this

theorem digit_zero {n : Nat} (hn : n < 10) (h : digitChar n = '0') : n = 0 := by
  have : ∀ k : Fin 10, digitChar k.val = '0' → k.val = 0 := by decide
  exact this ⟨n, hn⟩ h

/-- The texts the patterns of one offset match. -/
theorem alt_items (k : Nat) (neg : Bool) (h m : Nat) (hh : h < 24) (hm : m < 60) (w : List Char)
    (hw : ItemsMatch (altItems k (offsetName neg h m)) w) : OffsetText neg h m w := by
  have hname : ItemsMatch (litItems (offsetName neg h m)) w → OffsetText neg h m w :=
    fun h1 => quoted_full "UTC".toList (Or.inl rfl) neg hh hm true h1
  have e : offsetName neg h m = ['U', 'T', 'C', signChar neg, digitChar (h / 10), digitChar (h % 10), ':',
    digitChar (m / 10), digitChar (m % 10)] := rfl
  unfold altItems at hw
  simp only [e] at hw
  rw [← e] at hw
  split at hw
  · split at hw
    · rename_i hz
      have h1 := digit_zero (by omega) hz.1
      have h2 := digit_zero (by omega) hz.2.1
      have h3 := digit_zero (by omega) hz.2.2
      obtain ⟨p, q, rfl, hp, hq⟩ := hw
      rw [items_fixed _ (by
        intro c hc
        simp only [List.mem_cons, List.not_mem_nil, or_false] at hc
        rcases hc with rfl | rfl
        · exact fixed_sign neg
        · exact fixed_digit (by omega))] at hq
      subst hq
      rw [show h % 10 = h by omega]
      exact .short p hp (by omega) (by omega)
    · exact hname hw
  · split at hw
    · split at hw
      · rename_i hz
        have h1 := digit_zero (by omega) hz
        obtain ⟨p, q, rfl, hp, hq⟩ := hw
        rw [items_fixed _ (by
          intro c hc
          simp only [List.mem_cons, List.not_mem_nil, or_false] at hc
          rcases hc with rfl | rfl | rfl | rfl | rfl
          · exact fixed_sign neg
          · exact fixed_digit (by omega)
          · exact fixed_colon
          · exact fixed_digit (by omega)
          · exact fixed_digit (by omega))] at hq
        subst hq
        rw [show h % 10 = h by omega]
        exact .shortMin p hp (by omega)
      · exact hname hw
    · split at hw
      · split at hw
        · rename_i hz
          have h2 := digit_zero (by omega) hz.1
          have h3 := digit_zero (by omega) hz.2
          obtain ⟨p, q, rfl, hp, hq⟩ := hw
          rw [items_fixed _ (by
            intro c hc
            simp only [List.mem_cons, List.not_mem_nil, or_false] at hc
            rcases hc with rfl | rfl | rfl
            · exact fixed_sign neg
            · exact fixed_digit (by omega)
            · exact fixed_digit (by omega))] at hq
          subst hq
          exact .hours p hp (by omega)
        · exact hname hw
      · split at hw
        · obtain ⟨p, q, rfl, hp, hq⟩ := hw
          obtain ⟨a, b, rfl, ha, hb⟩ := (items_append _ _ _).mp hq
          rw [items_fixed _ (by
            intro c hc
            simp only [List.mem_cons, List.not_mem_nil, or_false] at hc
            rcases hc with rfl | rfl | rfl
            · exact fixed_sign neg
            · exact fixed_digit (by omega)
            · exact fixed_digit (by omega))] at ha
          subst ha
          obtain ⟨c, d, rfl, hc, hd⟩ := hb
          obtain ⟨x, y, rfl, hx, hy⟩ := (items_append _ _ _).mp hd
          rw [items_fixed _ (by
            intro c hc
            simp only [List.mem_cons, List.not_mem_nil, or_false] at hc
            rcases hc with rfl | rfl
            · exact fixed_digit (by omega)
            · exact fixed_digit (by omega))] at hx
          subst hx
          obtain ⟨f, g, rfl, hf, hg⟩ := hy
          have hg : g = [] := hg
          subst hg
          have hf : '\n' ∉ f := hf
          rcases hc with rfl | rfl
          · have := OffsetText.full (neg := neg) (h := h) (m := m) p hp false f hf
            simpa [two] using this
          · have := OffsetText.full (neg := neg) (h := h) (m := m) p hp true f hf
            simpa [two] using this
        · split at hw
          · have := (items_fixed _ (fixed_main neg hh hm true) w).mp hw
            subst this
            exact .plain true
          · split at hw
            · exact quoted_full "UTC".toList (Or.inl rfl) neg hh hm false hw
            · split at hw
              · have := (items_fixed _ (fixed_main neg hh hm false) w).mp hw
                subst this
                exact .plain false
              · exact quoted_full "GMT".toList (Or.inr rfl) neg hh hm true hw

theorem offsetText_alt {neg : Bool} {h m : Nat} (hh : h < 24) (hm : m < 60) {w : List Char} (hw : OffsetText neg h m w) :
    ∃ k < 8, ItemsMatch (altItems k (offsetName neg h m)) w := by
  have e : offsetName neg h m = ['U', 'T', 'C', signChar neg, digitChar (h / 10), digitChar (h % 10), ':',
    digitChar (m / 10), digitChar (m % 10)] := rfl
  have hself : ∀ n : List Char, ItemsMatch (litItems n) n := fun n => (items_name n n).mpr rfl
  cases hw with
  | plain colon =>
    cases colon with
    | true => exact ⟨4, by omega, hself _⟩
    | false => exact ⟨6, by omega, hself _⟩
  | full p hp colon tail ht =>
    refine ⟨3, by omega, p, _, rfl, hp, ?_⟩
    refine (items_append (litItems _) _ _).mpr ⟨signChar neg :: two h, (if colon then [':'] else []) ++ two m ++ tail, by simp, hself _, ?_⟩
    refine ⟨if colon then [':'] else [], two m ++ tail, by simp, ?_, ?_⟩
    · cases colon
      · exact Or.inl rfl
      · exact Or.inr rfl
    · refine (items_append (litItems _) _ _).mpr ⟨two m, tail, rfl, hself _, tail, [], by simp, ht, rfl⟩
  | hours p hp hm0 =>
    subst hm0
    exact ⟨2, by omega, p, _, rfl, hp, hself _⟩
  | short p hp h10 hm0 =>
    subst hm0
    refine ⟨0, by omega, ?_⟩
    unfold altItems
    simp only [e]
    have h0 : h / 10 = 0 := by omega
    rw [h0, if_pos trivial, if_pos (by decide), show h % 10 = h by omega]
    exact ⟨p, _, rfl, hp, hself _⟩
  | shortMin p hp h10 =>
    refine ⟨1, by omega, ?_⟩
    unfold altItems
    simp only [e]
    have h0 : h / 10 = 0 := by omega
    rw [h0, if_neg (by decide), if_pos trivial, if_pos (by decide), show h % 10 = h by omega]
    exact ⟨p, _, rfl, hp, hself _⟩

end Verif.Lemmas
