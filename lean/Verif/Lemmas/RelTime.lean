import Verif.Lemmas.RelPhrase
import Verif.Spec.Clock
/-! Helper lemmas: a relative date followed by a time of day. -/
set_option autoImplicit false
namespace Verif.Lemmas
open Verif.Go Verif.Model Verif.Spec

/-! ### The words "in" and "ago" taken out -/

/-- What is left of a text when matches are taken out. -/
def Rx.leftFuel (r : Rx) (n : Nat) (p : Option Char) (s : List Char) : List Char :=
  ((r.findAllFuel n p s).1.map (·.before)).flatten ++ (r.findAllFuel n p s).2

theorem deleteAll_left (r : Rx) (s : List Char) : r.deleteAll s = Rx.leftFuel r (s.length + 1) none s := rfl

theorem inago_fails_gap {p : Option Char} {c : Char} {s : List Char} (h : isWordC c = false) :
    rxInAgo.Fails ⟨p, c :: s, []⟩ := by
  unfold Rx.Fails rxInAgo
  rw [List.eq_nil_iff_forall_not_mem]
  intro t ht
  simp only [Rx.run, List.mem_flatMap, List.mem_append] at ht
  obtain ⟨u, hu, v, hv, _⟩ := ht
  split at hu
  · simp only [List.mem_singleton] at hu
    subst hu
    rcases hv with hv | hv
    · obtain ⟨a, e, ha⟩ := rxCi_mem "ago".toList (by decide) (by decide) _ _ hv
      cases a with
      | nil => simp [toLower] at ha
      | cons x a =>
        simp at e
        rw [e.1] at h
        have : isWordC (toLowerC x) = true := by
          simp [toLower] at ha; rw [ha.1]; decide
        rw [lower_word this] at h; simp at h
    · obtain ⟨a, e, ha⟩ := rxCi_mem "in".toList (by decide) (by decide) _ _ hv
      cases a with
      | nil => simp [toLower] at ha
      | cons x a =>
        simp at e
        rw [e.1] at h
        have : isWordC (toLowerC x) = true := by
          simp [toLower] at ha; rw [ha.1]; decide
        rw [lower_word this] at h; simp at h
  · simp at hu

theorem inago_first {a r : List Char} {p : Option Char} (ha : toLower a = "in".toList ∨ toLower a = "ago".toList)
    (hp : optWord p = false) (hr : optWord r.head? = false) :
    rxInAgo.First ⟨p, a ++ r, []⟩ ⟨lastOr p a, r, []⟩ := by
  have hane : a ≠ [] := by rintro rfl; simp [toLower] at ha
  have haw : ∀ c ∈ a, isWordC c = true := by
    rcases ha with h | h
    · exact word_of_lower h (fun c hc => (in_words c hc).1)
    · exact word_of_lower h (fun c hc => (ago_words c hc).1)
  have h1 : Rx.wb.First ⟨p, a ++ r, []⟩ ⟨p, a ++ r, []⟩ := by
    cases a with
    | nil => exact absurd rfl hane
    | cons x a =>
      have := haw x (by simp)
      refine ⟨[], ?_⟩
      cases p with
      | none => simp [Rx.run, optWord, this]
      | some y => simp [optWord] at hp; simp [Rx.run, optWord, this, hp]
  have h3 : Rx.wb.First ⟨lastOr p a, r, []⟩ ⟨lastOr p a, r, []⟩ := by
    refine ⟨[], ?_⟩
    have hl : optWord (lastOr p a) = true := by
      unfold lastOr
      cases hg : a.getLast? with
      | none => simp at hg; exact absurd hg hane
      | some y => simp [optWord, haw y (List.mem_of_getLast? hg)]
    simp [Rx.run, hl, hr]
  have h2 : (Rx.alt (rxCi "ago".toList) (rxCi "in".toList)).First ⟨p, a ++ r, []⟩ ⟨lastOr p a, r, []⟩ := by
    rcases ha with h | h
    · refine Rx.First.right ?_ ⟨[], rxCi_run _ a p r [] h⟩
      unfold Rx.Fails
      rw [List.eq_nil_iff_forall_not_mem]
      intro t ht
      obtain ⟨b, e, hb⟩ := rxCi_mem "ago".toList (by decide) (by decide) _ _ ht
      cases a with
      | nil => exact hane rfl
      | cons x a =>
        cases b with
        | nil => simp [toLower] at hb
        | cons y b =>
          simp at e
          simp [toLower] at h hb
          rw [e.1, hb.1] at h
          exact absurd h.1 (by decide)
    · exact Rx.First.left ⟨[], rxCi_run _ a p r [] h⟩
  exact Rx.First.seq h1 (Rx.First.seq h2 h3)

/-- One word taken out. -/
theorem left_word {n : Nat} {p : Option Char} {pre a r : List Char} (hpre : ∀ c ∈ pre, isWordC c = false)
    (hp : optWord (lastOr p pre) = false) (ha : toLower a = "in".toList ∨ toLower a = "ago".toList)
    (hr : optWord r.head? = false) :
    Rx.leftFuel rxInAgo (n + 1) p (pre ++ (a ++ r)) = pre ++ Rx.leftFuel rxInAgo n (lastOr (lastOr p pre) a) r := by
  have hane : a ≠ [] := by rintro rfl; simp [toLower] at ha
  have hfind := find_skip (r := rxInAgo) pre (a ++ r) p (by
    intro x y e hy
    cases y with
    | nil => exact absurd rfl hy
    | cons c y => exact inago_fails_gap (hpre c (by rw [e]; simp)))
  rw [find_here (inago_first ha hp hr), take_sub] at hfind
  simp only [Option.map_some, List.append_nil] at hfind
  unfold Rx.leftFuel
  rw [findAllFuel_step hfind hane]
  simp

theorem left_none {n : Nat} {p : Option Char} {s : List Char} (h : rxInAgo.find p s = none) :
    Rx.leftFuel rxInAgo n p s = s := by
  unfold Rx.leftFuel
  rw [findAllFuel_none h]
  rfl

/-- No "in" and no "ago". -/
theorem inago_none {s : List Char} (h1 : Chain (NotWord "in".toList) s) (h2 : Chain (NotWord "ago".toList) s) (p : Option Char) :
    rxInAgo.find p s = none := by
  have f1 := rxWord_none (w := "in".toList) (by decide) (by decide) (by decide) (fun c hc => (in_words c hc).1) h1
  have f2 := rxWord_none (w := "ago".toList) (by decide) (by decide) (by decide) (fun c hc => (ago_words c hc).1) h2
  have here : ∀ {r : Rx} {p : Option Char} {s : List Char}, r.find p s = none →
      ∀ a b, s = a ++ b → r.Fails ⟨lastOr p a, b, []⟩ := by
    intro r p s h a b e
    subst e
    unfold Rx.Fails
    cases hr : r.run ⟨lastOr p a, b, []⟩ with
    | nil => rfl
    | cons t l =>
      have := find_isSome (r := r) a p b (by rw [hr]; simp)
      rw [h] at this; simp at this
  apply find_none
  intro a b e
  have g1 := here (f1 p) a b e
  have g2 := here (f2 p) a b e
  unfold Rx.Fails at *
  rw [List.eq_nil_iff_forall_not_mem] at *
  intro t ht
  simp only [rxInAgo, Rx.run, List.mem_flatMap, List.mem_append] at ht
  obtain ⟨u, hu, v, hv | hv, hw⟩ := ht
  · apply g2 t
    simp only [rxWord, Rx.run, List.mem_flatMap]
    exact ⟨u, hu, v, hv, hw⟩
  · apply g1 t
    simp only [rxWord, Rx.run, List.mem_flatMap]
    exact ⟨u, hu, v, hv, hw⟩

/-! ### No unit in a text -/

theorem rxCi_letters (w : List Char) : ∀ (s t : MSt), t ∈ (rxCi w).run s →
    ∀ x ∈ w, ∃ c ∈ s.rest, ciMatch x c = true := by
  induction w with
  | nil => intro s t _ x hx; simp at hx
  | cons y w ih =>
    intro s t h x hx
    simp only [rxCi, Rx.run, List.mem_flatMap] at h
    obtain ⟨u, hu, ht⟩ := h
    cases hr : s.rest with
    | nil => simp [hr] at hu
    | cons c r =>
      simp only [hr] at hu
      split at hu
      · rename_i hc
        simp only [List.mem_singleton] at hu
        subst hu
        rcases List.mem_cons.mp hx with rfl | hx
        · exact ⟨c, by simp, hc⟩
        · obtain ⟨d, hd, h⟩ := ih _ t ht x hx
          exact ⟨d, by simp at hd; simp [hd], h⟩
      · simp at hu

theorem mem_alts_run {l : List Rx} {s t : MSt} (h : t ∈ (Rx.alts l).run s) : ∃ r ∈ l, t ∈ r.run s := by
  induction l with
  | nil =>
    cases hr : s.rest with
    | nil => simp [Rx.alts, Rx.run, hr] at h
    | cons c r => simp [Rx.alts, Rx.run, hr] at h
  | cons a l ih =>
    cases l with
    | nil => exact ⟨a, by simp, h⟩
    | cons b l =>
      simp only [Rx.alts, Rx.run, List.mem_append] at h
      rcases h with h | h
      · exact ⟨a, by simp, h⟩
      · obtain ⟨r, hr, h⟩ := ih h
        exact ⟨r, by simp [hr], h⟩

/-- Letters one of which is in every unit. -/
def unitLetter (c : Char) : Bool := ['d', 'y', 'o', 'w', 'h', 'i', 'e'].any fun x => ciMatch x c

/-- Without these letters there is no unit. -/
theorem rel_none_letters {s : List Char} (h : ∀ c ∈ s, unitLetter c = false) (p : Option Char) :
    rxRelativePattern.find p s = none := by
  apply find_none
  intro a b e
  unfold Rx.Fails
  rw [List.eq_nil_iff_forall_not_mem]
  intro t ht
  unfold rxRelativePattern at ht
  rw [Rx.run, List.mem_flatMap] at ht
  obtain ⟨u, hu, ht⟩ := ht
  rw [Rx.run, List.mem_flatMap] at ht
  obtain ⟨v, hv, ht⟩ := ht
  rw [Rx.run, List.mem_flatMap] at ht
  obtain ⟨w, hw, _⟩ := ht
  obtain ⟨x1, e1⟩ := Rx.run_suffix _ _ _ hu
  obtain ⟨x2, e2⟩ := Rx.run_suffix _ _ _ hv
  rw [Rx.run, List.mem_map] at hw
  obtain ⟨w', hw, _⟩ := hw
  unfold rxUnits at hw
  obtain ⟨r, hr, hw⟩ := mem_alts_run hw
  rw [List.mem_map] at hr
  obtain ⟨nm, hn, rfl⟩ := hr
  have key : ∃ x, x ∈ nm ∧ x ∈ ['d', 'y', 'o', 'w', 'h', 'i', 'e'] := by
    have : ∀ nm ∈ relativeUnits, nm.any (fun x => ['d', 'y', 'o', 'w', 'h', 'i', 'e'].contains x) = true := by decide
    have := this nm hn
    rw [List.any_eq_true] at this
    obtain ⟨x, hx, hc⟩ := this
    exact ⟨x, hx, by simpa using hc⟩
  obtain ⟨x, hx, hl⟩ := key
  obtain ⟨c, hc, hm⟩ := rxCi_letters nm _ _ hw x hx
  have hcs : c ∈ s := by
    simp only at e1
    rw [e, e1, e2]
    simp [hc]
  have := h c hcs
  unfold unitLetter at this
  rw [List.any_eq_false] at this
  exact this x hl hm

/-! ### A time of day as the tail of a phrase -/

theorem digit_letter {c : Char} (h : c.isDigit = true) : unitLetter c = false := by
  unfold Char.isDigit at h
  simp only [Bool.and_eq_true, decide_eq_true_eq] at h
  have h1 : 48 ≤ c.toNat := h.1
  have h2 : c.toNat ≤ 57 := h.2
  have : ∀ n : Nat, n < 58 → 48 ≤ n → unitLetter (Char.ofNat n) = false := by decide
  have := this c.toNat (by omega) h1
  rwa [Char.ofNat_toNat] at this

theorem blank_letter {c : Char} (h : IsBlank c) : unitLetter c = false := by
  rcases h with rfl | rfl | rfl | rfl | rfl <;> decide

theorem mer_chars {mer : List Char} {mr : Meridian} (h : IsMeridian mer mr) :
    ∃ x y, mer = [x, y] ∧ (toLowerC x = 'a' ∨ toLowerC x = 'p') ∧ toLowerC y = 'm' := by
  cases mr with
  | am => obtain ⟨x, y, e, h1, h2⟩ := two_letters (c := 'a') (d := 'm') h; exact ⟨x, y, e, Or.inl h1, h2⟩
  | pm => obtain ⟨x, y, e, h1, h2⟩ := two_letters (c := 'p') (d := 'm') h; exact ⟨x, y, e, Or.inr h1, h2⟩

theorem lower_letter {c l : Char} (h : toLowerC c = l) (hl : l = 'a' ∨ l = 'p' ∨ l = 'm') :
    unitLetter c = false ∧ isBrace c = false ∧ isWordC c = true := by
  have hw : isWordC c = true := by
    apply lower_word; rw [h]; rcases hl with rfl | rfl | rfl <;> decide
  refine ⟨?_, word_brace hw, hw⟩
  unfold unitLetter
  rw [List.any_eq_false]
  intro x hx
  unfold ciMatch
  simp only [h]
  have hx' : x ≠ 'k' ∧ x ≠ 's' ∧ l ≠ x := by
    rcases hl with rfl | rfl | rfl <;>
      (simp only [List.mem_cons, List.not_mem_nil, or_false] at hx; rcases hx with rfl | rfl | rfl | rfl | rfl | rfl | rfl <;> decide)
  simp [hx'.1, hx'.2.1, hx'.2.2]

/-- A text of numbers, separators and a meridian. -/
structure ClockChain (s : List Char) : Prop where
  letters : ∀ c ∈ s, unitLetter c = false ∧ isBrace c = false
  chain : ∀ Q : List Char → Prop, (∀ d r, d.isDigit = true → Q (d :: r)) →
    (∀ x y, (toLowerC x = 'a' ∨ toLowerC x = 'p') → toLowerC y = 'm' → Q [x, y]) → Chain Q s

theorem ClockChain.nil : ClockChain [] := ⟨by simp, fun _ _ _ => Chain.nil⟩

theorem ClockChain.gap {c : Char} {s : List Char} (hw : isWordC c = false) (hl : unitLetter c = false) (hb : isBrace c = false)
    (h : ClockChain s) : ClockChain (c :: s) :=
  ⟨by intro x hx; rcases List.mem_cons.mp hx with rfl | hx; exact ⟨hl, hb⟩; exact h.letters x hx,
   fun Q q1 q2 => Chain.gap c s hw (h.chain Q q1 q2)⟩

theorem ClockChain.num {d s : List Char} (hd : IsNumeral d) (h : ClockChain s) : ClockChain (d ++ s) := by
  refine ⟨?_, ?_⟩
  · intro x hx
    rcases List.mem_append.mp hx with hx | hx
    · exact ⟨digit_letter (hd.2 x hx), word_brace (digit_word (hd.2 x hx))⟩
    · exact h.letters x hx
  · intro Q q1 q2
    refine Chain.word d s hd.1 (fun c hc => digit_word (hd.2 c hc)) ?_ (h.chain Q q1 q2)
    obtain ⟨hne, hall⟩ := hd
    cases d with
    | nil => exact absurd rfl hne
    | cons c d => exact q1 c d (hall c (by simp))

theorem ClockChain.num' {d : List Char} (hd : IsNumeral d) : ClockChain d := by
  have := ClockChain.num hd ClockChain.nil
  simpa using this

theorem ClockChain.mer {mer : List Char} {mr : Meridian} (h : IsMeridian mer mr) : ClockChain mer := by
  obtain ⟨x, y, rfl, h1, h2⟩ := mer_chars h
  have lx : unitLetter x = false ∧ isBrace x = false ∧ isWordC x = true := by
    rcases h1 with h1 | h1 <;> exact lower_letter h1 (by simp)
  have ly := lower_letter h2 (by simp)
  refine ⟨?_, ?_⟩
  · intro c hc
    simp only [List.mem_cons, List.not_mem_nil, or_false] at hc
    rcases hc with rfl | rfl
    · exact ⟨lx.1, lx.2.1⟩
    · exact ⟨ly.1, ly.2.1⟩
  · intro Q _ q2
    have := Chain.word (Q := Q) [x, y] [] (by simp) (by
      intro c hc
      simp only [List.mem_cons, List.not_mem_nil, or_false] at hc
      rcases hc with rfl | rfl
      · exact lx.2.2
      · exact ly.2.2) (q2 x y h1 h2) Chain.nil
    simpa using this

theorem notation_chain {n : Notation} {mr : Meridian} (h : n.Written mr) : ClockChain n.text := by
  have col : ∀ {s}, ClockChain s → ClockChain (':' :: s) := fun h => ClockChain.gap (by decide) (by decide) (by decide) h
  have spc : ∀ {s}, ClockChain s → ClockChain (' ' :: s) := fun h => ClockChain.gap (by decide) (by decide) (by decide) h
  have dot : ∀ {s}, ClockChain s → ClockChain ('.' :: s) := fun h => ClockChain.gap (by decide) (by decide) (by decide) h
  cases n with
  | hour h' mer => exact ClockChain.num h.1.1 (spc (ClockChain.mer h.2))
  | hm h' m => exact ClockChain.num h.1.1 (col (ClockChain.num' h.2.1))
  | hmMer h' m mer => exact ClockChain.num h.1.1 (col (ClockChain.num h.2.1.1 (spc (ClockChain.mer h.2.2))))
  | hms h' m s => exact ClockChain.num h.1.1 (col (ClockChain.num h.2.1.1 (col (ClockChain.num' h.2.2.1))))
  | hmsFrac h' m s f =>
    exact ClockChain.num h.1.1 (col (ClockChain.num h.2.1.1 (col (ClockChain.num h.2.2.1.1 (dot (ClockChain.num' h.2.2.2))))))
  | hmsMer h' m s mer =>
    exact ClockChain.num h.1.1 (col (ClockChain.num h.2.1.1 (col (ClockChain.num h.2.2.1.1 (spc (ClockChain.mer h.2.2.2))))))
  | hmsFracMer h' m s f mer =>
    exact ClockChain.num h.1.1 (col (ClockChain.num h.2.1.1 (col (ClockChain.num h.2.2.1.1
      (dot (ClockChain.num h.2.2.2.1 (spc (ClockChain.mer h.2.2.2.2))))))))

theorem blank_brace {c : Char} (h : IsBlank c) : isBrace c = false := by
  rcases h with rfl | rfl | rfl | rfl | rfl <;> decide

/-- White space and a time of day may end a phrase. -/
theorem tail_clock {g : List Char} {n : Notation} {mr : Meridian} (hg : ∀ c ∈ g, IsBlank c) (hne : g ≠ [])
    (h : n.Written mr) : TailOK (g ++ n.text) := by
  have hc : ClockChain (g ++ n.text) := by
    clear hne
    induction g with
    | nil => exact notation_chain h
    | cons c g ih =>
      exact ClockChain.gap (blank_not_word (hg c (by simp))) (blank_letter (hg c (by simp))) (blank_brace (hg c (by simp)))
        (ih fun x hx => hg x (by simp [hx]))
  refine ⟨fun c h => (hc.letters c h).2, ?_, ?_, ?_, ?_, rel_none_letters fun c h => (hc.letters c h).1⟩
  · intro c hx
    cases g with
    | nil => exact absurd rfl hne
    | cons d g => simp at hx; subst hx; exact blank_not_word (hg _ (by simp))
  · apply hc.chain
    · intro d r hd; exact ⟨[d], r, rfl, Or.inr (Or.inl ⟨d, rfl, hd⟩)⟩
    · intro x y hx hy
      refine ⟨[x, y], [], rfl, ?_⟩
      rcases hx with hx | hx
      · exact Or.inr (Or.inr (Or.inr (Or.inr (Or.inl (by simp [toLower, hx, hy])))))
      · exact Or.inr (Or.inr (Or.inr (Or.inr (Or.inr (by simp [toLower, hx, hy])))))
  · apply hc.chain
    · intro d r hd; exact NotWord.first (digit_not_in hd 'i' (by decide))
    · intro x y hx hy
      apply NotWord.first
      rcases hx with hx | hx <;> rw [hx] <;> decide
  · apply hc.chain
    · intro d r hd; exact NotWord.first (digit_not_in hd 'a' (by decide))
    · intro x y hx hy s' a r e ha
      match a, ha with
      | [], ha => simp [toLower] at ha
      | [_], ha => simp [toLower] at ha
      | a1 :: a2 :: a, ha =>
        simp [toLower] at ha
        simp at e
        rw [← e.2.1, hy] at ha
        exact absurd ha.2.1 (by decide)

end Verif.Lemmas
