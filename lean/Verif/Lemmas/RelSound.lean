import Verif.Lemmas.RelMove
import Verif.Spec.RelativeSound
/-! Helper lemmas: whatever the relative parser finds in a text is an amount with its unit. -/
set_option autoImplicit false
namespace Verif.Lemmas
open Verif.Go Verif.Model Verif.Spec

theorem plain_suffix {a b : List Char} (h : Plain (a ++ b)) : Plain b := fun c hc => h c (by simp [hc])

theorem ciMatch_plain {c x : Char} (hx : toLowerC x = x ∧ x ≠ '\u212a' ∧ x ≠ '\u017f') : ciMatch c x = true ↔ x = c := by
  unfold ciMatch
  simp [hx.1, hx.2.1, hx.2.2]

theorem mem_chr {q : Char → Bool} {s t : MSt} (h : t ∈ (Rx.chr q).run s) :
    ∃ c r, s.rest = c :: r ∧ q c = true ∧ t = ⟨some c, r, s.caps⟩ := by
  unfold Rx.run at h
  split at h
  · rename_i c r hr
    split at h
    · rename_i hq
      simp at h
      exact ⟨c, r, hr, hq, h⟩
    · simp at h
  · simp at h

theorem mem_seq {a b : Rx} {s t : MSt} : t ∈ (Rx.seq a b).run s ↔ ∃ u, u ∈ a.run s ∧ t ∈ b.run u := by
  simp only [Rx.run, List.mem_flatMap]
theorem mem_opt {a : Rx} {s t : MSt} : t ∈ (Rx.opt a).run s ↔ t ∈ a.run s ∨ t = s := by
  simp only [Rx.run, List.mem_append, List.mem_singleton]
theorem mem_grp {n : Nat} {a : Rx} {s t : MSt} : t ∈ (Rx.grp n a).run s ↔
    ∃ u, u ∈ a.run s ∧ { u with caps := (n, s.rest.take (s.rest.length - u.rest.length)) :: u.caps } = t := by
  simp only [Rx.run, List.mem_map]
theorem mem_wb {s t : MSt} : t ∈ Rx.wb.run s ↔ (optWord s.prev != optWord s.rest.head?) = true ∧ t = s := by
  simp only [Rx.run]
  split <;> simp_all

theorem mem_star_chr {q : Char → Bool} : ∀ (n : Nat) (s t : MSt), t ∈ starRun (Rx.chr q).run n s →
    ∃ w, s.rest = w ++ t.rest ∧ (∀ x ∈ w, q x = true) ∧ t.caps = s.caps := by
  intro n
  induction n with
  | zero => intro s t h; simp [starRun] at h; exact ⟨[], by simp [h]⟩
  | succ n ih =>
    intro s t h
    simp only [starRun, List.mem_append, List.mem_flatMap, List.mem_filter, List.mem_singleton] at h
    rcases h with ⟨u, ⟨hu, _⟩, h2⟩ | h
    · obtain ⟨c, r, e, hq, rfl⟩ := mem_chr hu
      obtain ⟨w, e2, hw, hc⟩ := ih _ t h2
      exact ⟨c :: w, by rw [e]; exact congrArg (c :: ·) e2, by
        intro x hx
        rcases List.mem_cons.mp hx with rfl | hx
        · exact hq
        · exact hw x hx, hc⟩
    · exact ⟨[], by simp [h]⟩

theorem mem_ci {w : List Char} : ∀ (s t : MSt), Plain s.rest → t ∈ (rxCi w).run s →
    s.rest = w ++ t.rest ∧ t.prev = lastOr s.prev w ∧ t.caps = s.caps := by
  induction w with
  | nil => intro s t _ h; simp [rxCi, Rx.run] at h; subst h; exact ⟨rfl, rfl, rfl⟩
  | cons c w ih =>
    intro s t hp h
    simp only [rxCi, Rx.run, List.mem_flatMap] at h
    obtain ⟨u, hu, h⟩ := h
    obtain ⟨x, r, e, hq, rfl⟩ := mem_chr hu
    rw [e] at hp
    have hx := (ciMatch_plain (hp x (by simp))).mp hq
    obtain ⟨e2, h2, h3⟩ := ih ⟨some x, r, s.caps⟩ t (fun y hy => hp y (by simp [hy])) h
    subst hx
    exact ⟨by rw [e]; simpa using e2, by rw [h2, lastOr_cons], h3⟩

theorem mem_alts : ∀ (l : List Rx) (s t : MSt), t ∈ (Rx.alts l).run s → ∃ r ∈ l, t ∈ r.run s := by
  intro l
  induction l with
  | nil =>
    intro s t h
    simp only [Rx.alts, Rx.run, List.mem_append] at h
    rcases h with h | h <;> (split at h <;> simp at h)
  | cons a l ih =>
    intro s t h
    cases l with
    | nil => exact ⟨a, by simp, h⟩
    | cons b l =>
      simp only [Rx.alts, Rx.run, List.mem_append] at h
      rcases h with h | h
      · exact ⟨a, by simp, h⟩
      · obtain ⟨r, hr, h⟩ := ih s t h
        exact ⟨r, by simp only [List.mem_cons] at hr ⊢; exact Or.inr hr, h⟩

theorem units_names : relativeUnits = [RelUnit.decade, .year, .month, .week, .day, .hour, .minute, .second].map RelUnit.name := rfl

theorem mem_units {s t : MSt} (hp : Plain s.rest) (h : t ∈ rxUnits.run s) :
    ∃ u : RelUnit, s.rest = u.name ++ t.rest ∧ t.prev = lastOr s.prev u.name ∧ t.caps = s.caps := by
  unfold rxUnits at h
  obtain ⟨r, hr, h⟩ := mem_alts _ _ _ h
  rw [units_names] at hr
  simp only [List.map_map, List.mem_map] at hr
  obtain ⟨u, _, rfl⟩ := hr
  exact ⟨u, mem_ci s t hp h⟩

/-- Whatever the pattern matches is an amount with its unit. -/
theorem rel_mem {p : Option Char} {s : List Char} {t : MSt} (hp : Plain s) (h : t ∈ rxRelativePattern.run ⟨p, s, []⟩) :
    ∃ i, BeginsWith s i t.rest := by
  unfold rxRelativePattern at h
  simp only [mem_seq, mem_grp, mem_wb] at h
  obtain ⟨t1, ⟨a, ha, rfl⟩, t2, h2, t3, ⟨b, hb, rfl⟩, hbd, rfl⟩ := h
  -- the amount
  unfold rxAmount Rx.plus Rx.digit at ha
  simp only [mem_seq, mem_opt] at ha
  obtain ⟨b1, ⟨b0, hb0, hb1⟩, b2, hb2, hb3⟩ := ha
  obtain ⟨d, r0, e0, hd, rfl⟩ := mem_chr hb0
  obtain ⟨w1, e1, hw1, _⟩ := mem_star_chr _ _ _ hb1
  obtain ⟨w3, e3, hw3, _⟩ := mem_star_chr _ _ _ hb3
  obtain ⟨g, e4, hg, _⟩ := mem_star_chr _ _ _ h2
  dsimp only at e0 e1 e4
  -- the optional separator
  have hsep : ∃ (wh : List Char) (fr : Option (Char × List Char)), IsNumeral wh ∧
      (∀ c f, fr = some (c, f) → (c = '.' ∨ c = ',') ∧ ∀ x ∈ f, x.isDigit = true) ∧
      s = (wh ++ match fr with | none => [] | some (c, f) => c :: f) ++ a.rest := by
    rcases hb2 with hb2 | rfl
    · obtain ⟨c, r, e, hc, rfl⟩ := mem_chr hb2
      refine ⟨d :: w1, some (c, w3), ⟨by simp, ?_⟩, ?_, ?_⟩
      · intro x hx
        rcases List.mem_cons.mp hx with rfl | hx
        · exact hd
        · exact hw1 x hx
      · rintro c' f' he
        cases he
        exact ⟨by simpa using hc, hw3⟩
      · dsimp only at e3
        rw [e0, e1, e, e3]; simp
    · refine ⟨d :: (w1 ++ w3), none, ⟨by simp, ?_⟩, by simp, ?_⟩
      · intro x hx
        rcases List.mem_cons.mp hx with rfl | hx
        · exact hd
        · rcases List.mem_append.mp hx with hx | hx
          · exact hw1 x hx
          · exact hw3 x hx
      · rw [e0, e1, e3]; simp
  obtain ⟨wh, fr, n1, n2, n3⟩ := hsep
  have hp2 : Plain t2.rest := by
    rw [n3, e4] at hp
    exact plain_suffix (plain_suffix hp)
  obtain ⟨u, e5, e6, _⟩ := mem_units hp2 hb
  have hlast : optWord b.prev = true := by
    rw [e6]
    cases u <;> rfl
  refine ⟨⟨wh, fr, g, u⟩, ⟨n1, fun c f e => (n2 c f e).1, fun c f e => (n2 c f e).2, fun c hc => (isRxSpace_iff c).mp (hg c hc)⟩, ?_, ?_⟩
  · dsimp only [Item.text, Item.amount]
    rw [n3, e4, e5]
    cases fr <;> simp
  · intro c hc hw
    dsimp only at hc
    rw [hlast, hc] at hbd
    rw [show optWord (some c) = true from (isWordC_iff c).mpr hw] at hbd
    simp at hbd

theorem rel_fails_at {p : Option Char} {s : List Char} (hp : Plain s) (h : ¬ ∃ i r, BeginsWith s i r) :
    rxRelativePattern.Fails ⟨p, s, []⟩ := by
  unfold Rx.Fails
  cases hr : rxRelativePattern.run ⟨p, s, []⟩ with
  | nil => rfl
  | cons t l =>
    obtain ⟨i, hi⟩ := rel_mem hp (t := t) (by rw [hr]; simp)
    exact absurd ⟨i, _, hi⟩ h

theorem mentions_find {s : List Char} {segs : List (List Char × Item)} {tail : List Char} (hm : Mentions s segs tail) :
    Plain s → ∀ (n : Nat) (p : Option Char), s.length < n →
      ((rxRelativePattern.findAllFuel n p s).1.map fun m => (m.before, m.after.cap 1, m.after.cap 2)) =
        segs.map (fun x => (x.1, x.2.amount, x.2.unit.name)) ∧
      (rxRelativePattern.findAllFuel n p s).2 = tail := by
  induction hm with
  | done s h =>
    intro hp n p _
    have : rxRelativePattern.find p s = none := by
      apply find_none
      intro a b e
      exact rel_fails_at (by rw [e] at hp; exact plain_suffix hp) (h a b e)
    rw [findAllFuel_none this]
    simp
  | next pre i rest segs tail hpre hi h ih =>
    intro hp n p hn
    cases n with
    | zero => simp at hn
    | succ n =>
      have hp2 := plain_suffix hp
      obtain ⟨x, hx, hf⟩ := item_first i hi.1 (lastOr p pre) rest (fun c hc => by
        have := hi.2.2 c hc
        rw [← isWordC_iff] at this
        simpa using this)
      have hfind := find_skip (r := rxRelativePattern) pre (i.text ++ rest) p (by
        intro a b e hb
        apply rel_fails_at
        · rw [e, List.append_assoc] at hp; exact plain_suffix hp
        · exact hpre a b e hb)
      rw [find_here hf, take_sub] at hfind
      simp only [Option.map_some, List.append_nil] at hfind
      rw [findAllFuel_step hfind (item_text_ne i hi.1)]
      have hl : 0 < i.text.length := List.length_pos_iff.mpr (item_text_ne i hi.1)
      have := ih (plain_suffix hp2) n (some x) (by simp at hn; omega)
      simp only [List.map_cons, this.1, this.2]
      exact ⟨rfl, trivial⟩

/-- Every text has its amounts. -/
theorem mentions_exist (s : List Char) : ∃ segs tail, Mentions s segs tail := by
  have main : ∀ (n : Nat) (s : List Char), s.length ≤ n → ∃ segs tail, Mentions s segs tail := by
    intro n
    induction n with
    | zero =>
      intro s hs
      have : s = [] := by simpa using hs
      subst this
      refine ⟨[], [], .done [] ?_⟩
      rintro a b e ⟨i, r, h1, h2, _⟩
      have hl : 0 < i.text.length := List.length_pos_iff.mpr (item_text_ne i h1)
      have e1 := congrArg List.length e
      have e2 := congrArg List.length h2
      simp at e1 e2
      omega
    | succ n ih =>
      intro s hs
      -- the first place where an amount stands
      have first : ∀ (b a : List Char), s = a ++ b → (∀ a1 a2, a = a1 ++ a2 → a2 ≠ [] → ¬ ∃ i r, BeginsWith (a2 ++ b) i r) →
          (∃ segs tail, Mentions s segs tail) := by
        intro b
        induction b with
        | nil =>
          intro a e ha
          refine ⟨[], s, .done s ?_⟩
          intro x y hxy hy
          simp only [List.append_nil] at e
          by_cases hyn : y = []
          · obtain ⟨i, r, h1, h2, _⟩ := hy
            rw [hyn] at h2
            have hl : 0 < i.text.length := List.length_pos_iff.mpr (item_text_ne i h1)
            have e2 := congrArg List.length h2
            simp at e2
            omega
          · exact ha x y (by rw [← e, hxy]) hyn (by simpa using hy)
        | cons c b ihb =>
          intro a e ha
          by_cases hex : ∃ i r, BeginsWith (c :: b) i r
          · obtain ⟨i, r, h1, h2, h3⟩ := hex
            have hl : 0 < i.text.length := List.length_pos_iff.mpr (item_text_ne i h1)
            obtain ⟨segs, tail, hm⟩ := ih r (by
              have : s.length = a.length + (i.text.length + r.length) := by rw [e, h2]; simp
              omega)
            refine ⟨(a, i) :: segs, tail, ?_⟩
            rw [e, h2]
            refine .next a i r segs tail ?_ ⟨h1, rfl, h3⟩ hm
            intro x y hxy hy
            rw [← h2]
            exact ha x y hxy hy
          · apply ihb (a ++ [c]) (by simp [e])
            intro x y hxy hy
            rcases List.append_eq_append_iff.mp hxy.symm with ⟨k, e1, e2⟩ | ⟨k, e1, e2⟩
            · -- x ++ k = a, y = k ++ [c]
              rw [e2, List.append_assoc]
              by_cases hk : k = []
              · subst hk; simpa using hex
              · exact ha x k e1 hk
            · -- x = a ++ k, [c] = k ++ y
              have : k = [] := by
                cases k with
                | nil => rfl
                | cons z k =>
                  exfalso
                  have := congrArg List.length e2
                  simp only [List.length_append, List.length_cons, List.length_nil] at this
                  have : y.length = 0 := by omega
                  exact hy (by simpa using this)
              subst this
              simp only [List.nil_append] at e2
              rw [← e2]
              simpa using hex
      exact first s [] rfl (by intro a1 a2 e h; simp at e; exact absurd e.2 h)
  exact main s.length s (Nat.le_refl _)

/-! ## Words -/

theorem find_some_at {r : Rx} : ∀ (s : List Char) (p : Option Char), (r.find p s).isSome = true →
    ∃ a b, s = a ++ b ∧ r.run ⟨lastOr p a, b, []⟩ ≠ [] := by
  intro s
  induction s with
  | nil =>
    intro p h
    refine ⟨[], [], rfl, ?_⟩
    intro e
    rw [lastOr_nil] at e
    simp [Rx.find, e] at h
  | cons c s ih =>
    intro p h
    by_cases e : r.run ⟨p, c :: s, []⟩ = []
    · rw [Rx.find, e] at h
      obtain ⟨a, b, e1, e2⟩ := ih (some c) (by simpa using h)
      exact ⟨c :: a, b, by simp [e1], by rw [lastOr_cons]; exact e2⟩
    · exact ⟨[], c :: s, rfl, e⟩

theorem find_at {r : Rx} (s : List Char) (p : Option Char) (a b : List Char) (e : s = a ++ b)
    (h : r.run ⟨lastOr p a, b, []⟩ ≠ []) : (r.find p s).isSome = true := by
  subst e
  induction a generalizing p with
  | nil =>
    rw [lastOr_nil] at h
    cases b with
    | nil => cases hr : r.run ⟨p, [], []⟩ with
      | nil => exact absurd hr h
      | cons t l => simp [Rx.find, hr]
    | cons c b => cases hr : r.run ⟨p, c :: b, []⟩ with
      | nil => exact absurd hr h
      | cons t l => simp [Rx.find, hr]
  | cons c a ih =>
    rw [lastOr_cons] at h
    have := ih (some c) h
    rw [List.cons_append, Rx.find]
    split
    · rfl
    · simpa using this

theorem matches_iff {r : Rx} (s : List Char) : r.matches s = true ↔ ∃ a b, s = a ++ b ∧ r.run ⟨a.getLast?, b, []⟩ ≠ [] := by
  have e : ∀ a : List Char, lastOr none a = a.getLast? := by intro a; simp [lastOr]
  unfold Rx.matches
  constructor
  · intro h
    obtain ⟨a, b, h1, h2⟩ := find_some_at s none h
    exact ⟨a, b, h1, by rw [← e]; exact h2⟩
  · rintro ⟨a, b, h1, h2⟩
    exact find_at s none a b h1 (by rw [e]; exact h2)

theorem ci_run {w : List Char} : ∀ (p : Option Char) (b : List Char) (c : List (Nat × List Char)), (∀ x ∈ w, toLowerC x = x) →
    (rxCi w).run ⟨p, w ++ b, c⟩ = [⟨lastOr p w, b, c⟩] := by
  induction w with
  | nil => intro p b c _; rfl
  | cons x w ih =>
    intro p b c h
    have hx : ciMatch x x = true := by unfold ciMatch; simp [h x (by simp)]
    have : (rxCi (x :: w)).run ⟨p, x :: w ++ b, c⟩ = (rxCi w).run ⟨some x, w ++ b, c⟩ := by
      simp [rxCi, Rx.run, hx]
    rw [this, ih _ _ _ (fun y hy => h y (by simp [hy])), lastOr_cons]

theorem optWord_false {o : Option Char} : optWord o = false ↔ ∀ c, o = some c → ¬ IsWordChar c := by
  cases o with
  | none => simp [optWord]
  | some c => simp [optWord, ← isWordC_iff]

/-- `\bword\b` -/
theorem word_iff {s w : List Char} (hp : Plain s) (hl : ∀ x ∈ w, toLowerC x = x) (hne : w ≠ []) (hw : ∀ x ∈ w, isWordC x = true) :
    (Rx.seq .wb (.seq (rxCi w) .wb)).matches s = true ↔ HasWord s w := by
  have hh : ∀ b : List Char, optWord (w ++ b).head? = true := by
    intro b
    cases w with
    | nil => exact absurd rfl hne
    | cons x w => exact hw x (by simp)
  have ht : ∀ p : Option Char, optWord (lastOr p w) = true := by
    intro p
    unfold lastOr
    cases hg : w.getLast? with
    | none => simp at hg; exact absurd hg hne
    | some x => exact hw x (List.mem_of_getLast? hg)
  rw [matches_iff]
  unfold HasWord
  constructor
  · rintro ⟨a, b, rfl, h⟩
    obtain ⟨t, ht1⟩ := List.exists_mem_of_ne_nil _ h
    simp only [mem_seq, mem_wb] at ht1
    obtain ⟨t1, ⟨h1, rfl⟩, t2, h2, h3, rfl⟩ := ht1
    obtain ⟨e1, e2, _⟩ := mem_ci _ _ (plain_suffix hp) h2
    dsimp only at e1 e2 h1
    rw [e1, hh] at h1
    rw [e2, ht] at h3
    refine ⟨a, t.rest, by rw [e1], optWord_false.mp ?_, optWord_false.mp ?_⟩
    · cases ho : optWord a.getLast? with
      | false => rfl
      | true => rw [ho] at h1; simp at h1
    · cases ho : optWord t.rest.head? with
      | false => rfl
      | true => rw [ho] at h3; simp at h3
  · rintro ⟨a, b, rfl, h1, h2⟩
    refine ⟨a, w ++ b, rfl, ?_⟩
    have e1 := optWord_false.mpr h1
    have e2 := optWord_false.mpr h2
    apply List.ne_nil_of_mem (a := (⟨lastOr a.getLast? w, b, []⟩ : MSt))
    simp only [mem_seq, mem_wb]
    refine ⟨_, ⟨?_, rfl⟩, ⟨lastOr a.getLast? w, b, []⟩, ?_, ?_, rfl⟩
    · rw [e1, hh]; rfl
    · rw [ci_run _ _ _ hl]; simp
    · simp only [ht, e2]; rfl

theorem in_iff {s : List Char} (hp : Plain s) : rxIn.matches s = true ↔ HasWord s "in".toList :=
  word_iff hp (by decide) (by decide) (by decide)
theorem ago_iff {s : List Char} (hp : Plain s) : rxAgo.matches s = true ↔ HasWord s "ago".toList :=
  word_iff hp (by decide) (by decide) (by decide)

/-- The pieces between other characters are the words, and empty pieces. -/
theorem mem_pieces : ∀ (s cur : List Char) (w : List Char), w ∈ pieces s cur ↔
    (∃ x b, s = x ++ b ∧ (∀ c ∈ x, isWordC c = true) ∧ (∀ c, b.head? = some c → isWordC c = false) ∧ w = cur.reverse ++ x) ∨
    (∃ a c b, s = a ++ c :: (w ++ b) ∧ isWordC c = false ∧ (∀ c ∈ w, isWordC c = true) ∧ ∀ c, b.head? = some c → isWordC c = false) := by
  intro s
  induction s with
  | nil =>
    intro cur w
    simp only [pieces, List.mem_singleton]
    constructor
    · rintro rfl
      exact Or.inl ⟨[], [], rfl, by simp, by simp, by simp⟩
    · rintro (⟨x, b, e, _, _, h⟩ | ⟨a, c, b, e, _⟩)
      · simp at e; simp [h, e.1]
      · simp at e
  | cons d s ih =>
    intro cur w
    rw [pieces]
    cases hd : isWordC d with
    | true =>
      simp only [if_true]
      rw [ih]
      constructor
      · rintro (⟨x, b, rfl, h1, h2, rfl⟩ | ⟨a, c, b, rfl, h1, h2, h3⟩)
        · refine Or.inl ⟨d :: x, b, rfl, ?_, h2, by simp⟩
          intro y hy
          rcases List.mem_cons.mp hy with rfl | hy
          · exact hd
          · exact h1 y hy
        · exact Or.inr ⟨d :: a, c, b, rfl, h1, h2, h3⟩
      · rintro (⟨x, b, e, h1, h2, rfl⟩ | ⟨a, c, b, e, h1, h2, h3⟩)
        · cases x with
          | nil =>
            simp only [List.nil_append] at e
            rw [← e] at h2
            rw [h2 d rfl] at hd; simp at hd
          | cons y x =>
            simp only [List.cons_append, List.cons.injEq] at e
            obtain ⟨rfl, rfl⟩ := e
            exact Or.inl ⟨x, b, rfl, fun z hz => h1 z (by simp [hz]), h2, by simp⟩
        · cases a with
          | nil =>
            simp only [List.nil_append, List.cons.injEq] at e
            rw [← e.1, hd] at h1; simp at h1
          | cons y a =>
            simp only [List.cons_append, List.cons.injEq] at e
            exact Or.inr ⟨a, c, b, e.2, h1, h2, h3⟩
    | false =>
      simp only [Bool.false_eq_true, if_false, List.mem_cons]
      rw [ih]
      constructor
      · rintro (rfl | ⟨x, b, rfl, h1, h2, rfl⟩ | ⟨a, c, b, rfl, h1, h2, h3⟩)
        · exact Or.inl ⟨[], d :: s, rfl, by simp, by simp [hd], by simp⟩
        · exact Or.inr ⟨[], d, b, by simp, hd, by simpa using h1, h2⟩
        · exact Or.inr ⟨d :: a, c, b, rfl, h1, h2, h3⟩
      · rintro (⟨x, b, e, h1, h2, rfl⟩ | ⟨a, c, b, e, h1, h2, h3⟩)
        · cases x with
          | nil => exact Or.inl (by simp)
          | cons y x =>
            simp only [List.cons_append, List.cons.injEq] at e
            have := h1 y (by simp)
            rw [← e.1, hd] at this; simp at this
        · right
          cases a with
          | nil =>
            simp only [List.nil_append, List.cons.injEq] at e
            exact Or.inl ⟨w, b, e.2, h2, h3, by simp⟩
          | cons y a =>
            simp only [List.cons_append, List.cons.injEq] at e
            exact Or.inr ⟨a, c, b, e.2, h1, h2, h3⟩

theorem split_words (s w : List Char) : (w ∈ rxNonWord.split s ∧ w ≠ []) ↔ IsWordOf s w := by
  have e : rxNonWord.split s = pieces s [] := split_pieces _ s none (by omega)
  rw [e, mem_pieces]
  unfold IsWordOf HasWord
  simp only [← isWordC_iff, Bool.not_eq_true]
  constructor
  · rintro ⟨⟨x, b, rfl, h1, h2, rfl⟩ | ⟨a, c, b, rfl, h1, h2, h3⟩, hne⟩
    · exact ⟨hne, by simpa using h1, [], b, by simp, by simp, h2⟩
    · exact ⟨hne, h2, a ++ [c], b, by simp, by simp [h1], h3⟩
  · rintro ⟨hne, hw, a, b, rfl, h1, h2⟩
    refine ⟨?_, hne⟩
    rcases List.eq_nil_or_concat a with rfl | ⟨a, c, rfl⟩
    · exact Or.inl ⟨w, b, by simp, hw, h2, by simp⟩
    · exact Or.inr ⟨a, c, b, by simp, h1 c (by simp), hw, h2⟩

theorem skip_mem {w : List Char} (hp : Plain w) (hw : ∀ c ∈ w, isWordC c = true) (h : rxRelativeSkipWord.matches w = true) : RelWord w := by
  obtain ⟨a, b, rfl, hr⟩ := (matches_iff w).mp h
  obtain ⟨t, ht⟩ := List.exists_mem_of_ne_nil _ hr
  unfold rxRelativeSkipWord at ht
  rw [mem_seq] at ht
  obtain ⟨u, hu, ht⟩ := ht
  have hua : u = ⟨a.getLast?, b, []⟩ ∧ a = [] := by
    rw [Rx.run] at hu
    split at hu
    · rename_i hn
      simp only [List.mem_singleton] at hu
      exact ⟨hu, by simpa using hn⟩
    · simp at hu
  obtain ⟨rfl, rfl⟩ := hua
  simp only [List.nil_append] at hp hw ⊢
  obtain ⟨r, hr, ht⟩ := mem_alts _ _ _ ht
  rw [units_names] at hr
  simp only [List.map_map, List.mem_append, List.mem_map, List.mem_cons, List.not_mem_nil, or_false] at hr
  rcases hr with ⟨u, _, rfl⟩ | rfl | rfl | rfl | rfl | rfl
  · exact Or.inl ⟨u, ⟨t.rest, ((mem_ci _ _ hp ht).1).symm⟩⟩
  · exact Or.inr (Or.inl ⟨t.rest, ((mem_ci _ _ hp ht).1).symm⟩)
  · exact Or.inr (Or.inr (Or.inl ⟨t.rest, ((mem_ci _ _ hp ht).1).symm⟩))
  · unfold Rx.plus at ht
    rw [mem_seq] at ht
    obtain ⟨v, hv, _⟩ := ht
    obtain ⟨d, r, e, hd, _⟩ := mem_chr hv
    exact Or.inr (Or.inr (Or.inr (Or.inr (Or.inr ⟨d, hd, ⟨r, by simpa using e.symm⟩⟩))))
  · obtain ⟨d, r, e, hd, _⟩ := mem_chr ht
    dsimp only at e
    have h0 := hw d (by rw [e]; simp)
    have : d = ':' := by simpa using hd
    subst this
    exact absurd h0 (by decide)
  · rw [mem_seq] at ht
    obtain ⟨v, hv, ht⟩ := ht
    obtain ⟨x, r, e, hx, rfl⟩ := mem_chr hv
    obtain ⟨y, r2, e2, hy, _⟩ := mem_chr ht
    dsimp only at e e2
    rw [e, e2] at hp
    have hx1 := hp x (by simp)
    have hy1 := hp y (by simp)
    have := (ciMatch_plain hy1).mp hy
    subst this
    rw [Bool.or_eq_true, ciMatch_plain hx1, ciMatch_plain hx1] at hx
    rcases hx with rfl | rfl
    · exact Or.inr (Or.inr (Or.inr (Or.inl ⟨r2, by rw [e, e2]; rfl⟩)))
    · exact Or.inr (Or.inr (Or.inr (Or.inr (Or.inl ⟨r2, by rw [e, e2]; rfl⟩))))

theorem relWord_skip {w : List Char} (h : RelWord w) : SkipStart w := by
  have low : ∀ a : List Char, (∀ c ∈ a, toLowerC c = c) → toLower a = a := by
    intro a ha
    unfold toLower
    exact (List.map_congr_left ha).trans (List.map_id a)
  rcases h with ⟨u, b, e⟩ | ⟨b, e⟩ | ⟨b, e⟩ | ⟨b, e⟩ | ⟨b, e⟩ | ⟨d, hd, b, e⟩
  · exact ⟨u.name, b, e.symm, Or.inl ⟨u, by cases u <;> decide⟩⟩
  · exact ⟨_, b, e.symm, Or.inr (Or.inr (Or.inr (Or.inl (by decide))))⟩
  · exact ⟨_, b, e.symm, Or.inr (Or.inr (Or.inl (by decide)))⟩
  · exact ⟨_, b, e.symm, Or.inr (Or.inr (Or.inr (Or.inr (Or.inl (by decide)))))⟩
  · exact ⟨_, b, e.symm, Or.inr (Or.inr (Or.inr (Or.inr (Or.inr (by decide)))))⟩
  · exact ⟨_, b, e.symm, Or.inr (Or.inl ⟨d, rfl, hd⟩)⟩

theorem mem_spaced {c : Char} : ∀ s : List Char, c ∈ inWord s ∨ c ∈ afterSpace s → c = ' ' ∨ c ∈ s
  | [], h => by simp [inWord, afterSpace] at h
  | d :: s, h => by
    rw [inWord, afterSpace] at h
    cases hs : isSpace d with
    | true =>
      simp only [hs, if_true, or_self] at h
      rcases mem_spaced s (Or.inr h) with h | h
      · exact Or.inl h
      · exact Or.inr (by simp [h])
    | false =>
      simp only [hs, Bool.false_eq_true, if_false, List.mem_cons] at h
      rcases h with (h | h) | h | h | h
      · exact Or.inr (by simp [h])
      · rcases mem_spaced s (Or.inl h) with h | h
        · exact Or.inl h
        · exact Or.inr (by simp [h])
      · exact Or.inl h
      · exact Or.inr (by simp [h])
      · rcases mem_spaced s (Or.inl h) with h | h
        · exact Or.inl h
        · exact Or.inr (by simp [h])

theorem plain_sanitize {s : List Char} (h : Plain s) : Plain (sanitizeSpaces s) := by
  intro c hc
  unfold sanitizeSpaces at hc
  rw [join_fields] at hc
  rcases mem_spaced _ (Or.inr (List.mem_of_mem_drop hc)) with rfl | hc
  · decide
  · exact h c (List.mem_filter.mp hc).1

theorem words_iff {s : List Char} (hp : Plain s) : allWordsAreUnits s = true ↔ ∀ w, IsWordOf (sanitizeSpaces s) w → RelWord w := by
  unfold allWordsAreUnits
  rw [List.all_eq_true]
  constructor
  · intro h w hw
    have hs := (split_words _ w).mpr hw
    have := h w hs.1
    rw [Bool.or_eq_true] at this
    rcases this with he | hm
    · simp at he; exact absurd he hs.2
    · apply skip_mem ?_ (fun c hc => (isWordC_iff c).mpr (hw.2.1 c hc)) hm
      obtain ⟨_, _, a, b, e, _⟩ := hw
      have := plain_sanitize hp
      rw [e] at this
      exact fun c hc => this c (by simp [hc])
  · intro h w hw
    rw [Bool.or_eq_true]
    by_cases hne : w = []
    · left; simp [hne]
    · right
      exact (relWord_skip (h w ((split_words _ w).mp ⟨hw, hne⟩))).matches

/-! ## Amounts -/

theorem foldLast_get (items : List Item) (u : RelUnit) : ∀ m0 : FMap,
    (items.foldl (fun m i => m.set i.unit.name (amountValue i.amount)) m0).get u.name =
      match items.reverse.find? (fun i => i.unit == u) with
      | some i => some (amountValue i.amount)
      | none => m0.get u.name := by
  induction items with
  | nil => intro m0; rfl
  | cons i items ih =>
    intro m0
    rw [List.foldl_cons, ih, List.reverse_cons, List.find?_append]
    cases items.reverse.find? (fun i => i.unit == u) with
    | some j => rfl
    | none =>
      simp only [Option.none_or, List.find?_cons, List.find?_nil]
      by_cases h : i.unit = u
      · simp [h, FMap.get_set]
      · have : (i.unit == u) = false := by simpa using h
        simp only [this]
        rw [FMap.get_set, if_neg]
        intro e
        exact h ((name_inj _ _).mp e.symm)

theorem mentions_fold {s : List Char} {segs : List (List Char × Item)} {tail : List Char} (hm : Mentions s segs tail) (hp : Plain s) :
    (rxRelativePattern.findAll s).1.foldl (fun (m : FMap) x => m.set (x.after.cap 2) (amountValue (x.after.cap 1))) [] =
      foldItems (segs.map (·.2)) := by
  have e := (mentions_find hm hp (s.length + 1) none (by omega)).1
  have : ∀ (l : List RxMatch) (k : List (List Char × Item)) (m0 : FMap),
      l.map (fun m => (m.before, m.after.cap 1, m.after.cap 2)) = k.map (fun x => (x.1, x.2.amount, x.2.unit.name)) →
      l.foldl (fun (m : FMap) x => m.set (x.after.cap 2) (amountValue (x.after.cap 1))) m0 =
        (k.map (·.2)).foldl (fun m i => m.set i.unit.name (amountValue i.amount)) m0 := by
    intro l
    induction l with
    | nil =>
      intro k m0 h
      cases k with
      | nil => rfl
      | cons a k => simp at h
    | cons x l ih =>
      intro k m0 h
      cases k with
      | nil => simp at h
      | cons y k =>
        simp only [List.map_cons, List.cons.injEq, Prod.mk.injEq] at h
        simp only [List.map_cons, List.foldl_cons]
        rw [h.1.2.1, h.1.2.2]
        exact ih k _ h.2
  exact this _ _ _ e

theorem mentions_ok {s : List Char} {segs : List (List Char × Item)} {tail : List Char} (hm : Mentions s segs tail) :
    ∀ i ∈ segs.map (·.2), i.OK := by
  induction hm with
  | done => simp
  | next pre i rest segs tail hpre hi h ih =>
    intro j hj
    simp only [List.map_cons, List.mem_cons] at hj
    rcases hj with rfl | hj
    · exact hi.1
    · exact ih j hj

theorem lastAmount_nat {items : List Item} (h : ∀ i ∈ items, i.OK) (u : RelUnit) : 0 ≤ lastAmount items u := by
  unfold lastAmount
  cases hf : items.reverse.find? (fun i => i.unit == u) with
  | none => simp
  | some i =>
    simp only
    rw [number_eq]
    have := List.mem_of_find?_eq_some hf
    exact (natOfDigits_range (h i (by simpa using this)).whole.2).1

theorem last_holds {items : List Item} (h : ∀ i ∈ items, i.OK) (hw : ∀ i ∈ items, i.fractional = false)
    (hb : ∀ u, lastAmount items u < 2 ^ 40) :
    Holds (foldItems items) (fun u => items.any (·.unit == u)) (fun u => (lastAmount items u).toNat) := by
  intro u
  unfold foldItems
  rw [foldLast_get, FMap.get_nil]
  have hbu := hb u
  unfold lastAmount at hbu ⊢
  cases hf : items.reverse.find? (fun i => i.unit == u) with
  | none =>
    have : items.any (fun i => i.unit == u) = false := by
      rw [List.find?_eq_none] at hf
      rw [List.any_eq_false]
      intro x hx
      exact hf x (by simpa using hx)
    simp [this]
  | some i =>
    have hi : i ∈ items := by have := List.mem_of_find?_eq_some hf; simpa using this
    have : items.any (fun i => i.unit == u) = true := by
      rw [List.any_eq_true]
      exact ⟨i, hi, by have := List.find?_some hf; exact this⟩
    simp only [hf] at hbu
    simp only [this, if_true, hf]
    rw [item_whole (h i hi) (hw i hi) (by omega)]

theorem lastAmount_zero {items : List Item} {u : RelUnit} (h : items.any (·.unit == u) = false) : lastAmount items u = 0 := by
  unfold lastAmount
  have : items.reverse.find? (fun i => i.unit == u) = none := by
    rw [List.find?_eq_none]
    intro x hx
    rw [List.any_eq_false] at h
    exact h x (by simpa using hx)
  rw [this]

/-- The same items as a phrase. -/
def asPhrase (i : Item) (l : List Item) : Phrase := { first := i, more := l.map fun j => ([], j) }
theorem asPhrase_items (i : Item) (l : List Item) : (asPhrase i l).items = i :: l := by
  unfold asPhrase Phrase.items
  simp [List.map_map, Function.comp_def]

/-- Without words of other kinds and with an amount: the moment. -/
theorem relParseDate_mentions (big : Int) (cfg : Cfg) (now : Time) {s : List Char} {segs : List (List Char × Item)} {tail : List Char}
    (hm : Mentions s segs tail) (hp : Plain s) (hne : segs ≠ []) (hw : ∀ w, IsWordOf (sanitizeSpaces s) w → RelWord w)
    (hr : WholeInRange (segs.map (·.2))) {sg : Int} (hd : Direction s cfg.dateSource sg) :
    relParseDate big cfg s now = some (shifted cfg.preserveEndOfMonth now sg (segs.map (·.2)), finest (segs.map (·.2))) := by
  obtain ⟨x, l, rfl⟩ : ∃ x l, segs = x :: l := by
    cases segs with
    | nil => exact absurd rfl hne
    | cons x l => exact ⟨x, l, rfl⟩
  have hok := mentions_ok hm
  generalize hi : (x :: l).map (·.2) = items at *
  have hit : items = (asPhrase x.2 (l.map (·.2))).items := by rw [asPhrase_items, ← hi]; rfl
  generalize asPhrase x.2 (l.map (·.2)) = p at hit
  have hhas : (fun u : RelUnit => items.any (·.unit == u)) = p.has := by
    funext u; rw [hit]; rfl
  have hper : finest items = p.period := by
    unfold finest Phrase.period Phrase.has; rw [hit]
  have nn := fun u => lastAmount_nat hok u
  have all := hr.all
  have hz0 : ∀ u, p.has u = false → lastAmount items u = 0 := by
    intro u hu
    rw [← hhas] at hu
    exact lastAmount_zero hu
  have hmap : Holds (getRelativeDurations s) (endHas p.has) (endAmount fun u => (lastAmount items u).toNat) := by
    rw [durations_eq, mentions_fold hm hp, hi]
    have h1 := last_holds hok hr.whole (fun u => by have := all u; omega)
    rw [hhas] at h1
    have := holds_merge h1 (fun u hu => by simp [hz0 u hu]) (fun u => by have := all u; have := nn u; omega)
    rw [spread_whole this]
    exact this
  have hz : ∀ u, endHas p.has u = false → endAmount (fun u => (lastAmount items u).toNat) u = 0 := by
    intro u hu
    cases u <;> simp_all [endHas, endAmount]
  have val := fun u => holds_val hmap hz u
  unfold relParseDate
  rw [(words_iff hp).mpr hw]
  simp only [Bool.not_true, Bool.false_eq_true, if_false]
  rw [holds_nonempty p hmap, holds_period p hmap]
  simp only [Bool.false_eq_true, if_false]
  have v1 : ((getRelativeDurations s).val "year".toList).toInt big = lastAmount items .year + 10 * lastAmount items .decade := by
    rw [show (getRelativeDurations s).val "year".toList = _ from val .year, toInt_whole]
    · have a := nn .year; have b := nn .decade
      simp only [endAmount]; omega
    · have a := all .year; have b := all .decade
      simp only [endAmount]; omega
  have v2 : ((getRelativeDurations s).val "month".toList).toInt big = lastAmount items .month := by
    rw [show (getRelativeDurations s).val "month".toList = _ from val .month, toInt_whole]
    · have a := nn .month
      simp only [endAmount]; omega
    · have a := all .month
      simp only [endAmount]; omega
  have v3 : ((getRelativeDurations s).val "day".toList).toInt big = lastAmount items .day + 7 * lastAmount items .week := by
    rw [show (getRelativeDurations s).val "day".toList = _ from val .day, toInt_whole]
    · have a := nn .day; have b := nn .week
      simp only [endAmount]; omega
    · have a := all .day; have b := all .week
      simp only [endAmount]; omega
  have v4 : ((getRelativeDurations s).val "hour".toList).toInt big = lastAmount items .hour := by
    rw [show (getRelativeDurations s).val "hour".toList = _ from val .hour, toInt_whole]
    · have a := nn .hour
      simp only [endAmount]; omega
    · have a := all .hour
      simp only [endAmount]; omega
  have v5 : ((getRelativeDurations s).val "minute".toList).toInt big = lastAmount items .minute := by
    rw [show (getRelativeDurations s).val "minute".toList = _ from val .minute, toInt_whole]
    · have a := nn .minute
      simp only [endAmount]; omega
    · have a := all .minute
      simp only [endAmount]; omega
  have v6 : ((getRelativeDurations s).val "second".toList).toInt big = lastAmount items .second := by
    rw [show (getRelativeDurations s).val "second".toList = _ from val .second, toInt_whole]
    · have a := nn .second
      simp only [endAmount]; omega
    · have a := all .second
      simp only [endAmount]; omega
  rw [v1, v2, v3, v4, v5, v6]
  have n1 := nn .hour; have n2 := nn .minute; have n3 := nn .second
  have m1 := hr.hours; have m2 := hr.minutes; have m3 := all .second
  rw [wrap64_id (x := lastAmount items .hour * 3600000000000) (by omega) (by omega),
    wrap64_id (x := lastAmount items .minute * 60000000000) (by omega) (by omega),
    wrap64_id (x := lastAmount items .second * 1000000000) (by omega) (by omega),
    wrap64_id (x := -(lastAmount items .hour * 3600000000000)) (by omega) (by omega),
    wrap64_id (x := -(lastAmount items .minute * 60000000000)) (by omega) (by omega),
    wrap64_id (x := -(lastAmount items .second * 1000000000)) (by omega) (by omega)]
  rw [← Int.neg_mul, ← Int.neg_mul, ← Int.neg_mul, relAddDate_eq, relAddDate_eq,
    add_three _ (moved_wf _ _ _ _ _), add_three _ (moved_wf _ _ _ _ _), hper]
  have hdir : ((rxIn.matches s || cfg.dateSource == .future) && !rxAgo.matches s) = true ↔
      ((HasWord s "in".toList ∨ cfg.dateSource = .future) ∧ ¬ HasWord s "ago".toList) := by
    rw [Bool.and_eq_true, Bool.or_eq_true, in_iff hp, ← ago_iff hp]
    simp
  unfold shifted
  rcases hd with ⟨h1, h2, rfl⟩ | ⟨h1, rfl⟩
  · rw [if_pos (hdir.mpr ⟨h1, h2⟩)]
    simp only [Int.one_mul]
  · rw [if_neg (fun h => h1 (hdir.mp h))]
    simp only [Int.neg_mul, Int.one_mul]
    have e1 : 3600 * -lastAmount items .hour + 60 * -lastAmount items .minute + -lastAmount items .second =
      -(3600 * lastAmount items .hour + 60 * lastAmount items .minute + lastAmount items .second) := by omega
    rw [← e1]

theorem relParseDate_refuses (big : Int) (cfg : Cfg) (now : Time) {s : List Char} {segs : List (List Char × Item)} {tail : List Char}
    (hm : Mentions s segs tail) (hp : Plain s) (h : segs = [] ∨ ∃ w, IsWordOf (sanitizeSpaces s) w ∧ ¬ RelWord w) :
    relParseDate big cfg s now = none := by
  unfold relParseDate
  rcases h with rfl | ⟨w, h1, h2⟩
  · have : getRelativeDurations s = [] := by
      rw [durations_eq, mentions_fold hm hp]; rfl
    split
    · rfl
    · simp only [this]; rfl
  · have : allWordsAreUnits s = false := by
      cases hb : allWordsAreUnits s with
      | false => rfl
      | true => exact absurd ((words_iff hp).mp hb w h1) h2
    simp [this]

theorem mentions_delete {s : List Char} {segs : List (List Char × Item)} {tail : List Char} (hm : Mentions s segs tail) (hp : Plain s) :
    rxRelativePattern.deleteAll s = outside segs tail := by
  have := mentions_find hm hp (s.length + 1) none (by omega)
  unfold Rx.deleteAll Rx.findAll outside
  have e : (rxRelativePattern.findAllFuel (s.length + 1) none s).1.map (·.before) = segs.map (·.1) := by
    have := congrArg (List.map (fun x : List Char × List Char × List Char => x.1)) this.1
    simpa [List.map_map, Function.comp_def] using this
  simp only [e, this.2]

end Verif.Lemmas
