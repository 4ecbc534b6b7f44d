import Verif.Spec.Words
import Verif.Lemmas.WordTokens
/-!
Helper lemmas: what is done to a text with a word of letters beyond ASCII before it is cut.
-/
set_option autoImplicit false
namespace Verif.Lemmas
open Verif.Go Verif.Model Verif.Data Verif.Spec

/-- A character of a word as written. -/
structure RawChar (U : Uni) (c : Char) : Prop extends WordChar U c where
  kept : c ∉ replacedChars

theorem wordChar_ascii {U : Uni} (hU : AsciiUni U) {c : Char} (h : WordChar U c) (hc : c.toNat < 128) : c.isAlpha = true := by
  rcases h.letter with h | h
  · rwa [hU.isLetter c hc] at h
  · rw [hU.isMark c hc] at h; cases h

theorem wordChar_ne {U : Uni} (hU : AsciiUni U) {c d : Char} (h : WordChar U c) (hd : d.toNat < 128) (ha : d.isAlpha = false) : c ≠ d := by
  rintro rfl
  rw [wordChar_ascii hU h hd] at ha
  cases ha

/-- Every colon is followed by a digit. -/
def colonOk : List Char → Bool
  | [] => true
  | c :: r => (c != ':' || r.head?.any Char.isDigit) && colonOk r

theorem colon_sound {r : List Char} : ∀ {a : List Char}, colonOk (a ++ ':' :: r) = true → ∃ z r', r = z :: r' ∧ z.isDigit = true
  | [], h => by
    simp only [List.nil_append, colonOk, Bool.and_eq_true] at h
    cases r with
    | nil => simp at h
    | cons z r => exact ⟨z, r, rfl, by simpa using h.1⟩
  | c :: a, h => by
    simp only [List.cons_append, colonOk, Bool.and_eq_true] at h
    exact colon_sound h.2

theorem colon_append : ∀ {a r : List Char}, ':' ∉ a → colonOk (a ++ r) = colonOk r
  | [], _, _ => rfl
  | c :: a, r, h => by
    have hc : (c != ':') = true := by rw [bne_iff_ne]; rintro rfl; exact h (by simp)
    simp only [List.cons_append, colonOk, hc, Bool.true_or, Bool.true_and]
    exact colon_append fun hm => h (by simp [hm])

/-- What a text has to satisfy not to be changed by `sanitizeDate`. -/
structure CleanText (U : Uni) (T : List Char) : Prop where
  chars : ∀ c ∈ T, dateChar c = true ∨ RawChar U c
  dot : ∀ a x r, T = a ++ x :: '.' :: r → x.isDigit = true
  after : ∀ a r, T = a ++ '.' :: r → ∃ z r', r = ' ' :: z :: r' ∧ U.isNumber z = false
  comma : ∀ a r, T = a ++ ',' :: r → ∀ c ∈ r, dateChar c = true
  colon : colonOk T = true
  tidy : tidy T = true

theorem wordChr_run {p : Char → Bool} {s t : MSt} (h : t ∈ (Rx.chr p).run s) : ∃ c, s.rest = c :: t.rest ∧ p c = true := by
  unfold Rx.run at h
  split at h
  · rename_i c r hr
    split at h
    · rename_i hc
      simp only [List.mem_singleton] at h
      subst h
      exact ⟨c, hr, hc⟩
    · cases h
  · cases h

theorem grp_run {n : Nat} {a : Rx} {s t : MSt} (h : t ∈ (Rx.grp n a).run s) : ∃ u ∈ a.run s, u.rest = t.rest := by
  simp only [Rx.run, List.mem_map] at h
  obtain ⟨u, hu, rfl⟩ := h
  exact ⟨u, hu, rfl⟩

theorem seq_run {a b : Rx} {s t : MSt} (h : t ∈ (Rx.seq a b).run s) : ∃ u ∈ a.run s, t ∈ b.run u := by
  simp only [Rx.run, List.mem_flatMap] at h
  exact h

theorem plus_run {p : Char → Bool} {s t : MSt} (h : t ∈ (Rx.plus (Rx.chr p)).run s) : ∃ c r, s.rest = c :: r ∧ p c = true := by
  obtain ⟨u, hu, _⟩ := seq_run h
  obtain ⟨c, h1, h2⟩ := wordChr_run hu
  exact ⟨c, _, h1, h2⟩

theorem opt_run {a : Rx} {s t : MSt} (h : t ∈ (Rx.opt a).run s) : t = s ∨ t ∈ a.run s := by
  simp only [Rx.run, List.mem_append, List.mem_singleton] at h
  rcases h with h | h
  · exact Or.inr h
  · exact Or.inl h

/-- No match anywhere. -/
theorem no_match {r : Rx} {T : List Char} (h : ∀ s, At T s → ∀ t, t ∉ r.run s) : r.matches T = false := by
  unfold Rx.matches
  have : r.find none T = none := find_none T none fun a b e => by
    unfold Rx.Fails
    rw [List.eq_nil_iff_forall_not_mem]
    exact h _ ⟨a, e, by simp [lastOr]⟩
  rw [this]; rfl

theorem CleanText.ne {U : Uni} (hU : AsciiUni U) {T : List Char} (h : CleanText U T) {d : Char} (hd : d.toNat < 128) (ha : d.isAlpha = false) (hdc : dateChar d = false) : d ∉ T := by
  intro hm
  rcases h.chars d hm with h' | h'
  · rw [hdc] at h'; cases h'
  · exact wordChar_ne hU h'.toWordChar hd ha rfl

theorem CleanText.notReplaced {U : Uni} {T : List Char} (h : CleanText U T) {d : Char} (hd : d ∈ replacedChars) : d ∉ T := by
  intro hm
  rcases h.chars d hm with h' | h'
  · have : ∀ d ∈ replacedChars, dateChar d = false := by decide +kernel
    rw [this d hd] at h'; cases h'
  · exact h'.kept hd

theorem alt_run {a b : Rx} {s t : MSt} (h : t ∈ (Rx.alt a b).run s) : t ∈ a.run s ∨ t ∈ b.run s := by
  simpa only [Rx.run, List.mem_append] using h

theorem sanitize_word {U : Uni} (hU : AsciiUni U) {T : List Char} (h : CleanText U T) : sanitizeDate U T = T := by
  have h1 : rxSanitizeSkip.matches T = false := by
    refine no_match fun s hs t ht => ?_
    rcases alt_run ht with ht | ht
    · obtain ⟨c, hc, hp⟩ := wordChr_run ht
      have hm : c ∈ T := hs.mem (by rw [hc]; simp)
      have hp : c = '\t' ∨ c = '\n' ∨ c = '\r' ∨ c = '\u00bb' := by simpa using hp
      rcases hp with rfl | rfl | rfl | rfl
      · exact h.ne hU (by decide) (by decide) (by decide) hm
      · exact h.ne hU (by decide) (by decide) (by decide) hm
      · exact h.ne hU (by decide) (by decide) (by decide) hm
      · exact h.notReplaced (by decide) hm
    · rcases alt_run ht with ht | ht
      · obtain ⟨u1, k1, ht⟩ := seq_run ht
        obtain ⟨u2, k2, ht⟩ := seq_run ht
        obtain ⟨u3, k3, ht⟩ := seq_run ht
        obtain ⟨c1, e1, p1⟩ := wordChr_run k1
        obtain ⟨c2, e2, p2⟩ := wordChr_run k2
        obtain ⟨c3, e3, p3⟩ := wordChr_run k3
        obtain ⟨a, ha, _⟩ := hs
        have p1 : c1 = ',' := by simpa using p1
        have p3 : c3 = '\u0432' := by simpa using p3
        subst p1 p3
        have := h.comma a u1.rest (by rw [ha, e1]) '\u0432' (by rw [e2, e3]; simp)
        revert this
        decide
      · obtain ⟨c, hc, hp⟩ := wordChr_run ht
        have hm : c ∈ T := hs.mem (by rw [hc]; simp)
        have hp : c = '\u200e' ∨ c = '\u00b7' ∨ c = '\u200f' ∨ c = '\u064e' ∨ c = '\u064f' := by simpa using hp
        refine h.notReplaced ?_ hm
        rcases hp with rfl | rfl | rfl | rfl | rfl <;> decide
  have h2 : (rxSanitizeRussian U).matches T = false := by
    refine no_match fun s hs t ht => ?_
    obtain ⟨u1, k1, ht⟩ := seq_run ht
    obtain ⟨u2, k2, ht⟩ := seq_run ht
    obtain ⟨u3, k3, ht⟩ := seq_run ht
    obtain ⟨v1, g1, e1⟩ := grp_run k1
    obtain ⟨c1, e1', _⟩ := wordChr_run g1
    obtain ⟨c2, e2, p2⟩ := wordChr_run k2
    obtain ⟨c3, e3, p3⟩ := wordChr_run k3
    obtain ⟨a, ha, _⟩ := hs
    have p3 : c3 = '.' := by simpa using p3
    subst p3
    have := h.dot (a ++ [c1]) c2 u3.rest (by rw [ha, e1', e1, e2, e3]; simp)
    have p2 : c2 = '\u0433' ∨ c2 = '\u0413' := by simpa using p2
    rcases p2 with rfl | rfl <;> exact absurd this (by decide)
  have h3 : (rxSanitizeCroatian U).matches T = false := by
    refine no_match fun s hs t ht => ?_
    obtain ⟨u1, k1, ht⟩ := seq_run ht
    obtain ⟨u2, k2, ht⟩ := seq_run ht
    obtain ⟨u3, k3, ht⟩ := seq_run ht
    obtain ⟨u4, k4, ht⟩ := seq_run ht
    have hs1 := hs.run k1
    obtain ⟨c2, e2, p2⟩ := wordChr_run k2
    have p2 : c2 = '.' := by simpa using p2
    subst p2
    obtain ⟨a, ha, _⟩ := hs1
    obtain ⟨z, r', hr, hz⟩ := h.after a u2.rest (by rw [ha, e2])
    obtain ⟨v, g, _⟩ := grp_run k4
    obtain ⟨c4, r4, e4, p4⟩ := plus_run g
    rcases opt_run k3 with e | k3
    · rw [e, hr] at e4
      simp only [List.cons.injEq] at e4
      rw [← e4.1, hU.isNumber ' ' (by decide)] at p4
      exact absurd p4 (by decide)
    · obtain ⟨c3, e3, _⟩ := wordChr_run k3
      rw [hr] at e3
      simp only [List.cons.injEq] at e3
      rw [← e3.2] at e4
      simp only [List.cons.injEq] at e4
      rw [← e4.1, hz] at p4
      cases p4
  have h4 : (rxSanitizePeriod U).matches T = false := by
    refine no_match fun s hs t ht => ?_
    obtain ⟨u1, k1, ht⟩ := seq_run ht
    obtain ⟨v1, g1, e1⟩ := grp_run k1
    obtain ⟨c1, e1', p1⟩ := wordChr_run g1
    obtain ⟨c2, e2, p2⟩ := wordChr_run ht
    have p2 : c2 = '.' := by simpa using p2
    subst p2
    obtain ⟨a, ha, _⟩ := hs
    have hd := h.dot a c1 t.rest (by rw [ha, e1', e1, e2])
    have hr := digit_range hd
    rw [hU.isNumber c1 (by omega), hd] at p1
    simp at p1
  have h5 : rxOn.matches T = false := by
    refine no_match fun s hs t ht => ?_
    obtain ⟨u1, k1, ht⟩ := seq_run ht
    obtain ⟨u2, k2, ht⟩ := seq_run ht
    obtain ⟨u3, k3, ht⟩ := seq_run ht
    have hs2 := (hs.run k1).run k2
    obtain ⟨c3, e3, p3⟩ := wordChr_run k3
    have p3 : c3 = ':' := by simpa using p3
    subst p3
    obtain ⟨a, ha, _⟩ := hs2
    obtain ⟨z, r', hr, hz⟩ := colon_sound (a := a) (r := u3.rest) (by rw [← e3, ← ha]; exact h.colon)
    obtain ⟨u4, k4, _⟩ := seq_run ht
    obtain ⟨c4, r4, e4, p4⟩ := plus_run k4
    rw [hr] at e4
    simp only [List.cons.injEq] at e4
    rw [← e4.1] at p4
    have hk : ∀ n < 58, (Char.ofNat n).isDigit = true → isRxSpace (Char.ofNat n) = false := by decide +kernel
    have hk' := hk z.toNat (by have := digit_range hz; omega)
    rw [Char.ofNat_toNat] at hk'
    rw [hk' hz] at p4
    cases p4
  unfold sanitizeDate
  simp only [replaceAll_none h1, replaceAll_none h2, replaceAll_none h3, tidy_spaces h.tidy, replaceAll_none h4]
  have e1 : cutOn T = T := by
    unfold cutOn
    have : rxOn.findFirst T = none := by
      unfold Rx.matches at h5; unfold Rx.findFirst; simpa using h5
    rw [this]
  have e2 : trimColon T = T := by
    unfold trimColon
    rw [if_neg]
    intro hh
    obtain ⟨a, ha⟩ := List.getLast?_eq_some_iff.mp hh
    obtain ⟨z, r', hr, _⟩ := colon_sound (a := a) (r := []) (by rw [← ha]; exact h.colon)
    cases hr
  have e3 : normalizeApostrophe T = T := by
    unfold normalizeApostrophe
    have : ∀ c ∈ T, (if ['\u2019', '\u02bc', '\u02bb', '\u055a', '\ua78c', '\u2032', '\u2035', '\u02b9', '\uff07'].contains c then '\'' else c) = c := by
      intro c hc
      rw [if_neg]
      intro hm
      rw [List.contains_iff_mem] at hm
      refine h.notReplaced (d := c) ?_ hc
      simp only [List.mem_cons, List.not_mem_nil, or_false] at hm
      rcases hm with rfl | rfl | rfl | rfl | rfl | rfl | rfl | rfl | rfl <;> decide
    rw [List.map_congr_left this, List.map_id']
  rw [e1, e2, e3, tidy_trim h.tidy]

/-! ## No numbers of seconds -/

theorem rep_digits : ∀ (n : Nat) {s t : MSt}, t ∈ (Rx.digit.rep n).run s → ∀ i < n, ∃ c, s.rest[i]? = some c ∧ c.isDigit = true := by
  intro n
  induction n with
  | zero => intro s t _ i hi; omega
  | succ n ih =>
    intro s t h i hi
    obtain ⟨u, hu, h⟩ := seq_run h
    obtain ⟨c, e, hc⟩ := wordChr_run hu
    cases i with
    | zero => exact ⟨c, by rw [e]; rfl, hc⟩
    | succ i =>
      obtain ⟨d, e', hd⟩ := ih h i (by omega)
      exact ⟨d, by rw [e]; simpa using e', hd⟩

theorem word_stamp {T : List Char} {i : Nat} {c : Char} (hi : i < 10) (hc : T[i]? = some c) (hd : c.isDigit = false) : rxTimestamp.matches T = false := by
  refine no_match fun s hs t ht => ?_
  obtain ⟨u1, k1, ht⟩ := seq_run ht
  obtain ⟨u2, k2, ht⟩ := seq_run ht
  unfold Rx.run at k1
  split at k1
  · rename_i hp
    simp only [List.mem_singleton] at k1
    subst k1
    obtain ⟨a, ha, hpr⟩ := hs
    have ha0 : a = [] := by
      rw [hpr] at hp
      cases a with
      | nil => rfl
      | cons x a =>
        exfalso
        cases hl : (x :: a).getLast? with
        | none => rw [List.getLast?_eq_none_iff] at hl; cases hl
        | some y => rw [hl] at hp; cases hp
    subst ha0
    obtain ⟨v, g, _⟩ := grp_run k2
    obtain ⟨d, hd1, hd2⟩ := rep_digits 10 g i hi
    rw [List.nil_append] at ha
    rw [← ha, hc] at hd1
    cases hd1
    rw [hd] at hd2
    cases hd2
  · cases k1

theorem word_negStamp {T : List Char} (h : '-' ∉ T) : rxNegativeTimestamp.matches T = false := by
  refine no_match fun s hs t ht => ?_
  obtain ⟨u1, k1, ht⟩ := seq_run ht
  obtain ⟨u2, k2, ht⟩ := seq_run ht
  obtain ⟨v, g, _⟩ := grp_run k2
  obtain ⟨u3, k3, _⟩ := seq_run g
  obtain ⟨c, e, hc⟩ := wordChr_run k3
  have hc : c = '-' := by simpa using hc
  subst hc
  exact h ((hs.run k1).mem (c := '-') (by rw [e]; simp))

/-! ## Digits -/

theorem digits_word {U : Uni} (hU : AsciiUni U) {s : List Char} (h : ∀ c ∈ s, c.toNat < 128 ∨ U.isDigit c = false) : normalizeDigits U.isDigit s = s := by
  have key : ∀ (s : List Char) (last : Int), last ≤ 0 → (∀ c ∈ s, c.toNat < 128 ∨ U.isDigit c = false) → digitLoop U.isDigit last s = s := by
    intro s
    induction s with
    | nil => intros; rfl
    | cons c s ih =>
      intro last hl h
      have hstep : (digitStep U.isDigit last c).1 = c ∧ (digitStep U.isDigit last c).2 ≤ 0 := by
        rcases h c (by simp) with h' | h'
        · exact digitStep_ascii hU h' hl
        · unfold digitStep
          rw [h']
          exact ⟨rfl, hl⟩
      unfold digitLoop
      rw [hstep.1, ih _ hstep.2 fun x hx => h x (by simp [hx])]
  exact key s (-1) (by decide) h

end Verif.Lemmas
