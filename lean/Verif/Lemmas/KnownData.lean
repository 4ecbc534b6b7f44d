import Verif.Lemmas.KnownWords
import Verif.Model.Pattern
/-! Helper lemmas for C63: the patterns of the locales. -/
set_option autoImplicit false
namespace Verif.Lemmas.KW
open Verif.Go Verif.Model Verif.Spec Verif.Lemmas

/-- No group inside. -/
def noGroups : Pat → Bool
  | .seq a b => noGroups a && noGroups b
  | .alt a b => noGroups a && noGroups b
  | .opt a => noGroups a
  | .star a => noGroups a
  | .grp _ _ => false
  | _ => true

/-- The edge of a word: the end of the text, or a character that is not of a word. -/
def edge (e : Pat) : Pat := .alts [e, .cls true [.letter, .mark, .digit], .lit ['_']]

/-- One group around it all (in a language without spaces between words), or three beside each other, the outer ones being edges of words. -/
def wholePattern (noSpacing : Bool) : Pat → Nat → Bool
  | .grp 1 a, 1 => noGroups a && noSpacing
  | .seq (.grp 1 a) (.seq (.grp 2 b) (.grp 3 c)), 3 => decide (a = edge .bos) && noGroups b && decide (c = edge .eos)
  | _, _ => false

/-- The pattern is one for whole texts. -/
def exactPattern : Pat → Bool
  | .seq .bos (.seq (.grp 1 _) .eos) => true
  | _ => false

theorem starRun_caps (f : MSt → List MSt) (hf : ∀ s t, t ∈ f s → t.caps = s.caps) : ∀ (n : Nat) (s t : MSt), t ∈ starRun f n s → t.caps = s.caps := by
  intro n
  induction n with
  | zero => intro s t h; simp [starRun] at h; rw [h]
  | succ n ih =>
    intro s t h
    simp only [starRun, List.mem_append, List.mem_flatMap, List.mem_filter, List.mem_singleton] at h
    rcases h with ⟨u, ⟨hu, _⟩, h2⟩ | h
    · rw [ih u t h2, hf s u hu]
    · rw [h]

theorem litRx_caps : ∀ (w : List Char) (s t : MSt), t ∈ (litRx w).run s → t.caps = s.caps := by
  have one : ∀ (p : Char → Bool) (s t : MSt), t ∈ (Rx.chr p).run s → t.caps = s.caps := by
    intro p s t h
    unfold Rx.run at h
    split at h
    · split at h
      · simp at h; rw [h]
      · simp at h
    · simp at h
  intro w
  induction w with
  | nil => intro s t h; simp [litRx, Rx.run] at h; rw [h]
  | cons c w ih =>
    intro s t h
    cases w with
    | nil => exact one _ s t h
    | cons d w =>
      unfold litRx at h
      simp only [Rx.run, List.mem_flatMap] at h
      obtain ⟨u, hu, h2⟩ := h
      rw [ih u t h2]
      exact one _ s u (by simpa [Rx.run] using hu)

theorem noGroups_caps (U : Uni) : ∀ (p : Pat), noGroups p = true → ∀ (s t : MSt), t ∈ (p.toRx U).run s → t.caps = s.caps := by
  intro p
  induction p with
  | eps => intro _ s t h; simp [Pat.toRx, Rx.run] at h; rw [h]
  | lit w => intro _ s t h; exact litRx_caps w s t h
  | cls neg items =>
    intro _ s t h
    unfold Pat.toRx Rx.run at h
    split at h
    · split at h
      · simp at h; rw [h]
      · simp at h
    · simp at h
  | seq a b iha ihb =>
    intro hn s t h
    simp only [noGroups, Bool.and_eq_true] at hn
    simp only [Pat.toRx, Rx.run, List.mem_flatMap] at h
    obtain ⟨u, hu, h2⟩ := h
    rw [ihb hn.2 u t h2, iha hn.1 s u hu]
  | alt a b iha ihb =>
    intro hn s t h
    simp only [noGroups, Bool.and_eq_true] at hn
    simp only [Pat.toRx, Rx.run, List.mem_append] at h
    rcases h with h | h
    · exact iha hn.1 s t h
    · exact ihb hn.2 s t h
  | opt a iha =>
    intro hn s t h
    simp only [Pat.toRx, Rx.run, List.mem_append, List.mem_singleton] at h
    rcases h with h | h
    · exact iha hn s t h
    · rw [h]
  | star a iha => intro hn s t h; exact starRun_caps _ (iha hn) _ s t h
  | grp n a _ => intro hn; cases hn
  | bos => intro _ s t h; unfold Pat.toRx Rx.run at h; split at h <;> simp at h; rw [h]
  | eos => intro _ s t h; unfold Pat.toRx Rx.run at h; split at h <;> simp at h; rw [h]

/-- Where a match comes from. -/
theorem kw_find {r : Rx} : ∀ (s : List Char) (p : Option Char) (m : RxMatch), r.find p s = some m →
    ∃ q s', m.after ∈ r.run ⟨q, s', []⟩ ∧ m.text = s'.take (s'.length - m.after.rest.length) ∧ (q = none → p = none ∧ m.before = []) := by
  intro s
  induction s with
  | nil =>
    intro p m h
    unfold Rx.find at h
    split at h
    · rename_i t l e
      cases h
      exact ⟨p, [], by rw [e]; simp, by simp, fun hq => ⟨hq, rfl⟩⟩
    · cases h
  | cons c cs ih =>
    intro p m h
    unfold Rx.find at h
    split at h
    · rename_i t l e
      cases h
      exact ⟨p, c :: cs, by rw [e]; simp, rfl, fun hq => ⟨hq, rfl⟩⟩
    · cases hf : r.find (some c) cs with
      | none => rw [hf] at h; cases h
      | some m' =>
        rw [hf] at h
        cases h
        obtain ⟨q, s', h1, h2, h3⟩ := ih (some c) m' hf
        exact ⟨q, s', h1, h2, fun hq => by cases (h3 hq).1⟩

theorem taken {w r : List Char} : (w ++ r).take ((w ++ r).length - r.length) = w := by
  rw [show (w ++ r).length - r.length = w.length by simp]; simp

/-- What an edge takes: nothing, or one character that is not of a word. -/
theorem edge_takes (U : Uni) (e : Pat) (s u : MSt) (h : u ∈ ((edge e).toRx U).run s) :
    u ∈ (e.toRx U).run s ∨ ∃ c, ¬ WordLetter U c ∧ s.rest = c :: u.rest := by
  simp only [edge, Pat.alts, Pat.toRx, Rx.run, List.mem_append] at h
  rcases h with h | h | h
  · exact Or.inl h
  · right
    split at h
    · rename_i c r hr
      split at h
      · rename_i hc
        simp at h
        refine ⟨c, ?_, by rw [hr, h]⟩
        rintro ⟨h1, _⟩
        simp [CItem.has] at hc
        rcases h1 with h1 | h1
        · rw [hc.1] at h1; cases h1
        · rw [hc.2.1] at h1; cases h1
      · simp at h
    · simp at h
  · right
    simp only [litRx, Rx.run] at h
    split at h
    · rename_i c r hr
      split at h
      · rename_i hc
        simp at h
        refine ⟨c, ?_, by rw [hr, h]⟩
        have : c = '_' := by simpa [foldEq, Char.toLower, Char.toUpper] using hc
        rw [this]
        exact fun h => h.2.2.2 rfl
      · simp at h
    · simp at h

theorem edge_caps (U : Uni) : noGroups (edge .bos) = true ∧ noGroups (edge .eos) = true := by decide

theorem whole_pattern (U : Uni) {b : Bool} {p : Pat} {k : Nat} (h : wholePattern b p k = true) : (k = 1 ∨ k = 3) ∧
    ∀ (s : List Char) (m : RxMatch), (p.toRx U).findFirst s = some m →
    (k = 1 → m.after.cap 1 = m.text ∧ b = true) ∧
    (k = 3 → m.after.cap 1 ++ m.after.cap 2 ++ m.after.cap 3 = m.text ∧
      ((m.before = [] ∧ m.after.cap 1 = []) ∨ ∃ c, ¬ WordLetter U c ∧ m.after.cap 1 = [c]) ∧
      ((m.after.rest = [] ∧ m.after.cap 3 = []) ∨ ∃ c, ¬ WordLetter U c ∧ m.after.cap 3 = [c])) := by
  unfold wholePattern at h
  split at h
  · rename_i a
    refine ⟨Or.inl rfl, fun s m hf => ?_⟩
    obtain ⟨q, s', hr, ht, hq⟩ := kw_find s none m hf
    rw [Bool.and_eq_true] at h
    refine ⟨fun _ => ⟨?_, h.2⟩, by simp⟩
    simp only [Pat.toRx, Rx.run, List.mem_map] at hr
    obtain ⟨u, hu, e⟩ := hr
    rw [ht, ← e]
    rfl
  · rename_i a b' c
    refine ⟨Or.inr rfl, fun s m hf => ?_⟩
    obtain ⟨q, s', hr, ht, hq⟩ := kw_find s none m hf
    refine ⟨by simp, fun _ => ?_⟩
    simp only [Bool.and_eq_true, decide_eq_true_eq] at h
    obtain ⟨⟨ha, hb⟩, hc⟩ := h
    subst ha hc
    simp only [Pat.toRx, Rx.run, List.mem_flatMap, List.mem_map] at hr
    obtain ⟨_, ⟨u1, h1, rfl⟩, _, ⟨u2, h2, rfl⟩, u3, h3, e⟩ := hr
    obtain ⟨w1, e1⟩ := Rx.run_suffix _ _ _ h1
    obtain ⟨w2, e2⟩ := Rx.run_suffix _ _ _ h2
    obtain ⟨w3, e3⟩ := Rx.run_suffix _ _ _ h3
    have c1 := noGroups_caps U _ (edge_caps U).1 _ _ h1
    have c2 := noGroups_caps U b' hb _ _ h2
    have c3 := noGroups_caps U _ (edge_caps U).2 _ _ h3
    have t1 := edge_takes U _ _ _ h1
    have t3 := edge_takes U _ _ _ h3
    dsimp only at e1 e2 e3 c1 c2 c3 t1 t3
    have hcap : m.after.cap 1 = w1 ∧ m.after.cap 2 = w2 ∧ m.after.cap 3 = w3 := by
      rw [← e]
      unfold MSt.cap
      dsimp only
      rw [c3, c2, c1, e3, taken, e2, e3, taken, e1, e2, e3, taken]
      simp [List.find?]
    rw [hcap.1, hcap.2.1, hcap.2.2]
    refine ⟨?_, ?_, ?_⟩
    · rw [ht, ← e]
      dsimp only
      rw [e1, e2, e3, show w1 ++ (w2 ++ (w3 ++ u3.rest)) = (w1 ++ w2 ++ w3) ++ u3.rest by simp, taken]
    · rcases t1 with t1 | ⟨c, hc, t1⟩
      · left
        simp only [Pat.toRx, Rx.run] at t1
        split at t1
        · rename_i hn
          simp at t1
          refine ⟨(hq (by simpa using hn)).2, ?_⟩
          rw [t1] at e1
          simpa using e1
        · cases t1
      · right
        refine ⟨c, hc, ?_⟩
        rw [t1] at e1
        have := congrArg List.length e1
        have hl : w1.length = 1 := by simp at this; omega
        rw [show c :: u1.rest = [c] ++ u1.rest from rfl] at e1
        exact (List.append_inj_left e1 (by simp [hl])).symm
    · rcases t3 with t3 | ⟨c, hc, t3⟩
      · left
        simp only [Pat.toRx, Rx.run] at t3
        split at t3
        · rename_i hn
          simp at t3
          rw [← e]
          dsimp only
          rw [t3] at e3 ⊢
          exact ⟨by simpa using hn, by simpa using e3⟩
        · cases t3
      · right
        refine ⟨c, hc, ?_⟩
        rw [t3] at e3
        have := congrArg List.length e3
        have hl : w3.length = 1 := by simp at this; omega
        rw [show c :: u3.rest = [c] ++ u3.rest from rfl] at e3
        exact (List.append_inj_left e3 (by simp [hl])).symm
  · cases h

/-! ## What characters a pattern takes -/

theorem starRun_takes (P : Char → Prop) (f : MSt → List MSt) (hf : ∀ s t, t ∈ f s → ∃ w, s.rest = w ++ t.rest ∧ ∀ c ∈ w, P c) : ∀ (n : Nat) (s t : MSt),
    t ∈ starRun f n s → ∃ w, s.rest = w ++ t.rest ∧ ∀ c ∈ w, P c := by
  intro n
  induction n with
  | zero => intro s t h; simp [starRun] at h; exact ⟨[], by simp [h]⟩
  | succ n ih =>
    intro s t h
    simp only [starRun, List.mem_append, List.mem_flatMap, List.mem_filter, List.mem_singleton] at h
    rcases h with ⟨u, ⟨hu, _⟩, h2⟩ | h
    · obtain ⟨w1, e1, p1⟩ := hf s u hu
      obtain ⟨w2, e2, p2⟩ := ih u t h2
      exact ⟨w1 ++ w2, by rw [e1, e2, List.append_assoc], by
        intro c hc
        rcases List.mem_append.mp hc with hc | hc
        · exact p1 c hc
        · exact p2 c hc⟩
    · exact ⟨[], by simp [h]⟩

theorem run_takes (r : Rx) : ∀ (s t : MSt), t ∈ r.run s → ∃ w, s.rest = w ++ t.rest ∧ ∀ c ∈ w, TakesChar r c := by
  induction r with
  | eps => intro s t h; simp [Rx.run] at h; exact ⟨[], by simp [h]⟩
  | chr p =>
    intro s t h
    unfold Rx.run at h
    split at h
    · rename_i c r hr
      split at h
      · rename_i hp
        simp at h; exact ⟨[c], by simp [h, hr], by simpa [TakesChar] using hp⟩
      · simp at h
    · simp at h
  | seq a b iha ihb =>
    intro s t h
    simp only [Rx.run, List.mem_flatMap] at h
    obtain ⟨u, hu, h2⟩ := h
    obtain ⟨w1, e1, p1⟩ := iha s u hu
    obtain ⟨w2, e2, p2⟩ := ihb u t h2
    refine ⟨w1 ++ w2, by rw [e1, e2, List.append_assoc], ?_⟩
    intro c hc
    rcases List.mem_append.mp hc with hc | hc
    · exact Or.inl (p1 c hc)
    · exact Or.inr (p2 c hc)
  | alt a b iha ihb =>
    intro s t h
    simp only [Rx.run, List.mem_append] at h
    rcases h with h | h
    · obtain ⟨w, e, p⟩ := iha s t h; exact ⟨w, e, fun c hc => Or.inl (p c hc)⟩
    · obtain ⟨w, e, p⟩ := ihb s t h; exact ⟨w, e, fun c hc => Or.inr (p c hc)⟩
  | opt a iha =>
    intro s t h
    simp only [Rx.run, List.mem_append, List.mem_singleton] at h
    rcases h with h | h
    · exact iha s t h
    · exact ⟨[], by simp [h]⟩
  | star a iha => intro s t h; exact starRun_takes (TakesChar a) a.run iha _ s t h
  | grp n a iha =>
    intro s t h
    simp only [Rx.run, List.mem_map] at h
    obtain ⟨u, hu, rfl⟩ := h
    exact iha s u hu
  | bos => intro s t h; unfold Rx.run at h; split at h <;> simp at h; exact ⟨[], by simp [h]⟩
  | eos => intro s t h; unfold Rx.run at h; split at h <;> simp at h; exact ⟨[], by simp [h]⟩
  | wb => intro s t h; unfold Rx.run at h; split at h <;> simp at h; exact ⟨[], by simp [h]⟩

/-- A whole text matched by a pattern for whole texts: its characters are all taken by the pattern. -/
theorem exact_takes (U : Uni) {p : Pat} (h : exactPattern p = true) {s : List Char} (hm : (p.toRx U).matches s = true) : ∀ c ∈ s, TakesChar (p.toRx U) c := by
  unfold exactPattern at h
  split at h
  · rename_i a
    have hm' : (Rx.seq .bos (Rx.seq (.grp 1 (a.toRx U)) .eos)).matches s = true := hm
    obtain ⟨m, hf⟩ := Option.isSome_iff_exists.mp hm'
    have := Rx.find_bos (Rx.seq (.grp 1 (a.toRx U)) .eos) s
    rw [show (Rx.seq .bos (Rx.seq (.grp 1 (a.toRx U)) .eos)).findFirst s = some m from hf] at this
    split at this
    · rename_i t l e
      have ht : t ∈ (Rx.seq (.grp 1 (a.toRx U)) .eos).run ⟨none, s, []⟩ := by rw [e]; simp
      simp only [Rx.run, List.mem_flatMap, List.mem_map] at ht
      obtain ⟨_, ⟨u, hu, rfl⟩, h2⟩ := ht
      split at h2
      · rename_i hem
        obtain ⟨w, ew, pw⟩ := run_takes _ _ _ hu
        have : u.rest = [] := by simpa using hem
        dsimp only at ew
        rw [this, List.append_nil] at ew
        subst ew
        intro c hc
        exact Or.inr (Or.inl (pw c hc))
      · cases h2
    · cases this
  · cases h

end Verif.Lemmas.KW
