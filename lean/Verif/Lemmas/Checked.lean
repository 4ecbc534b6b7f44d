import Verif.Model.Checked
import Verif.Model.Pattern
import Verif.Lemmas.Rx
import Verif.Lemmas.Total
import Verif.Props.Permutation
/-! Helper lemmas: the checked functions agree with the model for languages whose data is fit. -/
set_option autoImplicit false
namespace Verif.Lemmas
open Verif.Go Verif.Model Verif.Spec

/-! ## Patterns that take something and capture their groups -/

/-- The least number of characters a pattern takes. -/
def minLen : Pat → Nat
  | .eps => 0
  | .lit s => s.length
  | .cls _ _ => 1
  | .seq a b => minLen a + minLen b
  | .alt a b => min (minLen a) (minLen b)
  | .opt _ => 0
  | .star _ => 0
  | .grp _ a => minLen a
  | .bos => 0
  | .eos => 0

/-- Whether every match captures the group. -/
def sure (n : Nat) : Pat → Bool
  | .seq a b => sure n a || sure n b
  | .alt a b => sure n a && sure n b
  | .grp m a => m == n || sure n a
  | _ => false

theorem run_rest {r : Rx} {s t : MSt} (h : t ∈ r.run s) : t.rest.length ≤ s.rest.length := by
  obtain ⟨w, e⟩ := r.run_suffix s t h
  rw [e]; simp

theorem litRx_min : ∀ (l : List Char) (s t : MSt), t ∈ (litRx l).run s → t.rest.length + l.length ≤ s.rest.length := by
  have one : ∀ (p : Char → Bool) (s t : MSt), t ∈ (Rx.chr p).run s → t.rest.length + 1 ≤ s.rest.length := by
    intro p s t h
    unfold Rx.run at h
    split at h
    · rename_i c r hr
      split at h
      · simp at h; simp [h, hr]
      · simp at h
    · simp at h
  intro l
  induction l with
  | nil => intro s t h; exact run_rest h
  | cons c l ih =>
    intro s t h
    cases l with
    | nil => exact one _ s t h
    | cons d l =>
      simp only [litRx, Rx.run, List.mem_flatMap] at h
      obtain ⟨u, hu, h⟩ := h
      have h1 := one _ s u (by simpa only [Rx.run] using hu)
      have h2 := ih u t h
      simp only [List.length_cons] at h2 ⊢
      omega

theorem rxRun_min (U : Uni) : ∀ (p : Pat) (s t : MSt), t ∈ (p.toRx U).run s → t.rest.length + minLen p ≤ s.rest.length := by
  intro p
  induction p with
  | eps => intro s t h; exact run_rest h
  | lit l => intro s t h; exact litRx_min l s t h
  | cls n i =>
    intro s t h
    unfold Pat.toRx Rx.run at h
    split at h
    · rename_i c r hr
      split at h
      · simp at h; simp [h, hr, minLen]
      · simp at h
    · simp at h
  | seq a b iha ihb =>
    intro s t h
    simp only [Pat.toRx, Rx.run, List.mem_flatMap] at h
    obtain ⟨u, hu, h⟩ := h
    have := iha s u hu
    have := ihb u t h
    simp only [minLen]; omega
  | alt a b iha ihb =>
    intro s t h
    simp only [Pat.toRx, Rx.run, List.mem_append] at h
    simp only [minLen]
    rcases h with h | h
    · have := iha s t h; omega
    · have := ihb s t h; omega
  | opt a _ => intro s t h; exact run_rest h
  | star a _ => intro s t h; exact run_rest h
  | grp n a iha =>
    intro s t h
    simp only [Pat.toRx, Rx.run, List.mem_map] at h
    obtain ⟨u, hu, rfl⟩ := h
    exact iha s u hu
  | bos => intro s t h; exact run_rest h
  | eos => intro s t h; exact run_rest h

/-- Captured groups stay captured. -/
theorem starRun_caps (f : MSt → List MSt) (hf : ∀ s t, t ∈ f s → ∃ w, t.caps = w ++ s.caps) :
    ∀ (n : Nat) (s t : MSt), t ∈ starRun f n s → ∃ w, t.caps = w ++ s.caps := by
  intro n
  induction n with
  | zero => intro s t h; simp [starRun] at h; exact ⟨[], by simp [h]⟩
  | succ n ih =>
    intro s t h
    simp only [starRun, List.mem_append, List.mem_flatMap, List.mem_filter, List.mem_singleton] at h
    rcases h with ⟨u, ⟨hu, _⟩, h2⟩ | h
    · obtain ⟨w1, e1⟩ := hf s u hu
      obtain ⟨w2, e2⟩ := ih u t h2
      exact ⟨w2 ++ w1, by rw [e2, e1, List.append_assoc]⟩
    · exact ⟨[], by simp [h]⟩

theorem run_caps (r : Rx) : ∀ (s t : MSt), t ∈ r.run s → ∃ w, t.caps = w ++ s.caps := by
  induction r with
  | eps => intro s t h; simp [Rx.run] at h; exact ⟨[], by simp [h]⟩
  | chr p =>
    intro s t h
    unfold Rx.run at h
    split at h
    · split at h
      · simp at h; exact ⟨[], by simp [h]⟩
      · simp at h
    · simp at h
  | seq a b iha ihb =>
    intro s t h
    simp only [Rx.run, List.mem_flatMap] at h
    obtain ⟨u, hu, h2⟩ := h
    obtain ⟨w1, e1⟩ := iha s u hu
    obtain ⟨w2, e2⟩ := ihb u t h2
    exact ⟨w2 ++ w1, by rw [e2, e1, List.append_assoc]⟩
  | alt a b iha ihb =>
    intro s t h
    simp only [Rx.run, List.mem_append] at h
    rcases h with h | h
    · exact iha s t h
    · exact ihb s t h
  | opt a iha =>
    intro s t h
    simp only [Rx.run, List.mem_append, List.mem_singleton] at h
    rcases h with h | h
    · exact iha s t h
    · exact ⟨[], by simp [h]⟩
  | star a iha => intro s t h; exact starRun_caps a.run iha _ s t h
  | grp n a iha =>
    intro s t h
    simp only [Rx.run, List.mem_map] at h
    obtain ⟨u, hu, rfl⟩ := h
    obtain ⟨w, e⟩ := iha s u hu
    exact ⟨_ :: w, by simp only [e, List.cons_append]; rfl⟩
  | bos => intro s t h; unfold Rx.run at h; split at h <;> simp at h; exact ⟨[], by simp [h]⟩
  | eos => intro s t h; unfold Rx.run at h; split at h <;> simp at h; exact ⟨[], by simp [h]⟩
  | wb => intro s t h; unfold Rx.run at h; split at h <;> simp at h; exact ⟨[], by simp [h]⟩

theorem hasCap_mono {r : Rx} {s t : MSt} {n : Nat} (h : t ∈ r.run s) (hs : hasCap s n = true) : hasCap t n = true := by
  obtain ⟨w, e⟩ := run_caps r s t h
  unfold hasCap at hs ⊢
  rw [e, List.any_append, hs, Bool.or_true]

theorem run_sure (U : Uni) (n : Nat) : ∀ (p : Pat), sure n p = true → ∀ (s t : MSt), t ∈ (p.toRx U).run s → hasCap t n = true := by
  intro p
  induction p with
  | seq a b iha ihb =>
    intro h s t ht
    simp only [Pat.toRx, Rx.run, List.mem_flatMap] at ht
    obtain ⟨u, hu, ht⟩ := ht
    simp only [sure, Bool.or_eq_true] at h
    rcases h with h | h
    · exact hasCap_mono ht (iha h s u hu)
    · exact ihb h u t ht
  | alt a b iha ihb =>
    intro h s t ht
    simp only [sure, Bool.and_eq_true] at h
    simp only [Pat.toRx, Rx.run, List.mem_append] at ht
    rcases ht with ht | ht
    · exact iha h.1 s t ht
    · exact ihb h.2 s t ht
  | grp m a iha =>
    intro h s t ht
    simp only [Pat.toRx, Rx.run, List.mem_map] at ht
    obtain ⟨u, hu, rfl⟩ := ht
    simp only [sure, Bool.or_eq_true, beq_iff_eq] at h
    rcases h with rfl | h
    · simp [hasCap]
    · have := iha h s u hu
      unfold hasCap at this ⊢
      rw [List.any_cons, this, Bool.or_true]
  | _ => intro h; simp [sure] at h

/-! ## Languages fit for the loops -/

/-- A language for which splitting ends. -/
structure Splits (L : Lang) : Prop where
  takes : ∀ rx k, L.rxCombined = some (rx, k) → ∀ s t, t ∈ rx.run s → t.rest.length < s.rest.length
  groups : ∀ rx k, L.rxCombined = some (rx, k) → ∀ n ∈ groupsRead k, ∀ s t, t ∈ rx.run s → hasCap t n = true
  words : [] ∉ L.knownWords
  translated : ∀ w ts, L.translateWord w = some ts → ts ≠ []

theorem find_run {r : Rx} : ∀ (s : List Char) (p : Option Char) (m : RxMatch), r.find p s = some m →
    ∃ q w, m.after ∈ r.run ⟨q, w, []⟩ ∧ w.length ≤ s.length := by
  intro s
  induction s with
  | nil =>
    intro p m h
    unfold Rx.find at h
    split at h
    · rename_i t l ht
      cases h
      exact ⟨p, [], by rw [ht]; simp, by simp⟩
    · cases h
  | cons c cs ih =>
    intro p m h
    unfold Rx.find at h
    split at h
    · rename_i t l ht
      cases h
      exact ⟨p, c :: cs, by rw [ht]; simp, by simp⟩
    · cases hf : r.find (some c) cs with
      | none => rw [hf] at h; simp at h
      | some m' =>
        rw [hf] at h
        simp only [Option.map_some, Option.some.injEq] at h
        subst h
        obtain ⟨q, w, h1, h2⟩ := ih (some c) m' hf
        exact ⟨q, w, h1, by simp; omega⟩

theorem splitWithRegex_checked {rx : Rx} {k : Nat} (ht : ∀ s t, t ∈ rx.run s → t.rest.length < s.rest.length)
    (hg : ∀ n ∈ groupsRead k, ∀ s t, t ∈ rx.run s → hasCap t n = true) :
    ∀ (n : Nat) (s : List Char), s.length < n → splitWithRegexC rx k s = .ok (splitWithRegexFuel rx k n s) := by
  intro n
  induction n with
  | zero => intro s h; omega
  | succ n ih =>
    intro s h
    rw [splitWithRegexC, splitWithRegexFuel]
    cases hf : rx.findFirst s with
    | none => rfl
    | some m =>
      obtain ⟨q, w, h1, h2⟩ := find_run _ _ _ hf
      have h3 := ht _ _ h1
      have hall : (groupsRead k).all (hasCap m.after) = true := List.all_eq_true.mpr fun x hx => hg x hx _ _ h1
      simp only at h3
      simp only [hall, Bool.not_true, Bool.false_eq_true, if_false]
      rw [if_pos (by omega), ih m.after.rest (by omega)]

theorem indexStr_le {sub : List Char} : ∀ {s : List Char} {i : Nat}, indexStr sub s = some i → i + sub.length ≤ s.length := by
  intro s
  induction s with
  | nil =>
    intro i h
    unfold indexStr at h
    split at h
    · rename_i he
      cases h
      rw [List.isEmpty_iff.mp he]; simp
    · cases h
  | cons c s ih =>
    intro i h
    unfold indexStr at h
    split at h
    · rename_i hp
      cases h
      have := (List.isPrefixOf_iff_prefix.mp hp).length_le
      omega
    · cases hi : indexStr sub s with
      | none => rw [hi] at h; simp at h
      | some j =>
        rw [hi] at h
        simp only [Option.map_some, Option.some.injEq] at h
        subst h
        have := ih hi
        simp only [List.length_cons]; omega

theorem knownLoop_mem (U : Uni) (b : Bool) (str : List Char) (W : List (List Char)) : ∀ (ws : List (List Char)) (cand : Option (Nat × List Char)),
    (∀ w ∈ ws, w ∈ W) → (∀ p w, cand = some (p, w) → w ∈ W) → ∀ p w, knownLoop U b str ws cand = some (p, w) → w ∈ W := by
  intro ws
  induction ws with
  | nil => intro cand _ hc p w h; exact hc p w h
  | cons v ws ih =>
    intro cand hws hc p w h
    unfold knownLoop at h
    split at h
    · exact ih cand (fun x hx => hws x (by simp [hx])) hc p w h
    · rename_i pos hpos
      split at h
      · have hc' : ∀ p w, (match cand with
          | none => some (pos, v)
          | some (p, v') => if pos < p then some (pos, v) else some (p, v')) = some (p, w) → w ∈ W := by
          intro p w he
          split at he
          · cases he; exact hws _ (by simp)
          · split at he
            · cases he; exact hws _ (by simp)
            · rename_i p' v' _ _
              cases he; exact hc _ _ rfl
        dsimp only at h
        split at h
        · exact hc' p w h
        · exact ih _ (fun x hx => hws x (by simp [hx])) hc' p w h
      · exact ih cand (fun x hx => hws x (by simp [hx])) hc p w h

theorem splitByKnown_checked (U : Uni) (L : Lang) (hw : [] ∉ L.knownWords) (keep : Bool) : ∀ (n : Nat) (s : List Char), s.length < n →
    splitByKnownC U L keep s = .ok (splitByKnownFuel U L keep n s) := by
  intro n
  induction n with
  | zero => intro s h; omega
  | succ n ih =>
    intro s h
    rw [splitByKnownC, splitByKnownFuel]
    cases hf : findKnown U L s with
    | none => rfl
    | some p =>
      obtain ⟨pos, w⟩ := p
      have hmem : w ∈ L.knownWords := by
        unfold findKnown at hf
        split at hf
        · cases hf
        · exact knownLoop_mem U _ s L.knownWords _ none (fun x hx => hx) (fun _ _ h => by cases h) _ _ hf
      have hs : s ≠ [] := by
        rintro rfl
        unfold findKnown at hf
        simp [trimSpace] at hf
      have hw0 : w ≠ [] := fun he => hw (he ▸ hmem)
      have hwl : 0 < w.length := List.length_pos_iff.mpr hw0
      have hsl : 0 < s.length := List.length_pos_iff.mpr hs
      have hlt : (s.drop (pos + w.length)).length < s.length := by rw [List.length_drop]; omega
      dsimp only
      by_cases hu : (s.drop (pos + w.length)).isEmpty = true
      · simp [hu]
      · simp only [hu, Bool.false_eq_true, if_false, if_pos hlt, Bool.not_false, if_true]
        rw [ih _ (by omega)]

theorem splitTokens_checked (U : Uni) (L : Lang) (hw : [] ∉ L.knownWords) (keep : Bool) : ∀ (l : List (List Char)),
    splitTokensC U L keep l = .ok (l.flatMap fun token =>
      if (L.rxExact.map (·.matches token)).getD false then [token] else splitByKnown U L keep token) := by
  intro l
  induction l with
  | nil => rfl
  | cons t l ih =>
    rw [splitTokensC, ih, List.flatMap_cons]
    have := splitByKnown_checked U L hw keep (t.length + 1) t (by omega)
    unfold splitByKnown
    rw [this]
    by_cases hx : (L.rxExact.map (·.matches t)).getD false = true
    · simp [hx]
    · simp [hx]

theorem splitText_checked (U : Uni) {L : Lang} (h : Splits L) (str : List Char) (keep : Bool) (skip : List (List Char)) :
    splitTextC U L str keep skip = .ok (splitText U L str keep skip) := by
  unfold splitTextC splitText splitRaw
  cases hc : L.rxCombined with
  | none => dsimp only; rw [splitTokens_checked U L h.words]
  | some p =>
    obtain ⟨rx, k⟩ := p
    have := splitWithRegex_checked (h.takes rx k hc) (h.groups rx k hc) (str.length + 1) str (by omega)
    dsimp only
    rw [this]
    dsimp only
    rw [splitTokens_checked U L h.words]
    rfl

theorem applicable_checked (U : Uni) {L : Lang} (h : Splits L) (skip : List (List Char)) (str : List Char) :
    isApplicableC U L skip str = .ok (isApplicable U L skip str) := by
  unfold isApplicableC isApplicable
  dsimp only
  rw [splitText_checked U h]

theorem translateToken_ne {L : Lang} (h : Splits L) (skip : List (List Char)) (keep : Bool) (t : List Char) : translateToken L skip keep t ≠ [] := by
  unfold translateToken
  split
  · simp
  · split
    · simp
    · split
      · rename_i ts hts
        have := h.translated _ _ hts
        simpa using this
      · simp

end Verif.Lemmas
