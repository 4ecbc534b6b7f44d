import Verif.Spec.KnownWords
import Verif.Lemmas.Search
import Verif.Lemmas.Rx
/-! Helper lemmas for C63. -/
set_option autoImplicit false
namespace Verif.Lemmas.KW
open Verif.Go Verif.Model Verif.Spec Verif.Lemmas

theorem numeralLoop_flatten (U : Uni) : ∀ (s : List Char) (cur : Bool) (g : List Char), (numeralLoop U cur g s).flatten = g.reverse ++ s := by
  intro s
  induction s with
  | nil => intro cur g; simp [numeralLoop]
  | cons r s ih =>
    intro cur g
    unfold numeralLoop
    split
    · simp [ih]
    · rw [ih]; simp

/-- No word across the boundary. -/
def Join (U : Uni) (s t : List Char) : Prop := ∀ a b, s.getLast? = some a → t.head? = some b → ¬ (WordLetter U a ∧ WordLetter U b)

/-- What a match of the pattern for relative phrases consists of: its one group, or its three, the first and last of which are edges of words. -/
def GroupsWhole (U : Uni) (L : Lang) : Prop :=
  ∀ rx k, L.rxCombined = some (rx, k) → (k = 1 ∨ k = 3) ∧ ∀ s m, rx.findFirst s = some m →
    (k = 1 → m.after.cap 1 = m.text ∧ L.noWordSpacing = true) ∧
    (k = 3 → m.after.cap 1 ++ m.after.cap 2 ++ m.after.cap 3 = m.text ∧
      ((m.before = [] ∧ m.after.cap 1 = []) ∨ ∃ c, ¬ WordLetter U c ∧ m.after.cap 1 = [c]) ∧
      ((m.after.rest = [] ∧ m.after.cap 3 = []) ∨ ∃ c, ¬ WordLetter U c ∧ m.after.cap 3 = [c]))

theorem WholeWords.one (U : Uni) (s : List Char) : WholeWords U [s] := by
  intro xs ys h a b ha hb
  cases xs with
  | nil => cases ha
  | cons x xs =>
    cases xs with
    | nil =>
      cases ys with
      | nil => cases hb
      | cons y ys => simp at h
    | cons x' xs => simp at h

theorem WholeWords.nil (U : Uni) : WholeWords U [] := by
  intro xs ys h a b ha _
  cases xs with
  | nil => cases ha
  | cons x xs => simp at h

theorem WholeWords.cons {U : Uni} {p : List Char} {ps : List (List Char)} (h : Join U p ps.flatten) (hps : WholeWords U ps) : WholeWords U (p :: ps) := by
  intro xs ys e a b ha hb
  cases xs with
  | nil => cases ha
  | cons x xs =>
    rw [List.cons_append] at e
    injection e with e1 e2
    subst e1
    rw [List.flatten_cons] at ha
    cases hx : xs.flatten with
    | nil =>
      rw [hx, List.append_nil] at ha
      refine h a b ha ?_
      rw [e2, List.flatten_append, hx]
      exact hb
    | cons c r =>
      refine hps xs ys e2 a b ?_ hb
      rw [hx] at ha ⊢
      rw [List.getLast?_append] at ha
      have hs : ((c :: r).getLast?).isSome := by simp [List.getLast?_isSome]
      obtain ⟨z, hz⟩ := Option.isSome_iff_exists.mp hs
      rw [hz] at ha ⊢
      exact ha

theorem WholeWords.tail {U : Uni} {p : List Char} {ps : List (List Char)} (h : WholeWords U (p :: ps)) : WholeWords U ps := by
  intro xs ys e a b ha hb
  refine h (p :: xs) ys (by rw [e, List.cons_append]) a b ?_ hb
  rw [List.flatten_cons, List.getLast?_append, ha]; rfl

theorem WholeWords.head {U : Uni} {p : List Char} {ps : List (List Char)} (h : WholeWords U (p :: ps)) : Join U p ps.flatten := by
  intro a b ha hb
  exact h [p] ps rfl a b (by simpa using ha) hb

theorem WholeWords.append {U : Uni} {p q : List (List Char)} (h : Join U p.flatten q.flatten) (hp : WholeWords U p) (hq : WholeWords U q) : WholeWords U (p ++ q) := by
  induction p with
  | nil => exact hq
  | cons x p ih =>
    rw [List.cons_append]
    refine WholeWords.cons ?_ (ih ?_ (WholeWords.tail hp))
    · intro a b ha hb
      rw [List.flatten_append] at hb
      cases hx : p.flatten with
      | nil =>
        rw [hx, List.nil_append] at hb
        exact h a b (by rw [List.flatten_cons, hx, List.append_nil]; exact ha) hb
      | cons c r =>
        rw [hx] at hb
        exact WholeWords.head hp a b ha (by rw [hx]; exact hb)
    · intro a b ha hb
      exact h a b (by rw [List.flatten_cons, List.getLast?_append, ha]; rfl) hb

theorem numeral_whole (U : Uni) : ∀ (s : List Char) (cur : Bool) (g : List Char), (∀ c ∈ g, U.isDigit c = cur) → g ≠ [] → WholeWords U (numeralLoop U cur g s) := by
  intro s
  induction s with
  | nil => intro cur g _ _; exact WholeWords.one U _
  | cons r s ih =>
    intro cur g hg hne
    unfold numeralLoop
    split
    · rename_i hc
      refine WholeWords.cons ?_ (ih _ _ (by simp) (by simp))
      intro a b ha hb hw
      rw [numeralLoop_flatten] at hb
      simp at hb
      subst hb
      have : a ∈ g := by simpa using List.mem_of_getLast? ha
      have := hg a this
      have h1 := hw.1.2.2.1
      have h2 := hw.2.2.2.1
      rw [h1] at this
      rw [h2, ← this] at hc
      simp at hc
    · rename_i hc
      refine ih _ _ ?_ (by simp)
      intro c hcm
      rcases List.mem_cons.mp hcm with rfl | hcm
      · exact (by simpa using hc : cur = U.isDigit _).symm
      · exact hg c hcm

/-- The tokens and pieces that are not captured make up the text. -/
def Covers (U : Uni) (spaced : Bool) (tokens : List (List Char)) (s : List Char) : Prop :=
  ∃ pieces : List (List Char), pieces.flatten = s ∧ (∀ p ∈ pieces, p ∈ tokens ∨ p = [] ∨ shouldCapture U p false = false) ∧ (∀ t ∈ tokens, t ∈ pieces) ∧
    (spaced = false → WholeWords U pieces)

theorem Covers.append {U : Uni} {sp : Bool} {a b : List (List Char)} {s t : List Char} (hj : sp = false → Join U s t) (h1 : Covers U sp a s) (h2 : Covers U sp b t) :
    Covers U sp (a ++ b) (s ++ t) := by
  obtain ⟨p, e1, f1, g1, w1⟩ := h1
  obtain ⟨q, e2, f2, g2, w2⟩ := h2
  refine ⟨p ++ q, by simp [e1, e2], ?_, ?_, fun hs => WholeWords.append (by rw [e1, e2]; exact hj hs) (w1 hs) (w2 hs)⟩
  · intro x hx
    rcases List.mem_append.mp hx with hx | hx
    · rcases f1 x hx with h | h
      · exact Or.inl (by simp [h])
      · exact Or.inr h
    · rcases f2 x hx with h | h
      · exact Or.inl (by simp [h])
      · exact Or.inr h
  · intro t ht
    rcases List.mem_append.mp ht with h | h
    · exact List.mem_append.mpr (Or.inl (g1 t h))
    · exact List.mem_append.mpr (Or.inr (g2 t h))

theorem Covers.nil (U : Uni) (sp : Bool) : Covers U sp [] [] := ⟨[], rfl, by simp, by simp, fun _ => WholeWords.nil U⟩

theorem covers_one (U : Uni) (sp : Bool) (s : List Char) : Covers U sp (if shouldCapture U s false then [s] else []) s := by
  refine ⟨[s], by simp, ?_, by intro t ht; split at ht <;> simp_all, fun _ => WholeWords.one U s⟩
  intro p hp
  rw [List.mem_singleton] at hp
  subst hp
  cases h : shouldCapture U p false
  · right; right; rfl
  · left; simp

theorem covers_numerals (U : Uni) (sp : Bool) (s : List Char) : Covers U sp (splitByNumerals U s false) s := by
  unfold splitByNumerals
  cases s with
  | nil => exact ⟨[[]], rfl, by simp, by intro t ht; simp at ht; simp [ht], fun _ => WholeWords.one U []⟩
  | cons r rest =>
    refine ⟨numeralLoop U (U.isDigit r) [r] rest, by rw [numeralLoop_flatten]; simp, ?_, fun t ht => (List.mem_filter.mp ht).1,
      fun _ => numeral_whole U rest _ _ (by simp) (by simp)⟩
    intro p hp
    cases h : shouldCapture U p false with
    | false => exact Or.inr (Or.inr rfl)
    | true => left; rw [List.mem_filter]; exact ⟨hp, h⟩

theorem covers_piece (U : Uni) (sp : Bool) (s : List Char) : Covers U sp (if shouldCapture U s false then splitByNumerals U s false else []) s := by
  cases h : shouldCapture U s false
  · exact ⟨[s], by simp, by intro p hp; rw [List.mem_singleton] at hp; subst hp; exact Or.inr (Or.inr h), by simp, fun _ => WholeWords.one U s⟩
  · exact covers_numerals U sp s

theorem indexStr_cut {w : List Char} : ∀ (s : List Char) (pos : Nat), indexStr w s = some pos →
    s = s.take pos ++ (w ++ s.drop (pos + w.length)) := by
  intro s
  induction s with
  | nil =>
    intro pos h
    unfold indexStr at h
    split at h
    · rename_i he
      cases w with
      | nil => simp
      | cons a w => simp at he
    · cases h
  | cons c s ih =>
    intro pos h
    unfold indexStr at h
    split at h
    · rename_i hp
      injection h with h; subst h
      obtain ⟨t, ht⟩ := List.isPrefixOf_iff_prefix.mp hp
      rw [← ht]; simp
    · cases hi : indexStr w s with
      | none => rw [hi] at h; cases h
      | some q =>
        rw [hi] at h
        simp only [Option.map_some, Option.some.injEq] at h
        subst h
        have := ih q hi
        rw [List.take_succ_cons, show q + 1 + w.length = q + w.length + 1 by omega, List.drop_succ_cons, List.cons_append, ← this]

theorem knownLoop_inv (U : Uni) (b : Bool) (str : List Char) (P : Nat → List Char → Prop) : ∀ (ws : List (List Char)) (cand : Option (Nat × List Char)),
    (∀ w ∈ ws, ∀ pos, indexStr w str = some pos →
      (b || (neighborOk U (str.take pos).getLast? && neighborOk U (str.drop (pos + w.length)).head?)) = true → P pos w) → (∀ p w, cand = some (p, w) → P p w) →
    ∀ p w, knownLoop U b str ws cand = some (p, w) → P p w := by
  intro ws
  induction ws with
  | nil => intro cand _ hc p w h; exact hc p w h
  | cons v ws ih =>
    intro cand hws hc p w h
    unfold knownLoop at h
    split at h
    · exact ih cand (fun x hx => hws x (by simp [hx])) hc p w h
    · rename_i pos hpos
      split at h
      · rename_i hnb
        have hc' : ∀ p w, (match cand with
          | none => some (pos, v)
          | some (p, v') => if pos < p then some (pos, v) else some (p, v')) = some (p, w) → P p w := by
          intro p w he
          split at he
          · cases he; exact hws _ (by simp) _ hpos hnb
          · split at he
            · cases he; exact hws _ (by simp) _ hpos hnb
            · rename_i p' v' _ _
              cases he; exact hc _ _ rfl
        dsimp only at h
        split at h
        · exact hc' p w h
        · exact ih _ (fun x hx => hws x (by simp [hx])) hc' p w h
      · exact ih cand (fun x hx => hws x (by simp [hx])) hc p w h

theorem neighbor_letter {U : Uni} {c : Char} (h : neighborOk U (some c) = true) : ¬ WordLetter U c := by
  rintro ⟨h1, h2, _, h4⟩
  unfold neighborOk at h
  rcases h1 with h1 | h1 <;> simp [h1, h2, h4] at h

theorem covers_known (U : Uni) (L : Lang) (hk : ∀ w ∈ L.knownWords, w ≠ []) : ∀ (n : Nat) (s : List Char), s.length < n →
    Covers U L.noWordSpacing (splitByKnownFuel U L false n s) s := by
  intro n
  induction n with
  | zero => intro s h; omega
  | succ n ih =>
    intro s hn
    unfold splitByKnownFuel
    cases hf : findKnown U L s with
    | none => exact covers_piece U _ s
    | some x =>
      obtain ⟨pos, w⟩ := x
      unfold findKnown at hf
      split at hf
      · cases hf
      · have inv := knownLoop_inv U L.noWordSpacing s (fun p w => w ≠ [] ∧ indexStr w s = some p ∧
            (L.noWordSpacing || (neighborOk U (s.take p).getLast? && neighborOk U (s.drop (p + w.length)).head?)) = true) L.knownWords none
          (fun w hw pos h hn => ⟨hk w hw, h, hn⟩) (by simp) pos w hf
        have cut := indexStr_cut s pos inv.2.1
        have j1 : L.noWordSpacing = false → Join U (s.take pos) w := by
          intro hs a b ha _ hw
          have := inv.2.2
          rw [hs, Bool.false_or, Bool.and_eq_true, ha] at this
          exact neighbor_letter this.1 hw.1
        have j2 : L.noWordSpacing = false → Join U (s.take pos ++ w) (s.drop (pos + w.length)) := by
          intro hs a b _ hb hw
          have := inv.2.2
          rw [hs, Bool.false_or, Bool.and_eq_true, hb] at this
          exact neighbor_letter this.2 hw.2
        have h1 : Covers U L.noWordSpacing (if !(s.take pos).isEmpty && shouldCapture U (s.take pos) false then splitByNumerals U (s.take pos) false else []) (s.take pos) := by
          cases he : (s.take pos).isEmpty
          · simpa using covers_piece U L.noWordSpacing (s.take pos)
          · have : s.take pos = [] := by simpa using he
            rw [this]; exact Covers.nil U _
        have h2 := covers_one U L.noWordSpacing w
        have h3 : Covers U L.noWordSpacing (if !(s.drop (pos + w.length)).isEmpty then splitByKnownFuel U L false n (s.drop (pos + w.length)) else []) (s.drop (pos + w.length)) := by
          cases he : (s.drop (pos + w.length)).isEmpty
          · refine ih _ ?_
            have : w.length ≠ 0 := fun e => inv.1 (List.eq_nil_of_length_eq_zero e)
            rw [List.length_drop]
            have hne : s.drop (pos + w.length) ≠ [] := by simpa using he
            have : 0 < (s.drop (pos + w.length)).length := List.length_pos_iff.mpr hne
            rw [List.length_drop] at this
            omega
          · have : s.drop (pos + w.length) = [] := by simpa using he
            rw [this]; exact Covers.nil U _
        have := (h1.append j1 h2).append j2 h3
        have e : s.take pos ++ w ++ s.drop (pos + w.length) = s := by rw [List.append_assoc]; exact cut.symm
        rw [e] at this
        exact this

/-! ## Marking relative phrases -/

/-- The text with separators between segments. -/
theorem regex_segments {U : Uni} {L : Lang} (hg : GroupsWhole U L) {rx : Rx} {k : Nat} (hr : L.rxCombined = some (rx, k)) : ∀ (n : Nat) (s : List Char),
    ∃ segs : List (List Char), segs ≠ [] ∧ segs.flatten = s ∧ splitWithRegexFuel rx k n s = joinWith splitSeparator segs ∧
      (L.noWordSpacing = false → WholeWords U segs) := by
  intro n
  induction n with
  | zero => intro s; exact ⟨[s], by simp, by simp, rfl, fun _ => WholeWords.one U s⟩
  | succ n ih =>
    intro s
    unfold splitWithRegexFuel
    cases hf : rx.findFirst s with
    | none => exact ⟨[s], by simp, by simp, rfl, fun _ => WholeWords.one U s⟩
    | some m =>
      have hs := find_split s none m hf
      obtain ⟨segs, hne, hfl, he, hw⟩ := ih m.after.rest
      obtain ⟨hk, hg'⟩ := hg rx k hr
      obtain ⟨g1, g3⟩ := hg' s m hf
      dsimp only
      rw [he]
      by_cases h1 : k = 1
      · rw [if_pos h1, (g1 h1).1]
        refine ⟨m.before :: m.text :: segs, by simp, by simp [hfl]; simpa using hs.symm, ?_, fun h => by rw [(g1 h1).2] at h; cases h⟩
        rw [joinWith_cons _ _ (by simp), joinWith_cons _ _ hne]; simp
      · have h3 : k = 3 := hk.resolve_left h1
        rw [if_neg h1, if_pos h3]
        obtain ⟨g, ge1, ge2⟩ := g3 h3
        cases segs with
        | nil => exact absurd rfl hne
        | cons x segs =>
          refine ⟨(m.before ++ m.after.cap 1) :: m.after.cap 2 :: (m.after.cap 3 ++ x) :: segs, by simp, ?_, ?_, ?_⟩
          · have : s = m.before ++ (m.after.cap 1 ++ m.after.cap 2 ++ m.after.cap 3) ++ m.after.rest := by rw [g]; exact hs
            rw [this, ← hfl]; simp
          · have e : joinWith splitSeparator ((m.after.cap 3 ++ x) :: segs) = m.after.cap 3 ++ joinWith splitSeparator (x :: segs) := by
              cases segs with
              | nil => simp [joinWith]
              | cons y segs => rw [joinWith_cons _ (m.after.cap 3 ++ x) (by simp), joinWith_cons _ x (by simp)]; simp
            rw [joinWith_cons splitSeparator (m.before ++ m.after.cap 1) (by simp), joinWith_cons splitSeparator (m.after.cap 2) (by simp), e]
            simp
          · intro hsp
            have hw := hw hsp
            refine WholeWords.cons ?_ (WholeWords.cons ?_ (WholeWords.cons ?_ (WholeWords.tail hw)))
            · rintro a b ha _ ⟨hwa, _⟩
              rcases ge1 with ⟨e1, e2⟩ | ⟨c, hc, e⟩
              · rw [e1, e2] at ha; cases ha
              · rw [e, List.getLast?_append] at ha
                simp at ha
                exact hc (ha ▸ hwa)
            · rintro a b _ hb ⟨_, hwb⟩
              rcases ge2 with ⟨e1, e2⟩ | ⟨c, hc, e⟩
              · rw [e2, List.nil_append, hfl, e1] at hb; cases hb
              · rw [e] at hb
                simp at hb
                exact hc (hb ▸ hwb)
            · intro a b ha hb hab
              cases x with
              | cons y x =>
                refine WholeWords.head hw a b ?_ hb hab
                rw [List.getLast?_append] at ha
                have hs : ((y :: x).getLast?).isSome := by simp [List.getLast?_isSome]
                obtain ⟨z, hz⟩ := Option.isSome_iff_exists.mp hs
                rw [hz] at ha ⊢
                exact ha
              | nil =>
                rcases ge2 with ⟨_, e2⟩ | ⟨c, hc, e⟩
                · rw [e2] at ha; cases ha
                · rw [e] at ha
                  simp at ha
                  exact hc (ha ▸ hab.1)

theorem splitGo_skip (sep : List Char) : ∀ (w s : List Char) (acc : List Char), splitGo sep w.length acc (w ++ s) = splitGo sep 0 acc s := by
  intro w
  induction w with
  | nil => intro s acc; rfl
  | cons c w ih => intro s acc; rw [List.length_cons, List.cons_append, splitGo]; exact ih s acc

theorem splitGo_bar : ∀ (x acc s : List Char), '|' ∉ x →
    splitGo splitSeparator 0 acc (x ++ (splitSeparator ++ s)) = (acc.reverse ++ x) :: splitGo splitSeparator 0 [] s := by
  intro x
  induction x with
  | nil =>
    intro acc s _
    have : splitSeparator ++ s = '|' :: ("#=#=#|".toList ++ s) := rfl
    rw [List.nil_append, this, splitGo, if_pos (by rw [List.isPrefixOf_iff_prefix, ← this]; exact List.prefix_append _ _)]
    rw [show splitSeparator.length - 1 = "#=#=#|".toList.length by decide, splitGo_skip]; simp
  | cons c x ih =>
    intro acc s h
    rw [List.cons_append, splitGo, if_neg, ih (c :: acc) s (by intro hx; exact h (by simp [hx]))]
    · simp
    · rw [List.isPrefixOf_iff_prefix]
      rintro ⟨t, ht⟩
      have : c = '|' := by
        have := congrArg List.head? ht
        simpa [splitSeparator] using this.symm
      exact h (by simp [this])

theorem splitGo_last : ∀ (x acc : List Char), '|' ∉ x → splitGo splitSeparator 0 acc x = [acc.reverse ++ x] := by
  intro x
  induction x with
  | nil => intro acc _; simp [splitGo]
  | cons c x ih =>
    intro acc h
    rw [splitGo, if_neg, ih (c :: acc) (by intro hx; exact h (by simp [hx]))]
    · simp
    · rw [List.isPrefixOf_iff_prefix]
      rintro ⟨t, ht⟩
      have : c = '|' := by
        have := congrArg List.head? ht
        simpa [splitSeparator] using this.symm
      exact h (by simp [this])

theorem split_join : ∀ (segs : List (List Char)), segs ≠ [] → (∀ x ∈ segs, '|' ∉ x) → splitStr splitSeparator (joinWith splitSeparator segs) = segs := by
  intro segs
  induction segs with
  | nil => intro h; exact absurd rfl h
  | cons x segs ih =>
    intro _ h
    cases segs with
    | nil =>
      show splitGo splitSeparator 0 [] x = _
      rw [splitGo_last _ _ (h x (by simp))]; simp
    | cons y segs =>
      rw [joinWith_cons _ _ (by simp), List.append_assoc]
      show splitGo splitSeparator 0 [] _ = _
      rw [splitGo_bar _ _ _ (h x (by simp))]
      have := ih (by simp) (fun z hz => h z (by simp [hz]))
      unfold splitStr at this
      rw [this]; simp

/-! ## The whole split -/

theorem covers_raw (U : Uni) (L : Lang) (hk : ∀ w ∈ L.knownWords, w ≠ []) (hg : GroupsWhole U L) (s : List Char) (hb : '|' ∉ s) :
    Covers U L.noWordSpacing (splitRaw U L s false) s := by
  have hseg : ∃ segs : List (List Char), segs.flatten = s ∧ (L.noWordSpacing = false → WholeWords U segs) ∧ splitRaw U L s false = segs.flatMap (fun token =>
      if (L.rxExact.map (·.matches token)).getD false then [token] else splitByKnown U L false token) := by
    unfold splitRaw
    cases hr : L.rxCombined with
    | none =>
      refine ⟨[s], by simp, fun _ => WholeWords.one U s, ?_⟩
      dsimp only
      rw [show splitStr splitSeparator s = [s] from split_join [s] (by simp) (by simpa using hb)]
    | some x =>
      obtain ⟨rx, k⟩ := x
      obtain ⟨segs, hne, hfl, he, hw⟩ := regex_segments hg hr (s.length + 1) s
      refine ⟨segs, hfl, hw, ?_⟩
      dsimp only
      unfold splitWithRegex
      rw [he, split_join segs hne]
      intro x hx hbar
      exact hb (by rw [← hfl]; exact List.mem_flatten.mpr ⟨x, hx, hbar⟩)
  obtain ⟨segs, hfl, hw, he⟩ := hseg
  rw [he, ← hfl]
  clear he hfl hb
  induction segs with
  | nil => exact Covers.nil U _
  | cons x segs ih =>
    rw [List.flatMap_cons, List.flatten_cons]
    refine Covers.append (fun h => WholeWords.head (hw h)) ?_ (ih fun h => WholeWords.tail (hw h))
    split
    · exact ⟨[x], by simp, by intro p hp; exact Or.inl hp, by simp, fun _ => WholeWords.one U x⟩
    · unfold splitByKnown
      exact covers_known U L hk _ _ (by omega)

theorem nothing_of_not_captured {U : Uni} {p : List Char} (h : shouldCapture U p false = false) : NothingToRead U p := by
  unfold shouldCapture at h
  simp only [Bool.false_or, Bool.or_eq_false_iff, Bool.and_eq_false_iff] at h
  rcases h.2 with h | h
  · left
    simpa using h
  · right
    intro c hc
    have := (List.any_eq_false.mp h) c hc
    simp only [Bool.or_eq_true, not_or, Bool.not_eq_true] at this
    exact this

theorem kw_lookup_mem {α : Type} [BEq α] [LawfulBEq α] {β : Type} {a : α} {b : β} : ∀ {l : List (α × β)}, l.lookup a = some b → (a, b) ∈ l := by
  intro l
  induction l with
  | nil => intro h; cases h
  | cons x l ih =>
    intro h
    obtain ⟨k, v⟩ := x
    rw [List.lookup_cons] at h
    cases he : a == k with
    | true =>
      rw [he] at h
      simp only [Option.some.injEq] at h
      have := eq_of_beq he
      subst this; subst h; simp
    | false => rw [he] at h; exact List.mem_cons_of_mem _ (ih h)

theorem skips_of_mem {L : Lang} {skip : List (List Char)} {p : List Char} (h : p ∈ mapSkippedTokens skip L) : Skips L skip p := by
  unfold mapSkippedTokens at h
  split at h
  · rw [List.mem_filter] at h
    exact ⟨h.1, fun x => by simp [x.2] at h⟩
  · rename_i hn
    exact ⟨h, fun x => hn x.1⟩

/-- The language check, as a statement about the text. -/
theorem applicable_known {U : Uni} {L : Lang} (hk : ∀ w ∈ L.knownWords, w ≠ []) (hg : GroupsWhole U L) {skip : List (List Char)} {str : List Char}
    (hb : '|' ∉ simplify L (normalizeToken U str)) (h : isApplicable U L skip str = true) :
    MadeOfKnown U L skip (simplify L (normalizeToken U str)) := by
  unfold isApplicable at h
  dsimp only at h
  generalize htx : simplify L (normalizeToken U str) = tx at *
  rw [Bool.and_eq_true] at h
  obtain ⟨h1, h2⟩ := h
  rw [List.all_eq_true] at h2
  have good : ∀ t ∈ splitText U L tx false (mapSkippedTokens skip L), Knows U L skip t := by
    intro t ht
    have := h2 t ht
    simp only [Bool.or_eq_true] at this
    rcases this with ((h | h) | h) | h
    · exact Or.inl (by simpa [isNumberOnly, List.all_eq_true] using h)
    · right; left
      unfold Lang.inDictionary Lang.translateWord at h
      split at h
      · rename_i t' hl; exact Or.inl ⟨t', kw_lookup_mem hl⟩
      · obtain ⟨ts, hts⟩ := Option.isSome_iff_exists.mp h
        exact Or.inr ⟨ts, kw_lookup_mem hts⟩
    · exact Or.inr (Or.inr (Or.inr (Or.inl (skips_of_mem (by simpa using h)))))
    · right; right; left
      cases hr : L.rxExact with
      | none => rw [hr] at h; simp at h
      | some rx => rw [hr] at h; exact ⟨rx, rfl, by simpa using h⟩
  obtain ⟨pieces, hfl, hp, hall, hww⟩ := covers_raw U L hk hg tx hb
  refine ⟨pieces, hfl, ?_, hww, ?_⟩
  · intro p hpm
    rcases hp p hpm with h | h | h
    · by_cases hin : p ∈ splitText U L tx false (mapSkippedTokens skip L)
      · exact Or.inl (good p hin)
      · unfold splitText at hin
        rw [List.mem_filter] at hin
        by_cases hne : p = []
        · right; right; rw [hne]; simp
        · left; right; right; right; right
          apply skips_of_mem
          apply Classical.byContradiction
          intro hc
          exact hin ⟨h, by simp [hne, hc]⟩
    · right; right; rw [h]; simp
    · exact Or.inr (nothing_of_not_captured h)
  · have hex : ∃ t ∈ splitText U L tx false (mapSkippedTokens skip L), ¬ alwaysKept t = true := by
      apply Classical.byContradiction
      intro hc
      have : ∀ t ∈ splitText U L tx false (mapSkippedTokens skip L), alwaysKept t = true := fun t ht => Classical.byContradiction fun hn => hc ⟨t, ht, hn⟩
      rw [List.filter_eq_self.mpr this] at h1
      simp at h1
    obtain ⟨t, ht, hn⟩ := hex
    have hm := ht
    unfold splitText at hm
    rw [List.mem_filter] at hm
    refine ⟨t, hall t hm.1, ?_, good t ht, ?_⟩
    · intro e; rw [e] at hm; simp at hm
    · intro hk'; exact hn (by simpa [alwaysKept, IsKept] using hk')

end Verif.Lemmas.KW
