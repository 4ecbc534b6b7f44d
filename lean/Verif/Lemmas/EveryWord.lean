import Verif.Lemmas.ClockSound
import Verif.Spec.EveryWord
/-! Helper lemmas: every word of the text is used (C62). -/
set_option autoImplicit false
namespace Verif.Lemmas
open Verif.Go Verif.Model Verif.Spec Verif.Props

theorem clockOf_at {s t : List Char} {i : Nat} {u : List Nat} (h : ClockOf s i t u) : ClockAt s i t := by
  obtain ⟨base, frac, mer, k, ub, uf, um, h1, _, h2, h3, h4⟩ := h
  refine ⟨base, frac, mer, k, h1, ?_, ?_, h4⟩
  · rcases h2 with ⟨a, b, _⟩ | ⟨x, m, sep, a, b, c, d, e, f, _⟩
    · exact Or.inl ⟨a, b⟩
    · exact Or.inr ⟨x, m, sep, a, b, c, d, e, f⟩
  · rcases h3 with ⟨a, _, b⟩ | ⟨w, f, a, b, c, d, e, g, _, h⟩
    · refine Or.inl ⟨a, ?_⟩
      rcases b with b | ⟨w, ap, mr, b1, b2, b3, b4, _⟩
      · exact Or.inl b.1
      · exact Or.inr ⟨w, ap, mr, b1, b2, b3, b4⟩
    · refine Or.inr ⟨w, f, a, b, c, d, e, g, ?_⟩
      rcases h with b | ⟨w, ap, mr, b1, b2, b3, b4, _⟩
      · exact Or.inl b.1
      · exact Or.inr ⟨w, ap, mr, b1, b2, b3, b4⟩

theorem clockOf_core {str : List Char} {i k : Nat} {ub : List Nat} {base micro mer t : List Char}
    (hb : ((wordList str)[i]? = some base ∧ k = i + 1 ∧ ub = [i]) ∨
      (∃ h m sep, (wordList str)[i]? = some h ∧ (wordList str)[i + 1]? = some m ∧ sep ∈ runs (sanitizeSpaces str) ∧ trimSpace sep = ['.'] ∧
        base = h ++ ':' :: m ∧ k = i + 2 ∧ ub = [i, i + 1]))
    (h1 : micro ≠ [] → ∃ w, (wordList str)[i + 1]? = some w ∧ micro <:+: w ∧ (∀ c ∈ micro, c.isDigit = true) ∧ ':' ∈ base)
    (h2 : mer ≠ [] → ∃ w mr, (wordList str)[if micro.isEmpty then k else k + 1]? = some w ∧ mer <:+: w ∧ IsMeridian mer mr)
    (hc : (base.contains ':' || !mer.isEmpty || !micro.isEmpty) = true)
    (ht : t = base ++ (if micro.isEmpty then [] else '.' :: micro) ++ (if mer.isEmpty then [] else ' ' :: mer)) :
    ClockOf str i t (ub ++ (if micro.isEmpty then [] else [i + 1]) ++ (if mer.isEmpty then [] else [if micro.isEmpty then k else k + 1])) := by
  refine ⟨base, _, _, k, ub, _, _, ht, rfl, hb, ?_, ?_⟩
  · cases micro with
    | nil =>
      left
      refine ⟨rfl, rfl, ?_⟩
      cases mer with
      | nil => exact Or.inl ⟨rfl, rfl⟩
      | cons a r =>
        obtain ⟨w, mr, e1, e2, e3⟩ := h2 (by simp)
        exact Or.inr ⟨w, _, mr, e1, e2, e3, rfl, rfl⟩
    | cons x y =>
      right
      obtain ⟨w, e1, e2, e3, e4⟩ := h1 (by simp)
      refine ⟨w, _, e1, by simp, e2, e3, e4, rfl, rfl, ?_⟩
      cases mer with
      | nil => exact Or.inl ⟨rfl, rfl⟩
      | cons a r =>
        obtain ⟨w, mr, e1, e2, e3⟩ := h2 (by simp)
        exact Or.inr ⟨w, _, mr, e1, e2, e3, rfl, rfl⟩
  · cases mer with
    | cons a r => right; simp
    | nil =>
      left
      cases micro with
      | nil => simpa using hc
      | cons x y => exact (h1 (by simp)).choose_spec.2.2.2

/-- The words of a captured time: the first is the token's own, and only such words are skipped. -/
theorem captureTime_of {str : List Char} {i : Nat} {ft : FTok} {sk sk' : List Nat} {t : List Char} (hft : (filtOf str)[i]? = some ft)
    (h : captureTime (toksOf str) (filtOf str) i ft sk = (some t, sk')) :
    ∃ used, ClockOf str i t used ∧ i ∈ used ∧ ∀ x ∈ sk', x ∈ sk ∨ x ∈ used := by
  have sepOf : (∃ t ∈ toksOf str, t.text = ['.']) → ∃ sep, sep ∈ runs (sanitizeSpaces str) ∧ trimSpace sep = ['.'] := by
    rintro ⟨t, ht, e⟩
    obtain ⟨t0, h3, h4⟩ := List.mem_map.mp ht
    have good := tokenize_good_aux (sanitizeSpaces str).length (sanitizeSpaces str) (Nat.le_refl _)
    have hr := runs_good _ good.1
    rw [good.2] at hr
    refine ⟨t0.text, by rw [hr]; exact List.mem_map_of_mem h3, ?_⟩
    rw [← e, ← h4]
  obtain ⟨base, k, ub, hb, hcore⟩ : ∃ (base : List Char) (k : Nat) (ub : List Nat), (((wordList str)[i]? = some base ∧ k = i + 1 ∧ ub = [i]) ∨
      (∃ h m sep, (wordList str)[i]? = some h ∧ (wordList str)[i + 1]? = some m ∧ sep ∈ runs (sanitizeSpaces str) ∧ trimSpace sep = ['.'] ∧
        base = h ++ ':' :: m ∧ k = i + 2 ∧ ub = [i, i + 1])) ∧ (joinPeriod (toksOf str) (filtOf str) i ft).getD ft.tok.text = base ∧
        (if (joinPeriod (toksOf str) (filtOf str) i ft).isSome then i + 2 else i + 1) = k ∧ i ∈ ub ∧
        ∀ x ∈ (if (joinPeriod (toksOf str) (filtOf str) i ft).isSome then (i + 1) :: sk else sk), x ∈ sk ∨ x ∈ ub := by
    cases hj : joinPeriod (toksOf str) (filtOf str) i ft with
    | none => exact ⟨_, _, _, Or.inl ⟨word_at hft, rfl, rfl⟩, rfl, rfl, by simp, fun x hx => Or.inl (by simpa using hx)⟩
    | some x =>
      obtain ⟨next, hn, e, hs⟩ := joinPeriod_inv hj
      obtain ⟨sep, s1, s2⟩ := sepOf hs
      refine ⟨x, i + 2, _, Or.inr ⟨_, _, sep, word_at hft, word_at hn, s1, s2, e, rfl, rfl⟩, rfl, rfl, by simp, fun x hx => ?_⟩
      simp only [Option.isSome_some, if_true, List.mem_cons] at hx
      rcases hx with rfl | hx
      · right; simp
      · exact Or.inl hx
  unfold captureTime at h
  dsimp only at h
  obtain ⟨c1, c2, c3, c4⟩ := hcore
  rw [c1, c2] at h
  generalize (if (joinPeriod (toksOf str) (filtOf str) i ft).isSome then (i + 1) :: sk else sk) = sk1 at h c4
  cases hmi : captureMicro (toksOf str) (filtOf str) i base with
  | nil =>
    rw [hmi] at h
    simp only [List.isEmpty_nil, if_true] at h
    cases hme : captureMeridian (filtOf str) k with
    | nil =>
      rw [hme] at h
      simp only [List.isEmpty_nil, Bool.not_true, Bool.false_and, Bool.and_false, Bool.false_eq_true, if_false] at h
      split at h
      · rename_i hc
        simp only [Prod.mk.injEq, Option.some.injEq] at h
        refine ⟨_, clockOf_core (micro := []) (mer := []) hb (fun h => absurd rfl h) (fun h => absurd rfl h) hc (by simp [h.1]), by simp [c3], ?_⟩
        rw [← h.2]
        intro x hx
        rcases c4 x hx with h | h
        · exact Or.inl h
        · exact Or.inr (by simp [h])
      · cases h
    | cons a r =>
      rw [hme] at h
      simp at h
      refine ⟨_, clockOf_core (micro := []) (mer := a :: r) hb (fun h => absurd rfl h) (fun h => by simpa using meridian_at hme h) (by simp) (by simp [h.1]), by simp [c3], ?_⟩
      rw [← h.2]
      intro x hx
      rcases List.mem_cons.mp hx with rfl | hx
      · exact Or.inr (by simp)
      · rcases c4 x hx with h | h
        · exact Or.inl h
        · exact Or.inr (by simp [h])
  | cons x y =>
    rw [hmi] at h
    have sp := micro_at hmi
    cases hme : captureMeridian (filtOf str) (k + 1) with
    | nil =>
      simp [hme] at h
      refine ⟨_, clockOf_core (micro := x :: y) (mer := []) hb sp (fun h => absurd rfl h) (by simp) (by simp [h.1]), by simp [c3], ?_⟩
      rw [← h.2]
      intro z hx
      rcases List.mem_cons.mp hx with rfl | hx
      · exact Or.inr (by simp)
      · rcases c4 z hx with h | h
        · exact Or.inl h
        · exact Or.inr (by simp [h])
    | cons a r =>
      simp [hme] at h
      refine ⟨_, clockOf_core (micro := x :: y) (mer := a :: r) hb sp (fun h => by simpa using meridian_at hme h) (by simp) (by simp [← h.1]), by simp [c3], ?_⟩
      rw [← h.2]
      intro z hx
      simp only [List.mem_cons] at hx
      rcases hx with rfl | rfl | hx
      · exact Or.inr (by simp)
      · exact Or.inr (by simp)
      · rcases c4 z hx with h | h
        · exact Or.inl h
        · exact Or.inr (by simp [h])

theorem weekday_six : (weekdays.all fun p => [Dir.wMonday, Dir.wMon].all fun d =>
    gregPartValue .weekday p.1 d == none || gregPartValue .weekday p.1 d == some 6) = true := by decide +kernel

theorem partValue_weekday6 {t : List Char} {d : Dir} (hd : d = .wMonday ∨ d = .wMon) {v : Int} (h : gregPartValue .weekday t d = some v) : v = 6 := by
  obtain ⟨n, hn⟩ := partValue_weekday hd h
  have e : gregPartValue .weekday t d = gregPartValue .weekday (toLower t) d := by unfold gregPartValue; rw [toLower_idem]
  have := List.all_eq_true.mp (List.all_eq_true.mp weekday_six _ hn) d (by rcases hd with rfl | rfl <;> simp)
  rw [← e, h] at this
  simpa using this

/-- A word that belongs to a time of day. -/
def InClock (str : List Char) (k : Nat) : Prop := ∃ j t used, ClockOf str j t used ∧ k ∈ used

/-- Every word up to the `i`-th is accounted for. -/
structure Cover (str : List Char) (F : List Tok) (i : Nat) (s : ASt) (pos : Comp → Nat) (sp lo : Option Nat) : Prop where
  inv : SInv F i s pos
  skip : ∀ k ∈ s.skippedIdx, InClock str k
  wd : ∀ v, s.vals.get .weekday = some v → v = 6
  spare : ∀ k, sp = some k → (∃ u, F[k]? = some u ∧ Two u.text) ∧ k < i ∧ k < pos .year ∧ (∃ w, s.ctoks.get .year = some w ∧ w.text.length = 4) ∧
    ∀ c, (s.vals.get c).isSome = true → pos c ≠ k
  lost : ∀ k, lo = some k → (∃ u v, F[k]? = some u ∧ AsDay u.text v) ∧ k < i ∧ k < pos .month ∧ (∃ w, s.ctoks.get .month = some w ∧ w.typ = .letter) ∧
    (∀ c, (s.vals.get c).isSome = true → pos c ≠ k) ∧ sp ≠ some k
  cov : ∀ k, k < i → ∀ w, F[k]? = some w → IsSkippedWord w.text ∨ InClock str k ∨ (∃ c, (s.vals.get c).isSome = true ∧ pos c = k) ∨ sp = some k ∨ lo = some k

theorem Cover.empty (str : List Char) (F : List Tok) : Cover str F 0 {} (fun _ => 0) none none where
  inv := SInv.empty _ _
  skip k h := by cases h
  wd v h := by cases h
  spare k h := by cases h
  lost k h := by cases h
  cov k h := by omega

/-- One more word that has been accounted for, and no new part. -/
theorem Cover.next {str : List Char} {F : List Tok} {i : Nat} {s s' : ASt} {pos : Comp → Nat} {sp lo : Option Nat} (h : Cover str F i s pos sp lo)
    (hv : s'.vals = s.vals) (hc : ∀ c, s'.ctoks.get c = s.ctoks.get c) (hu : s'.unset = s.unset) (ha : s'.autoOrder = s.autoOrder)
    (hs : s'.skippedComp = s.skippedComp) (hsk : ∀ k ∈ s'.skippedIdx, InClock str k) {t : Tok} (hF : F[i]? = some t)
    (hi : IsSkippedWord t.text ∨ InClock str i) : Cover str F (i + 1) s' pos sp lo where
  inv := h.inv.later (by omega) hv hc hu ha hs
  skip := hsk
  wd := by rw [hv]; exact h.wd
  spare k hk := by
    obtain ⟨h1, h2, h3, h4, h5⟩ := h.spare k hk
    exact ⟨h1, by omega, h3, by rw [hc]; exact h4, by rw [hv]; exact h5⟩
  lost k hk := by
    obtain ⟨h1, h2, h3, h4, h5⟩ := h.lost k hk
    exact ⟨h1, by omega, h3, by rw [hc]; exact h4, by rw [hv]; exact h5⟩
  cov k hk w hw := by
    by_cases e : k = i
    · subst e
      rw [hF] at hw; cases hw
      rcases hi with h | h
      · exact Or.inl h
      · exact Or.inr (Or.inl h)
    · rw [hv]; exact h.cov k (by omega) w hw

theorem SInv.old {F : List Tok} {i : Nat} {s : ASt} {pos : Comp → Nat} (h : SInv F i s pos) {c : Comp} (hc : (s.vals.get c).isSome = true) : pos c < i := by
  rcases h.part c with h1 | ⟨_, _, _, _, _, h4, _⟩
  · rw [h1.1] at hc; cases hc
  · exact h4

theorem Cover.digit {str : List Char} {F : List Tok} {i : Nat} {s : ASt} {pos : Comp → Nat} {sp lo : Option Nat} (h : Cover str F i s pos sp lo)
    {t : Tok} (ht : F[i]? = some t)
    (htd : t.typ = .digit) (hn : IsNumeral t.text) {c : Comp} {d : Dir} {v : Int} {un : List Tok} (hnd : numDir c d) (hsk : s.skippedComp ≠ some c)
    (hv : gregPartValue c t.text d = some v)
    (hun : (un = s.unset ∧ s.vals.get0 c = 0) ∨
      ∃ prev, un = s.unset ++ [prev] ∧ s.ctoks.get c = some prev ∧ prev.typ = .digit ∧ gregPartValue c prev.text d = none) :
    ∃ pos' sp' lo', Cover str F (i + 1) (saveResults { s with unset := un, autoOrder := s.autoOrder ++ [c], ctoks := s.ctoks.set c ⟨t.text, .digit⟩ } t.text.length [(c, v)])
      pos' sp' lo' := by
  have hinv := h.inv.digit ht htd hn hnd hsk hv hun
  have htok : (⟨t.text, .digit⟩ : Tok) = t := by rw [← htd]
  have hcw : c ≠ .weekday := by rintro rfl; exact hnd
  have hsave : saveResults { s with unset := un, autoOrder := s.autoOrder ++ [c], ctoks := s.ctoks.set c t } t.text.length [(c, v)] =
      { s with unset := un, autoOrder := s.autoOrder ++ [c], ctoks := s.ctoks.set c t, vals := s.vals.set c v,
               skippedComp := if t.text.length = 4 ∧ c = .year then some .year else s.skippedComp } := by
    unfold saveResults saveResults
    split <;> rfl
  rw [htok, hsave] at hinv ⊢
  have hnom : lo.isSome = true → c ≠ .month := by
    rintro hl rfl
    obtain ⟨k, hk⟩ := Option.isSome_iff_exists.mp hl
    obtain ⟨_, _, _, ⟨w, h1, h2⟩, _⟩ := h.lost k hk
    rcases hun with ⟨_, h0⟩ | ⟨prev, _, h3, h4, _⟩
    · rw [(h.inv.unset_of_zero hcw h0 (by intro h; cases h)).2] at h1; cases h1
    · rw [h1] at h3; cases h3; rw [h2] at h4; cases h4
  have hnoy : sp.isSome = true → c ≠ .year := by
    rintro hl rfl
    obtain ⟨k, hk⟩ := Option.isSome_iff_exists.mp hl
    obtain ⟨_, _, _, ⟨w, h1, h2⟩, _⟩ := h.spare k hk
    exact hsk (h.inv.skip w h1 h2)
  -- the places of the parts, after the step
  have newpos : ∀ {k : Nat}, k < i → (∀ c', (s.vals.get c').isSome = true → pos c' ≠ k) →
      ∀ c', ((s.vals.set c v).get c').isSome = true → (if c = c' then i else pos c') ≠ k := by
    intro k hk hp c' hc'
    rw [Vals.get_set] at hc'
    by_cases e : c = c'
    · rw [if_pos e]; omega
    · rw [if_neg e] at hc' ⊢; exact hp c' hc'
  have keepS : ∀ k, sp = some k → (∃ u, F[k]? = some u ∧ Two u.text) ∧ k < i + 1 ∧ k < (if c = .year then i else pos .year) ∧
      (∃ w, (s.ctoks.set c t).get .year = some w ∧ w.text.length = 4) ∧ ∀ c', ((s.vals.set c v).get c').isSome = true → (if c = c' then i else pos c') ≠ k := by
    intro k hk
    obtain ⟨h1, h2, h3, h4, h5⟩ := h.spare k hk
    have ne := hnoy (by rw [hk]; rfl)
    exact ⟨h1, by omega, by rw [if_neg ne]; exact h3, by rw [CToks.get_set, if_neg ne]; exact h4, newpos h2 h5⟩
  have keepL : ∀ k, lo = some k → (∃ u v, F[k]? = some u ∧ AsDay u.text v) ∧ k < i + 1 ∧ k < (if c = .month then i else pos .month) ∧
      (∃ w, (s.ctoks.set c t).get .month = some w ∧ w.typ = .letter) ∧ (∀ c', ((s.vals.set c v).get c').isSome = true → (if c = c' then i else pos c') ≠ k) ∧ sp ≠ some k := by
    intro k hk
    obtain ⟨h1, h2, h3, h4, h5, h6⟩ := h.lost k hk
    have ne := hnom (by rw [hk]; rfl)
    exact ⟨h1, by omega, by rw [if_neg ne]; exact h3, by rw [CToks.get_set, if_neg ne]; exact h4, newpos h2 h5, h6⟩
  have wd' : ∀ x, (s.vals.set c v).get .weekday = some x → x = 6 := by
    intro x hx
    rw [Vals.get_set, if_neg hcw] at hx
    exact h.wd x hx
  rcases hun with ⟨rfl, h0⟩ | ⟨prev, hu, h2, h3, h4⟩
  · refine ⟨_, sp, lo, hinv, h.skip, wd', keepS, keepL, ?_⟩
    intro k hk w hw
    by_cases e : k = i
    · subst e
      exact Or.inr (Or.inr (Or.inl ⟨c, by dsimp only; rw [Vals.get_set, if_pos rfl]; rfl, by rw [if_pos rfl]⟩))
    · rcases h.cov k (by omega) w hw with a | a | ⟨c', a, b⟩ | a | a
      · exact Or.inl a
      · exact Or.inr (Or.inl a)
      · have ne : c ≠ c' := by
          rintro rfl
          rw [(h.inv.unset_of_zero hcw h0 (fun e => by rw [← e]; exact hsk)).1] at a; cases a
        exact Or.inr (Or.inr (Or.inl ⟨c', by dsimp only; rw [Vals.get_set, if_neg ne]; exact a, by rw [if_neg ne]; exact b⟩))
      · exact Or.inr (Or.inr (Or.inr (Or.inl a)))
      · exact Or.inr (Or.inr (Or.inr (Or.inr a)))
  · rcases h.inv.part c with h1 | ⟨v', w, h1, h5, h6, h7, h8⟩
    · rw [h1.2] at h2; cases h2
    · rw [h5] at h2; cases h2
      obtain ⟨rfl, hr⟩ := pw_refused hnd h8 h3 h4
      have hw4 : prev.text.length ≠ 4 := fun hl => hsk (h.inv.skip prev h5 hl)
      rcases hr with hr | ⟨htwo, rfl⟩
      · exact absurd hr hw4
      · have hsp : sp = none := by
          cases hs : sp with
          | none => rfl
          | some k => exact absurd rfl (hnoy (by rw [hs]; rfl))
        have ht4 : t.text.length = 4 := by
          rw [partValue_year4 hn.2 hn.1] at hv
          split at hv
          · rename_i hh; exact hh.1
          · cases hv
        refine ⟨_, some (pos .year), lo, hinv, h.skip, wd', ?_, ?_, ?_⟩
        · intro k hk
          cases hk
          refine ⟨⟨prev, h6, htwo⟩, by omega, by rw [if_pos rfl]; exact h7, ⟨t, by dsimp only; rw [CToks.get_set, if_pos rfl], ht4⟩, ?_⟩
          intro c' hc'
          dsimp only at hc' ⊢
          rw [Vals.get_set] at hc'
          by_cases ec : Comp.year = c'
          · subst ec; simp only [if_true]; omega
          · simp only [ec, if_false] at hc' ⊢
            exact h.inv.dist c' .year (fun h => ec h.symm) hc' (by rw [h1]; rfl)
        · intro k hk
          obtain ⟨b1, b2, b3, b4, b5, _⟩ := keepL k hk
          refine ⟨b1, b2, b3, b4, b5, ?_⟩
          intro hh
          exact (h.lost k hk).2.2.2.2.1 .year (by rw [h1]; rfl) (Option.some.inj hh)
        · intro k hk w hw
          by_cases e : k = i
          · subst e
            exact Or.inr (Or.inr (Or.inl ⟨.year, by dsimp only; rw [Vals.get_set, if_pos rfl]; rfl, by rw [if_pos rfl]⟩))
          · rcases h.cov k (by omega) w hw with a | a | ⟨c', a, b⟩ | a | a
            · exact Or.inl a
            · exact Or.inr (Or.inl a)
            · by_cases ec : Comp.year = c'
              · subst ec; exact Or.inr (Or.inr (Or.inr (Or.inl (by rw [b]))))
              · exact Or.inr (Or.inr (Or.inl ⟨c', by dsimp only; rw [Vals.get_set, if_neg ec]; exact a, by rw [if_neg ec]; exact b⟩))
            · rw [hsp] at a; cases a
            · exact Or.inr (Or.inr (Or.inr (Or.inr a)))

theorem Cover.letter {str : List Char} {F : List Tok} {i : Nat} {s : ASt} {pos : Comp → Nat} {sp lo : Option Nat} (h : Cover str F i s pos sp lo)
    {t : Tok} (ht : F[i]? = some t)
    (htd : t.typ = .letter) {c : Comp} {d : Dir} {v : Int} (hcd : (c = .weekday ∧ (d = .wMonday ∨ d = .wMon)) ∨ (c = .month ∧ (d = .mJanuary ∨ d = .mJan)))
    (hv : gregPartValue c t.text d = some v) (h0 : s.vals.get0 c = 0) :
    Cover str F (i + 1) (saveResults { s with ctoks := s.ctoks.set c ⟨t.text, .letter⟩ } t.text.length [(c, v)]) (fun c' => if c = c' then i else pos c') sp lo := by
  have hinv := h.inv.letter ht htd hcd hv h0
  have htok : (⟨t.text, .letter⟩ : Tok) = t := by rw [← htd]
  have hcy : c ≠ .year := by rcases hcd with ⟨rfl, _⟩ | ⟨rfl, _⟩ <;> decide
  have hsave : saveResults { s with ctoks := s.ctoks.set c t } t.text.length [(c, v)] =
      { s with ctoks := s.ctoks.set c t, vals := s.vals.set c v } := by
    unfold saveResults saveResults
    simp only [hcy, and_false, if_false]
  rw [htok, hsave] at hinv ⊢
  have hnone : s.vals.get c = none ∧ s.ctoks.get c = none := by
    by_cases e : c = .weekday
    · subst e
      rcases h.inv.part .weekday with h1 | ⟨x, _, h1, _⟩
      · exact h1
      · have := h.wd x h1
        simp [Vals.get0, h1, this] at h0
    · exact h.inv.unset_of_zero e h0 (fun e => absurd e hcy)
  have newpos : ∀ {k : Nat}, k < i → (∀ c', (s.vals.get c').isSome = true → pos c' ≠ k) →
      ∀ c', ((s.vals.set c v).get c').isSome = true → (if c = c' then i else pos c') ≠ k := by
    intro k hk hp c' hc'
    rw [Vals.get_set] at hc'
    by_cases e : c = c'
    · rw [if_pos e]; omega
    · rw [if_neg e] at hc' ⊢; exact hp c' hc'
  refine ⟨hinv, h.skip, ?_, ?_, ?_, ?_⟩
  · intro x hx
    dsimp only at hx
    rw [Vals.get_set] at hx
    by_cases e : c = .weekday
    · rw [if_pos e] at hx
      cases hx
      rcases hcd with ⟨rfl, hd⟩ | ⟨rfl, _⟩
      · exact partValue_weekday6 hd hv
      · cases e
    · rw [if_neg e] at hx; exact h.wd x hx
  · intro k hk
    obtain ⟨h1, h2, h3, h4, h5⟩ := h.spare k hk
    exact ⟨h1, by omega, by rw [if_neg hcy]; exact h3, by dsimp only; rw [CToks.get_set, if_neg hcy]; exact h4, newpos h2 h5⟩
  · intro k hk
    obtain ⟨h1, h2, h3, h4, h5, h6⟩ := h.lost k hk
    have ne : c ≠ .month := by
      rintro rfl
      obtain ⟨w, hw, _⟩ := h4
      rw [hnone.2] at hw; cases hw
    exact ⟨h1, by omega, by rw [if_neg ne]; exact h3, by dsimp only; rw [CToks.get_set, if_neg ne]; exact h4, newpos h2 h5, h6⟩
  · intro k hk w hw
    by_cases e : k = i
    · subst e
      exact Or.inr (Or.inr (Or.inl ⟨c, by dsimp only; rw [Vals.get_set, if_pos rfl]; rfl, by rw [if_pos rfl]⟩))
    · rcases h.cov k (by omega) w hw with a | a | ⟨c', a, b⟩ | a | a
      · exact Or.inl a
      · exact Or.inr (Or.inl a)
      · have ne : c ≠ c' := by
          rintro rfl
          rw [hnone.1] at a; cases a
        exact Or.inr (Or.inr (Or.inl ⟨c', by dsimp only; rw [Vals.get_set, if_neg ne]; exact a, by rw [if_neg ne]; exact b⟩))
      · exact Or.inr (Or.inr (Or.inr (Or.inl a)))
      · exact Or.inr (Or.inr (Or.inr (Or.inr a)))

theorem Cover.swap {str : List Char} {F : List Tok} {i : Nat} {s : ASt} {pos : Comp → Nat} {sp lo : Option Nat} (h : Cover str F i s pos sp lo)
    {t : Tok} (ht : F[i]? = some t)
    (htd : t.typ = .letter) {d : Dir} {v : Int} (hd : d = .mJanuary ∨ d = .mJan)
    (hv : gregPartValue .month t.text d = some v) {ao : List Comp} (hao : replaceMonthByDay s.autoOrder = some ao) :
    ∃ lo', Cover str F (i + 1) (saveResults { s with autoOrder := ao, ctoks := (s.ctoks.set .day ((s.ctoks.get .month).getD ⟨[], .null⟩)).set .month ⟨t.text, .letter⟩ } t.text.length
      [(.month, v), (.day, s.vals.get0 .month)]) (swapPos pos i) sp lo' := by
  have hinv := h.inv.swap ht htd hd hv hao
  have htok : (⟨t.text, .letter⟩ : Tok) = t := by rw [← htd]
  rw [htok, saveResults_two] at hinv ⊢
  have hcnt := replaceMonth_count hao
  have hmem : Comp.month ∈ s.autoOrder := List.count_pos_iff.mp (by omega)
  obtain ⟨w0, hw0, hty⟩ := h.inv.auto hmem
  obtain ⟨v', w, h1, h2, h3, h4, h5⟩ : ∃ v w, s.vals.get .month = some v ∧ s.ctoks.get .month = some w ∧ F[pos .month]? = some w ∧ pos .month < i ∧ PW .month w v := by
    rcases h.inv.part .month with h1 | h1
    · rw [h1.2] at hw0; cases hw0
    · exact h1
  have hmsome : (s.vals.get .month).isSome = true := by rw [h1]; rfl
  have hlo : lo = none := by
    cases hl : lo with
    | none => rfl
    | some k =>
      obtain ⟨_, _, _, ⟨x, e1, e2⟩, _⟩ := h.lost k hl
      rw [hw0] at e1; cases e1; rw [hty] at e2; cases e2
  have newpos : ∀ {k : Nat}, k < i → (∀ c', c' ≠ .day → (s.vals.get c').isSome = true → pos c' ≠ k) →
      ∀ c', (((s.vals.set .month v).set .day (s.vals.get0 .month)).get c').isSome = true → swapPos pos i c' ≠ k := by
    intro k hk hp c' hc'
    rw [Vals.get_set, Vals.get_set] at hc'
    cases c' <;> simp only [reduceCtorEq, if_false, swapPos] at hc' ⊢
    · exact hp _ (by decide) hmsome
    · omega
    · exact hp _ (by decide) hc'
    · exact hp _ (by decide) hc'
  have base : ∀ (lo' : Option Nat), (∀ k, lo' = some k → (s.vals.get .day).isSome = true ∧ k = pos .day) →
      ((s.vals.get .day).isSome = true → lo' = some (pos .day)) →
      Cover str F (i + 1) { s with vals := (s.vals.set .month v).set .day (s.vals.get0 .month), autoOrder := ao, ctoks := (s.ctoks.set .day ((s.ctoks.get .month).getD ⟨[], .null⟩)).set .month t }
        (swapPos pos i) sp lo' := by
    intro lo' hl1 hl2
    refine ⟨hinv, h.skip, ?_, ?_, ?_, ?_⟩
    · intro x hx
      dsimp only at hx
      rw [Vals.get_set, Vals.get_set] at hx
      simp only [reduceCtorEq, if_false] at hx
      exact h.wd x hx
    · intro k hk
      obtain ⟨a1, a2, a3, a4, a5⟩ := h.spare k hk
      refine ⟨a1, by omega, a3, ?_, newpos a2 (fun c' _ => a5 c')⟩
      dsimp only
      rw [CToks.get_set, CToks.get_set]
      simp only [reduceCtorEq, if_false]
      exact a4
    · intro k hk
      obtain ⟨b1, rfl⟩ := hl1 k hk
      have hlt := h.inv.old b1
      obtain ⟨dv, dw, d1, d2, d3, d4, d5⟩ : ∃ v w, s.vals.get .day = some v ∧ s.ctoks.get .day = some w ∧ F[pos .day]? = some w ∧ pos .day < i ∧ PW .day w v := by
        rcases h.inv.part .day with x | x
        · rw [x.1] at b1; cases b1
        · exact x
      refine ⟨⟨dw, dv, d3, d5.2⟩, by omega, hlt, ⟨t, by dsimp only; rw [CToks.get_set, if_pos rfl], htd⟩, ?_, ?_⟩
      · exact newpos hlt (fun c' hc hs => h.inv.dist c' .day hc hs b1)
      · intro hh
        exact (h.spare _ hh).2.2.2.2 .day b1 rfl
    · intro k hk w hw
      by_cases e : k = i
      · subst e
        exact Or.inr (Or.inr (Or.inl ⟨.month, by dsimp only; rw [Vals.get_set, Vals.get_set]; simp, rfl⟩))
      · rcases h.cov k (by omega) w hw with a | a | ⟨c', a, b⟩ | a | a
        · exact Or.inl a
        · exact Or.inr (Or.inl a)
        · cases c' with
          | day => exact Or.inr (Or.inr (Or.inr (Or.inr (by rw [← b]; exact hl2 a))))
          | month => exact Or.inr (Or.inr (Or.inl ⟨.day, by dsimp only; rw [Vals.get_set, Vals.get_set]; simp, b⟩))
          | year => exact Or.inr (Or.inr (Or.inl ⟨.year, by dsimp only; rw [Vals.get_set, Vals.get_set]; simpa using a, b⟩))
          | weekday => exact Or.inr (Or.inr (Or.inl ⟨.weekday, by dsimp only; rw [Vals.get_set, Vals.get_set]; simpa using a, b⟩))
        · exact Or.inr (Or.inr (Or.inr (Or.inl a)))
        · rw [hlo] at a; cases a
  cases hday : (s.vals.get .day).isSome with
  | false => exact ⟨none, base none (fun k hk => by cases hk) (fun h => by rw [hday] at h; cases h)⟩
  | true => exact ⟨some (pos .day), base _ (fun k hk => ⟨hday, (Option.some.inj hk).symm⟩) (fun _ => rfl)⟩

theorem initStep_cover {e : AEnv} (he : e.fns = gregFns) {str : List Char} {i : Nat} {ft : FTok} {s s' : ASt}
    {F : List Tok} {pos : Comp → Nat} {sp lo : Option Nat} (hfl : (filtOf str)[i]? = some ft) (hF : F[i]? = some ft.tok)
    (hrun : ft.tok.text ≠ [] ∧ Run ft.tok.typ ft.tok.text) (hoth : ft.tok.typ = .digit ∨ ft.tok.typ = .letter)
    (h : Cover str F i s pos sp lo) (hs : initStep e (toksOf str) (filtOf str) i ft s = .ok s') : ∃ pos' sp' lo', Cover str F (i + 1) s' pos' sp' lo' := by
  unfold initStep at hs
  split at hs
  · rename_i hc
    cases hs
    exact ⟨pos, sp, lo, h.next rfl (fun _ => rfl) rfl rfl rfl h.skip hF (Or.inr (h.skip i (by simpa using hc)))⟩
  · split at hs
    · rename_i hc
      cases hs
      refine ⟨pos, sp, lo, h.next rfl (fun _ => rfl) rfl rfl rfl h.skip hF (Or.inl ?_)⟩
      simpa [skippedTokens, IsSkippedWord] using hc
    · split at hs
      · rename_i strTime sk hcap
        cases hs
        obtain ⟨used, u1, u2, u3⟩ := captureTime_of hfl hcap
        refine ⟨pos, sp, lo, h.next rfl (fun c => by cases c <;> rfl) rfl rfl rfl ?_ hF (Or.inr ⟨i, _, used, u1, u2⟩)⟩
        intro k hk
        rcases u3 k hk with a | a
        · exact h.skip k a
        · exact ⟨i, _, used, u1, a⟩
      · rename_i sk hcap
        have esk := captureTime_skip hcap
        subst esk
        dsimp only at hs
        split at hs
        · cases hs
        · rename_i s3 results hr
          cases hs
          split at hr
          · rename_i hd
            obtain ⟨c, ds, d, v, un, hm, hdm, hsk, hv, e2, e1, hun⟩ := parseDigitToken_sound _ _ _ _ _ hr
            rw [he] at hv
            simp only [he] at hun
            dsimp only at e1 e2
            subst e1 e2
            exact h.digit hF hd (numeral_of_run hrun.1 (by rw [← hd]; exact hrun.2) (captureTime_colon hcap)) (numberDirectives_num hm hdm) hsk hv hun
          · split at hr
            · rename_i hd
              obtain ⟨c, ds, d, v, hm, hdm, hv, hsh⟩ := parseLetterToken_sound _ _ _ _ _ hr
              rw [he] at hv
              have hcd := alphaDirectives_names hm hdm
              rcases hsh with ⟨h0, e2, e1⟩ | ⟨rfl, h0, e2, ao, hao, e1⟩
              · dsimp only at e1 e2
                subst e1 e2
                exact ⟨_, _, _, h.letter hF hd hcd hv h0⟩
              · dsimp only at e1 e2
                subst e1 e2
                have := h.swap hF hd (d := d) (by
                  rcases hcd with ⟨h, _⟩ | ⟨_, h⟩
                  · cases h
                  · exact h) hv hao
                obtain ⟨lo', hl⟩ := this
                exact ⟨_, _, lo', hl⟩
            · rename_i n1 n2
              rcases hoth with h | h
              · exact absurd h n1
              · exact absurd h n2

theorem initLoop_cover {e : AEnv} (he : e.fns = gregFns) {str : List Char} {F : List Tok} :
    ∀ (r : List FTok) (i : Nat) (s s' : ASt) (pos : Comp → Nat) (sp lo : Option Nat), (∀ k (ft : FTok), r[k]? = some ft → F[i + k]? = some ft.tok) →
      (∀ k (ft : FTok), r[k]? = some ft → (filtOf str)[i + k]? = some ft) →
      (∀ ft ∈ r, (ft.tok.text ≠ [] ∧ Run ft.tok.typ ft.tok.text) ∧ (ft.tok.typ = .digit ∨ ft.tok.typ = .letter)) → Cover str F i s pos sp lo →
      initLoop e (toksOf str) (filtOf str) i r s = .ok s' → ∃ pos' sp' lo', Cover str F (i + r.length) s' pos' sp' lo' := by
  intro r
  induction r with
  | nil => intro i s s' pos sp lo _ _ _ h hs; cases hs; exact ⟨pos, sp, lo, h⟩
  | cons ft r ih =>
    intro i s s' pos sp lo hF hG hr h hs
    rw [initLoop] at hs
    split at hs
    · cases hs
    · rename_i s2 h2
      obtain ⟨pos2, sp2, lo2, hi⟩ := initStep_cover he (hG 0 ft rfl) (hF 0 ft rfl) (hr ft (by simp)).1 (hr ft (by simp)).2 h h2
      obtain ⟨pos3, sp3, lo3, h3⟩ := ih (i + 1) s2 s' pos2 sp2 lo2 (fun k x hx => by have := hF (k + 1) x hx; rwa [show i + 1 + k = i + (k + 1) by omega])
        (fun k x hx => by have := hG (k + 1) x hx; rwa [show i + 1 + k = i + (k + 1) by omega])
        (fun x hx => hr x (by simp [hx])) hi hs
      exact ⟨pos3, sp3, lo3, by rw [List.length_cons, show i + (r.length + 1) = i + 1 + r.length by omega]; exact h3⟩

end Verif.Lemmas
