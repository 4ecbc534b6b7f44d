import Verif.Lemmas.Invariant
import Verif.Lemmas.Frames
import Verif.Lemmas.Names
import Verif.Lemmas.PartValue
import Verif.Lemmas.Spaces
import Verif.Lemmas.Phrase
import Verif.Props.Text
import Verif.Spec.Sound
/-! Helper lemmas: from which words the parts of a Gregorian date come. -/
set_option autoImplicit false
namespace Verif.Lemmas
open Verif.Go Verif.Model Verif.Spec Verif.Props

/-- What a token may stand for. -/
def PW : Comp → Tok → Int → Prop
  | .day, w, n => w.typ = .digit ∧ AsDay w.text n
  | .month, w, n => (w.typ = .digit ∧ Short w.text ∧ number w.text = n ∧ 1 ≤ n ∧ n ≤ 12) ∨ (w.typ = .letter ∧ IsMonthName w.text n)
  | .year, w, n => w.typ = .digit ∧ AsYear w.text n
  | .weekday, w, _ => w.typ = .letter ∧ ∃ n, IsWeekdayName w.text n

/-- The directives of a number. -/
def numDir : Comp → Dir → Prop
  | .day, d => d = .d2
  | .month, d => d = .m1
  | .year, d => d = .y2006 ∨ d = .y06
  | .weekday, _ => False

theorem numDir_pw {c : Comp} {d : Dir} (hd : numDir c d) {t : List Char} (ht : IsNumeral t) {v : Int}
    (h : gregPartValue c t d = some v) : PW c ⟨t, .digit⟩ v := by
  have hs : Digits t := ht.2
  cases c with
  | day =>
    cases hd
    rw [partValue_day hs ht.1] at h
    split at h
    · rename_i hc; cases h
      exact ⟨rfl, ⟨ht, hc.1⟩, number_eq t, hc.2.1, hc.2.2⟩
    · cases h
  | month =>
    cases hd
    rw [partValue_month hs ht.1] at h
    split at h
    · rename_i hc; cases h
      exact Or.inl ⟨rfl, ⟨ht, hc.1⟩, number_eq t, hc.2.1, hc.2.2⟩
    · cases h
  | year =>
    rcases hd with rfl | rfl
    · rw [partValue_year4 hs ht.1] at h
      split at h
      · rename_i hc; cases h
        exact ⟨rfl, Or.inl ⟨⟨ht, hc.1⟩, (number_eq t).symm⟩⟩
      · cases h
    · rw [partValue_year2 hs ht.1] at h
      split at h
      · rename_i hc; cases h
        refine ⟨rfl, Or.inr ⟨⟨ht, hc⟩, ?_⟩⟩
        show _ = pivotYear (number t)
        rw [number_eq]; unfold pivotYear
        split <;> omega
      · cases h
  | weekday => cases hd

/-- A token that stands for the part is read by the directive, unless it is a two digit year tried with four digits
(or a year of four digits). -/
theorem pw_refused {c : Comp} {d : Dir} (hd : numDir c d) {w : Tok} {v : Int} (hw : PW c w v) (ht : w.typ = .digit)
    (h : gregPartValue c w.text d = none) : c = .year ∧ (w.text.length = 4 ∨ (Two w.text ∧ d = .y2006)) := by
  cases c with
  | day =>
    cases hd
    obtain ⟨_, ⟨h1, h2⟩, h3, h4, h5⟩ := hw
    rw [number_eq] at h3
    rw [partValue_day h1.2 h1.1, if_pos ⟨h2, by omega, by omega⟩] at h; cases h
  | month =>
    cases hd
    rcases hw with ⟨_, ⟨h1, h2⟩, h3, h4, h5⟩ | ⟨h1, _⟩
    · rw [number_eq] at h3
      rw [partValue_month h1.2 h1.1, if_pos ⟨h2, by omega, by omega⟩] at h; cases h
    · rw [ht] at h1; cases h1
  | year =>
    refine ⟨rfl, ?_⟩
    rcases hw with ⟨_, ⟨h1, _⟩ | ⟨h1, _⟩⟩
    · exact Or.inl h1.2
    · right
      rcases hd with rfl | rfl
      · exact ⟨h1, rfl⟩
      · rw [partValue_year2 h1.1.2 h1.1.1, if_pos h1.2] at h; cases h
  | weekday => cases hd

theorem digitDirLoop_sound (e : AEnv) (s : ASt) (c : Comp) (text : List Char) :
    ∀ (ds : List Dir) (p : ASt × List (Comp × Int)), digitDirLoop e s c text ds = some p →
      ∃ d v un, d ∈ ds ∧ e.fns.partValue c text d = some v ∧ p.2 = [(c, v)] ∧
        p.1 = { s with unset := un, autoOrder := s.autoOrder ++ [c], ctoks := s.ctoks.set c ⟨text, .digit⟩ } ∧
        ((un = s.unset ∧ s.vals.get0 c = 0) ∨
          ∃ prev, un = s.unset ++ [prev] ∧ s.ctoks.get c = some prev ∧ prev.typ = .digit ∧ e.fns.partValue c prev.text d = none) := by
  intro ds
  induction ds with
  | nil => intro p h; simp [digitDirLoop] at h
  | cons d ds ih =>
    intro p h
    rw [digitDirLoop] at h
    split at h
    · obtain ⟨d', v, un, h1, h2⟩ := ih p h
      exact ⟨d', v, un, List.mem_cons_of_mem _ h1, h2⟩
    · rename_i v hv
      split at h
      · rename_i h0
        simp only [Option.some.injEq] at h
        exact ⟨d, v, s.unset, by simp, hv, by rw [← h], by rw [← h]; rfl, Or.inl ⟨rfl, h0⟩⟩
      · split at h
        · rename_i prev hprev
          split at h
          · rename_i hty
            split at h
            · rename_i hn
              simp only [Option.some.injEq] at h
              exact ⟨d, v, s.unset ++ [prev], by simp, hv, by rw [← h], by rw [← h]; rfl, Or.inr ⟨prev, rfl, hprev, hty, hn⟩⟩
            · obtain ⟨d', v, un, h1, h2⟩ := ih p h
              exact ⟨d', v, un, List.mem_cons_of_mem _ h1, h2⟩
          · obtain ⟨d', v, un, h1, h2⟩ := ih p h
            exact ⟨d', v, un, List.mem_cons_of_mem _ h1, h2⟩
        · obtain ⟨d', v, un, h1, h2⟩ := ih p h
          exact ⟨d', v, un, List.mem_cons_of_mem _ h1, h2⟩

theorem parseDigitToken_sound (e : AEnv) (s : ASt) (text : List Char) :
    ∀ (cs : List (Comp × List Dir)) (p : ASt × List (Comp × Int)), parseDigitToken e s text cs = some p →
      ∃ c ds d v un, (c, ds) ∈ cs ∧ d ∈ ds ∧ s.skippedComp ≠ some c ∧ e.fns.partValue c text d = some v ∧ p.2 = [(c, v)] ∧
        p.1 = { s with unset := un, autoOrder := s.autoOrder ++ [c], ctoks := s.ctoks.set c ⟨text, .digit⟩ } ∧
        ((un = s.unset ∧ s.vals.get0 c = 0) ∨
          ∃ prev, un = s.unset ++ [prev] ∧ s.ctoks.get c = some prev ∧ prev.typ = .digit ∧ e.fns.partValue c prev.text d = none) := by
  intro cs
  induction cs with
  | nil => intro p h; simp [parseDigitToken] at h
  | cons c cs ih =>
    intro p h
    obtain ⟨c, ds⟩ := c
    rw [parseDigitToken] at h
    split at h
    · obtain ⟨c', ds, d', v, un, h1, h2⟩ := ih p h
      exact ⟨c', ds, d', v, un, List.mem_cons_of_mem _ h1, h2⟩
    · rename_i hsk
      split at h
      · rename_i x hx
        simp only [Option.some.injEq] at h
        subst h
        obtain ⟨d, v, un, h1, h2⟩ := digitDirLoop_sound _ _ _ _ _ _ hx
        exact ⟨c, ds, d, v, un, by simp, h1, hsk, h2⟩
      · obtain ⟨c', ds, d', v, un, h1, h2⟩ := ih p h
        exact ⟨c', ds, d', v, un, List.mem_cons_of_mem _ h1, h2⟩

theorem numberDirectives_num {o : List Char} {c : Comp} {ds : List Dir} (h : (c, ds) ∈ numberDirectives o) {d : Dir} (hd : d ∈ ds) :
    numDir c d := by
  unfold numberDirectives at h
  obtain ⟨x, _, hx⟩ := List.mem_filterMap.mp h
  split at hx
  · cases hx; exact List.mem_singleton.mp hd
  · split at hx
    · cases hx; exact List.mem_singleton.mp hd
    · split at hx
      · cases hx; simpa [numDir] using hd
      · cases hx

theorem letterDirLoop_sound (e : AEnv) (s : ASt) (c : Comp) (text : List Char) :
    ∀ (ds : List Dir) (p : ASt × List (Comp × Int)), letterDirLoop e s c text ds = some p →
      ∃ d v, d ∈ ds ∧ e.fns.partValue c text d = some v ∧
        ((s.vals.get0 c = 0 ∧ p.2 = [(c, v)] ∧ p.1 = { s with ctoks := s.ctoks.set c ⟨text, .letter⟩ }) ∨
         (c = .month ∧ s.vals.get0 .month ≠ 0 ∧ p.2 = [(.month, v), (.day, s.vals.get0 .month)] ∧ ∃ ao, replaceMonthByDay s.autoOrder = some ao ∧
          p.1 = { s with autoOrder := ao,
                         ctoks := (s.ctoks.set .day ((s.ctoks.get .month).getD ⟨[], .null⟩)).set .month ⟨text, .letter⟩ })) := by
  intro ds
  induction ds with
  | nil => intro p h; simp [letterDirLoop] at h
  | cons d ds ih =>
    intro p h
    rw [letterDirLoop] at h
    split at h
    · obtain ⟨d', v, h1, h2⟩ := ih p h
      exact ⟨d', v, List.mem_cons_of_mem _ h1, h2⟩
    · rename_i v hv
      split at h
      · rename_i h0
        simp only [Option.some.injEq] at h
        exact ⟨d, v, by simp, hv, Or.inl ⟨h0, by rw [← h], by rw [← h]; rfl⟩⟩
      · rename_i h0
        split at h
        · rename_i hc
          split at h
          · obtain ⟨d', v, h1, h2⟩ := ih p h
            exact ⟨d', v, List.mem_cons_of_mem _ h1, h2⟩
          · rename_i ao hao
            simp only [Option.some.injEq] at h
            subst hc
            exact ⟨d, v, by simp, hv, Or.inr ⟨rfl, h0, by rw [← h], ao, hao, by rw [← h]⟩⟩
        · obtain ⟨d', v, h1, h2⟩ := ih p h
          exact ⟨d', v, List.mem_cons_of_mem _ h1, h2⟩

theorem parseLetterToken_sound (e : AEnv) (s : ASt) (text : List Char) :
    ∀ (cs : List (Comp × List Dir)) (p : ASt × List (Comp × Int)), parseLetterToken e s text cs = some p →
      ∃ c ds d v, (c, ds) ∈ cs ∧ d ∈ ds ∧ e.fns.partValue c text d = some v ∧
        ((s.vals.get0 c = 0 ∧ p.2 = [(c, v)] ∧ p.1 = { s with ctoks := s.ctoks.set c ⟨text, .letter⟩ }) ∨
         (c = .month ∧ s.vals.get0 .month ≠ 0 ∧ p.2 = [(.month, v), (.day, s.vals.get0 .month)] ∧ ∃ ao, replaceMonthByDay s.autoOrder = some ao ∧
          p.1 = { s with autoOrder := ao,
                         ctoks := (s.ctoks.set .day ((s.ctoks.get .month).getD ⟨[], .null⟩)).set .month ⟨text, .letter⟩ })) := by
  intro cs
  induction cs with
  | nil => intro p h; simp [parseLetterToken] at h
  | cons c cs ih =>
    intro p h
    obtain ⟨c, ds⟩ := c
    rw [parseLetterToken] at h
    split at h
    · obtain ⟨c', ds, d', v, h1, h2⟩ := ih p h
      exact ⟨c', ds, d', v, List.mem_cons_of_mem _ h1, h2⟩
    · split at h
      · rename_i x hx
        simp only [Option.some.injEq] at h
        subst h
        obtain ⟨d, v, h1, h2⟩ := letterDirLoop_sound _ _ _ _ _ _ hx
        exact ⟨c, ds, d, v, by simp, h1, h2⟩
      · obtain ⟨c', ds, d', v, h1, h2⟩ := ih p h
        exact ⟨c', ds, d', v, List.mem_cons_of_mem _ h1, h2⟩

/-! ## Names -/

theorem matchName_nil : ∀ {n v : List Char}, matchName n v = some [] → toLower v = toLower n
  | [], v, h => by simp only [matchName, Option.some.injEq] at h; rw [h]
  | _ :: _, [], h => by simp [matchName] at h
  | p :: ps, c :: cs, h => by
    rw [matchName] at h
    split at h
    · rename_i hc
      have e : toLowerC c = toLowerC p := by simpa [lowerAscii, toLowerC] using hc
      have := matchName_nil h
      unfold toLower at this ⊢
      rw [List.map_cons, List.map_cons, e, this]
    · cases h

theorem lookup_nil {v : List Char} : ∀ {l : List (List Char)} {p : Int}, lookup l v = some (p, []) →
    ∃ k : Nat, p = k ∧ ∃ n, l[k]? = some n ∧ toLower v = toLower n
  | [], p, h => by simp [lookup] at h
  | n :: l, p, h => by
    rw [lookup] at h
    split at h
    · rename_i r hr
      cases h
      exact ⟨0, rfl, n, rfl, matchName_nil hr⟩
    · rename_i hn
      cases hl : lookup l v with
      | none => rw [hl] at h; cases h
      | some q =>
        rw [hl] at h
        simp only [Option.map_some, Option.some.injEq, Prod.mk.injEq] at h
        obtain ⟨q1, q2⟩ := q
        dsimp only at h
        obtain ⟨k, hk, n', h1, h2⟩ := lookup_nil (p := q1) (by rw [hl, ← h.2])
        exact ⟨k + 1, by omega, n', h1, h2⟩

def namesRight (l : List (List Char)) (d : Dir) : Bool :=
  l.all fun n => match gregPartValue .month (toLower n) d with
    | some v => monthNames.contains (toLower n, v)
    | none => true
theorem namesRight_long : namesRight longMonthNames .mJanuary = true := by decide +kernel
theorem namesRight_short : namesRight shortMonthNames .mJan = true := by decide +kernel

theorem name_of_lookup {l : List (List Char)} {d : Dir} (hr : namesRight l d = true) {t : List Char} {p : Int}
    (hl : lookup l (toLower t) = some (p, [])) {v : Int} (h : gregPartValue .month t d = some v) : IsMonthName t v := by
  obtain ⟨k, _, n, hn, e⟩ := lookup_nil hl
  rw [toLower_idem] at e
  have := List.all_eq_true.mp hr n (List.mem_of_getElem? hn)
  rw [partValue_lower, e] at h
  rw [h] at this
  unfold IsMonthName
  rw [e]
  simpa using this

theorem partValue_name {t : List Char} {d : Dir} (hd : d = .mJanuary ∨ d = .mJan) {v : Int} (h : gregPartValue .month t d = some v) :
    IsMonthName t v := by
  have lj : layoutChunks Dir.mJanuary.layout = [.monthLong] := by decide
  have ls : layoutChunks Dir.mJan.layout = [.month3] := by decide
  rcases hd with rfl | rfl
  · cases hl : lookup longMonthNames (toLower t) with
    | none =>
      unfold gregPartValue timeParse timeParseIn parseWith at h
      rw [lj] at h
      simp [parseChunks, parseChunk, hl] at h
    | some q =>
      obtain ⟨p, r⟩ := q
      cases r with
      | nil => exact name_of_lookup namesRight_long hl h
      | cons c r =>
        unfold gregPartValue timeParse timeParseIn parseWith at h
        rw [lj] at h
        simp [parseChunks, parseChunk, hl] at h
  · cases hl : lookup shortMonthNames (toLower t) with
    | none =>
      unfold gregPartValue timeParse timeParseIn parseWith at h
      rw [ls] at h
      simp [parseChunks, parseChunk, hl] at h
    | some q =>
      obtain ⟨p, r⟩ := q
      cases r with
      | nil => exact name_of_lookup namesRight_short hl h
      | cons c r =>
        unfold gregPartValue timeParse timeParseIn parseWith at h
        rw [ls] at h
        simp [parseChunks, parseChunk, hl] at h

theorem dayNames_right : (longDayNames.all fun n => weekdays.any fun x => toLower n == x.1) = true ∧
    (shortDayNames.all fun n => weekdays.any fun x => toLower n == x.1) = true := by decide +kernel

theorem weekday_of_lookup {l : List (List Char)} (hr : (l.all fun n => weekdays.any fun x => toLower n == x.1) = true) {t : List Char} {p : Int}
    (hl : lookup l (toLower t) = some (p, [])) : ∃ n, IsWeekdayName t n := by
  obtain ⟨k, _, n, hn, e⟩ := lookup_nil hl
  rw [toLower_idem] at e
  have := List.all_eq_true.mp hr n (List.mem_of_getElem? hn)
  obtain ⟨x, hx, hx2⟩ := List.any_eq_true.mp this
  refine ⟨x.2, ?_⟩
  unfold IsWeekdayName
  rw [e, eq_of_beq hx2]
  exact hx

theorem partValue_weekday {t : List Char} {d : Dir} (hd : d = .wMonday ∨ d = .wMon) {c : Comp} {v : Int} (h : gregPartValue c t d = some v) :
    ∃ n, IsWeekdayName t n := by
  have lj : layoutChunks Dir.wMonday.layout = [.wdayLong] := by decide
  have ls : layoutChunks Dir.wMon.layout = [.wday3] := by decide
  rcases hd with rfl | rfl
  · cases hl : lookup longDayNames (toLower t) with
    | none =>
      unfold gregPartValue timeParse timeParseIn parseWith at h
      rw [lj] at h
      simp [parseChunks, parseChunk, hl] at h
    | some q =>
      obtain ⟨p, r⟩ := q
      cases r with
      | nil => exact weekday_of_lookup dayNames_right.1 hl
      | cons c r =>
        unfold gregPartValue timeParse timeParseIn parseWith at h
        rw [lj] at h
        simp [parseChunks, parseChunk, hl] at h
  · cases hl : lookup shortDayNames (toLower t) with
    | none =>
      unfold gregPartValue timeParse timeParseIn parseWith at h
      rw [ls] at h
      simp [parseChunks, parseChunk, hl] at h
    | some q =>
      obtain ⟨p, r⟩ := q
      cases r with
      | nil => exact weekday_of_lookup dayNames_right.2 hl
      | cons c r =>
        unfold gregPartValue timeParse timeParseIn parseWith at h
        rw [ls] at h
        simp [parseChunks, parseChunk, hl] at h

theorem monthName_range {t : List Char} {m : Int} (h : IsMonthName t m) : 1 ≤ m ∧ m ≤ 12 := by
  have : ∀ x ∈ monthNames, 1 ≤ x.2 ∧ x.2 ≤ 12 := by decide +kernel
  exact this _ h

/-! ## The invariant -/

/-- Every part found has its own word. -/
structure SInv (F : List Tok) (i : Nat) (s : ASt) (pos : Comp → Nat) : Prop where
  part : ∀ c, (s.vals.get c = none ∧ s.ctoks.get c = none) ∨
    ∃ v w, s.vals.get c = some v ∧ s.ctoks.get c = some w ∧ F[pos c]? = some w ∧ pos c < i ∧ PW c w v
  dist : ∀ c c', c ≠ c' → (s.vals.get c).isSome = true → (s.vals.get c').isSome = true → pos c ≠ pos c'
  auto : Comp.month ∈ s.autoOrder → ∃ w, s.ctoks.get .month = some w ∧ w.typ = .digit
  count : s.autoOrder.count .month ≤ 1
  skip : ∀ w, s.ctoks.get .year = some w → w.text.length = 4 → s.skippedComp = some .year
  unset : s.unset = [] ∨ ∃ u k, s.unset = [u] ∧ u.typ = .digit ∧ Two u.text ∧ F[k]? = some u ∧ k < i ∧ k < pos .year ∧
    (∃ w, s.ctoks.get .year = some w ∧ w.text.length = 4) ∧ ∀ c, (s.vals.get c).isSome = true → pos c ≠ k

theorem SInv.empty (F : List Tok) (pos : Comp → Nat) : SInv F 0 {} pos where
  part c := Or.inl (by cases c <;> exact ⟨rfl, rfl⟩)
  dist c c' _ h := by cases c <;> cases h
  auto h := by cases h
  count := by decide
  skip w h := by cases h
  unset := Or.inl rfl

theorem SInv.later {F : List Tok} {i j : Nat} {s s' : ASt} {pos : Comp → Nat} (h : SInv F i s pos) (hij : i ≤ j) (hv : s'.vals = s.vals)
    (hc : ∀ c, s'.ctoks.get c = s.ctoks.get c) (hu : s'.unset = s.unset) (ha : s'.autoOrder = s.autoOrder)
    (hs : s'.skippedComp = s.skippedComp) : SInv F j s' pos where
  part c := by
    rw [hv, hc]
    rcases h.part c with h | ⟨v, w, h1, h2, h3, h4, h5⟩
    · exact Or.inl h
    · exact Or.inr ⟨v, w, h1, h2, h3, by omega, h5⟩
  dist := by rw [hv]; exact h.dist
  auto := by rw [ha, hc]; exact h.auto
  count := by rw [ha]; exact h.count
  skip := by rw [hc, hs]; exact h.skip
  unset := by
    rw [hu, hc, hv]
    rcases h.unset with h | ⟨u, k, h1, h2, h3, h4, h5, h6⟩
    · exact Or.inl h
    · exact Or.inr ⟨u, k, h1, h2, h3, h4, by omega, h6⟩

/-- Without a value there is no part, unless it is the year 0000. -/
theorem SInv.unset_of_zero {F : List Tok} {i : Nat} {s : ASt} {pos : Comp → Nat} (h : SInv F i s pos) {c : Comp} (hc : c ≠ .weekday)
    (h0 : s.vals.get0 c = 0) (hs : c = .year → s.skippedComp ≠ some .year) : s.vals.get c = none ∧ s.ctoks.get c = none := by
  rcases h.part c with h1 | ⟨v, w, h1, h2, h3, h4, h5⟩
  · exact h1
  · exfalso
    have hv : v = 0 := by simpa [Vals.get0, h1] using h0
    subst hv
    cases c with
    | day => have := h5.2.2.2.1; omega
    | month =>
      rcases h5 with ⟨_, _, _, h5, _⟩ | ⟨_, h5⟩
      · omega
      · have := (monthName_range h5).1; omega
    | year =>
      rcases h5 with ⟨_, ⟨h5, _⟩ | ⟨h5, h6⟩⟩
      · exact hs rfl (h.skip w h2 h5.2)
      · have := natOfDigits_range h5.1.2
        rw [number_eq] at h6
        unfold pivotYear at h6
        split at h6 <;> omega
    | weekday => exact hc rfl

/-- A token that is not the beginning of a time has no colon. -/
theorem captureTime_colon {toks : List Tok} {fl : List FTok} {i : Nat} {ft : FTok} {sk sk' : List Nat}
    (h : captureTime toks fl i ft sk = (none, sk')) : ft.tok.text.contains ':' = false := by
  have key : ((joinPeriod toks fl i ft).getD ft.tok.text).contains ':' = true → (captureTime toks fl i ft sk).1.isSome = true := by
    intro hc
    unfold captureTime
    dsimp only
    rw [hc, Bool.true_or, Bool.true_or, if_pos rfl]
    generalize (captureMicro toks fl i _).isEmpty = a
    generalize (captureMeridian fl _).isEmpty = b
    cases a <;> cases b <;> rfl
  cases hj : joinPeriod toks fl i ft with
  | none =>
    cases hc : ft.tok.text.contains ':' with
    | false => rfl
    | true =>
      rw [hj, h] at key
      exact absurd (key hc) (by simp)
  | some x =>
    exfalso
    have hx : x.contains ':' = true := by
      unfold joinPeriod at hj
      dsimp only at hj
      generalize (if ft.origIdx = 0 then false else tokTextAt toks (ft.origIdx - 1) == ['.']) = q at hj
      cases hf : fl[i + 1]? with
      | none => rw [hf] at hj; cases hj
      | some n =>
        rw [hf] at hj
        dsimp only at hj
        split at hj
        · split at hj
          · split at hj
            · simp only [Option.some.injEq] at hj; rw [← hj]; simp
            · exact absurd hj (by simp)
          · exact absurd hj (by simp)
        · exact absurd hj (by simp)
    rw [hj, h] at key
    exact absurd (key hx) (by simp)

theorem numeral_of_run {t : List Char} (h1 : t ≠ []) (h2 : Run .digit t) (h3 : t.contains ':' = false) : IsNumeral t := by
  refine ⟨h1, fun c hc => ?_⟩
  have := h2 c hc
  unfold classOf at this
  split at this
  · rename_i hd
    unfold isDigitTok at hd
    have hne : c ≠ ':' := by
      rintro rfl
      rw [← Bool.not_eq_true, List.contains_iff_mem] at h3
      exact h3 hc
    simp only [Char.isDigit, Bool.and_eq_true, decide_eq_true_eq]
    have hd' : '0' ≤ c ∧ c ≤ '9' := by simpa [hne] using hd
    exact hd'
  · split at this <;> cases this

theorem Vals.get0_set (v : Vals) (c c' : Comp) (x : Int) : (v.set c x).get0 c' = if c = c' then x else v.get0 c' := by
  unfold Vals.get0
  rw [Vals.get_set]
  split <;> rfl

theorem SInv.digit {F : List Tok} {i : Nat} {s : ASt} {pos : Comp → Nat} (h : SInv F i s pos) {t : Tok} (ht : F[i]? = some t)
    (htd : t.typ = .digit) (hn : IsNumeral t.text) {c : Comp} {d : Dir} {v : Int} {un : List Tok} (hnd : numDir c d) (hsk : s.skippedComp ≠ some c)
    (hv : gregPartValue c t.text d = some v)
    (hun : (un = s.unset ∧ s.vals.get0 c = 0) ∨
      ∃ prev, un = s.unset ++ [prev] ∧ s.ctoks.get c = some prev ∧ prev.typ = .digit ∧ gregPartValue c prev.text d = none) :
    SInv F (i + 1) (saveResults { s with unset := un, autoOrder := s.autoOrder ++ [c], ctoks := s.ctoks.set c ⟨t.text, .digit⟩ } t.text.length [(c, v)])
      (fun c' => if c = c' then i else pos c') := by
  have htok : (⟨t.text, .digit⟩ : Tok) = t := by rw [← htd]
  have hcw : c ≠ .weekday := by rintro rfl; exact hnd
  have hpw := numDir_pw hnd hn hv
  rw [htok] at hpw ⊢
  have hsave : saveResults { s with unset := un, autoOrder := s.autoOrder ++ [c], ctoks := s.ctoks.set c t } t.text.length [(c, v)] =
      { s with unset := un, autoOrder := s.autoOrder ++ [c], ctoks := s.ctoks.set c t, vals := s.vals.set c v,
               skippedComp := if t.text.length = 4 ∧ c = .year then some .year else s.skippedComp } := by
    unfold saveResults saveResults
    split <;> rfl
  rw [hsave]
  have hold : ∀ c', (s.vals.get c').isSome = true → pos c' < i := by
    intro c' hc'
    rcases h.part c' with h1 | ⟨_, _, _, _, _, h4, _⟩
    · rw [h1.1] at hc'; cases hc'
    · exact h4
  constructor
  · intro c'
    dsimp only
    rw [Vals.get_set, CToks.get_set]
    by_cases e : c = c'
    · subst e
      simp only [if_true]
      exact Or.inr ⟨v, t, rfl, rfl, ht, by omega, hpw⟩
    · simp only [e, if_false]
      rcases h.part c' with h1 | ⟨v', w, h1, h2, h3, h4, h5⟩
      · exact Or.inl h1
      · exact Or.inr ⟨v', w, h1, h2, h3, by omega, h5⟩
  · intro a b hab ha hb
    dsimp only at ha hb ⊢
    rw [Vals.get_set] at ha hb
    by_cases ea : c = a
    · subst ea
      simp only [if_true, hab, if_false] at hb ⊢
      have := hold b hb; omega
    · by_cases eb : c = b
      · subst eb
        simp only [if_true, ea, if_false] at ha ⊢
        have := hold a ha; omega
      · simp only [ea, eb, if_false] at ha hb ⊢
        exact h.dist a b hab ha hb
  · dsimp only
    intro hm
    rw [CToks.get_set]
    by_cases e : c = .month
    · rw [if_pos e]; exact ⟨t, rfl, htd⟩
    · rw [if_neg e]
      rw [List.mem_append] at hm
      rcases hm with hm | hm
      · exact h.auto hm
      · exact absurd (List.mem_singleton.mp hm).symm e
  · dsimp only
    rw [List.count_append]
    by_cases e : c = .month
    · subst e
      have hnone : s.ctoks.get .month = none := by
        rcases hun with ⟨_, h0⟩ | ⟨prev, _, h2, h3, h4⟩
        · exact (h.unset_of_zero hcw h0 (by intro h; cases h)).2
        · exfalso
          rcases h.part .month with h1 | ⟨v', w, h1, h5, _, _, h6⟩
          · rw [h1.2] at h2; cases h2
          · rw [h5] at h2; cases h2
            exact absurd (pw_refused hnd h6 h3 h4).1 (by decide)
      have : Comp.month ∉ s.autoOrder := by
        intro hm
        obtain ⟨w, hw, _⟩ := h.auto hm
        rw [hnone] at hw; cases hw
      rw [List.count_eq_zero_of_not_mem this]
      decide
    · have : List.count Comp.month [c] = 0 := by
        rw [List.count_eq_zero_of_not_mem]
        intro hm; exact e (List.mem_singleton.mp hm).symm
      rw [this]; exact h.count
  · dsimp only
    intro w hw hl
    rw [CToks.get_set] at hw
    by_cases e : c = .year
    · rw [if_pos e] at hw
      cases hw
      rw [if_pos ⟨hl, e⟩]
    · rw [if_neg e] at hw
      rw [if_neg (fun hh => e hh.2)]
      exact h.skip w hw hl
  · dsimp only
    rcases hun with ⟨rfl, h0⟩ | ⟨prev, hu, h2, h3, h4⟩
    · rcases h.unset with h1 | ⟨u, k, h1, h2, h3, h4, h5, h55, ⟨w, h6, h7⟩, h8⟩
      · exact Or.inl h1
      · right
        have e : c ≠ .year := by
          rintro rfl
          exact hsk (h.skip w h6 h7)
        refine ⟨u, k, h1, h2, h3, h4, by omega, by rw [if_neg e]; exact h55, ⟨w, ?_, h7⟩, ?_⟩
        · rw [CToks.get_set, if_neg e]; exact h6
        · intro c' hc'
          rw [Vals.get_set] at hc'
          by_cases ec : c = c'
          · subst ec; simp only [if_true]; omega
          · simp only [ec, if_false] at hc' ⊢; exact h8 c' hc'
    · right
      rcases h.part c with h1 | ⟨v', w, h1, h5, h6, h7, h8⟩
      · rw [h1.2] at h2; cases h2
      · rw [h5] at h2; cases h2
        obtain ⟨rfl, hr⟩ := pw_refused hnd h8 h3 h4
        have hw4 : prev.text.length ≠ 4 := fun hl => hsk (h.skip prev h5 hl)
        rcases hr with hr | ⟨htwo, rfl⟩
        · exact absurd hr hw4
        · have he : s.unset = [] := by
            rcases h.unset with h1 | ⟨u, k, _, _, _, _, _, _, ⟨w', h9, h10⟩, _⟩
            · exact h1
            · rw [h5] at h9; cases h9; exact absurd h10 hw4
          refine ⟨prev, pos .year, by rw [hu, he]; rfl, h3, htwo, h6, by omega, by rw [if_pos rfl]; exact h7, ⟨t, by rw [CToks.get_set, if_pos rfl], ?_⟩, ?_⟩
          · rw [partValue_year4 hn.2 hn.1] at hv
            split at hv
            · rename_i hh; exact hh.1
            · cases hv
          · intro c' hc'
            rw [Vals.get_set] at hc'
            by_cases ec : Comp.year = c'
            · subst ec; simp only [if_true]; omega
            · simp only [ec, if_false] at hc' ⊢
              exact h.dist c' .year (fun h => ec h.symm) hc' (by rw [h1]; rfl)

theorem replaceMonth_count : ∀ {l ao : List Comp}, replaceMonthByDay l = some ao → ao.count .month + 1 = l.count .month
  | [], ao, h => by cases h
  | .month :: r, ao, h => by
    simp only [replaceMonthByDay, Option.some.injEq] at h
    subst h
    simp
  | .day :: r, ao, h => by
    simp only [replaceMonthByDay] at h
    obtain ⟨x, hx, rfl⟩ := Option.map_eq_some_iff.mp h
    have := replaceMonth_count hx
    simpa using this
  | .year :: r, ao, h => by
    simp only [replaceMonthByDay] at h
    obtain ⟨x, hx, rfl⟩ := Option.map_eq_some_iff.mp h
    have := replaceMonth_count hx
    simpa using this
  | .weekday :: r, ao, h => by
    simp only [replaceMonthByDay] at h
    obtain ⟨x, hx, rfl⟩ := Option.map_eq_some_iff.mp h
    have := replaceMonth_count hx
    simpa using this

theorem alphaDirectives_names {b : Bool} {c : Comp} {ds : List Dir} (h : (c, ds) ∈ alphaDirectives b) {d : Dir} (hd : d ∈ ds) :
    (c = .weekday ∧ (d = .wMonday ∨ d = .wMon)) ∨ (c = .month ∧ (d = .mJanuary ∨ d = .mJan)) := by
  unfold alphaDirectives at h
  cases b <;> simp at h <;> rcases h with ⟨rfl, rfl⟩ | ⟨rfl, rfl⟩ <;> simp at hd ⊢ <;> exact hd

theorem SInv.letter {F : List Tok} {i : Nat} {s : ASt} {pos : Comp → Nat} (h : SInv F i s pos) {t : Tok} (ht : F[i]? = some t)
    (htd : t.typ = .letter) {c : Comp} {d : Dir} {v : Int} (hcd : (c = .weekday ∧ (d = .wMonday ∨ d = .wMon)) ∨ (c = .month ∧ (d = .mJanuary ∨ d = .mJan)))
    (hv : gregPartValue c t.text d = some v) (h0 : s.vals.get0 c = 0) :
    SInv F (i + 1) (saveResults { s with ctoks := s.ctoks.set c ⟨t.text, .letter⟩ } t.text.length [(c, v)]) (fun c' => if c = c' then i else pos c') := by
  have htok : (⟨t.text, .letter⟩ : Tok) = t := by rw [← htd]
  have hcy : c ≠ .year := by rcases hcd with ⟨rfl, _⟩ | ⟨rfl, _⟩ <;> decide
  have hcd' : c ≠ .day := by rcases hcd with ⟨rfl, _⟩ | ⟨rfl, _⟩ <;> decide
  have hpw : PW c t v := by
    rcases hcd with ⟨rfl, hd⟩ | ⟨rfl, hd⟩
    · exact ⟨htd, partValue_weekday hd hv⟩
    · exact Or.inr ⟨htd, partValue_name hd hv⟩
  rw [htok]
  have hsave : saveResults { s with ctoks := s.ctoks.set c t } t.text.length [(c, v)] =
      { s with ctoks := s.ctoks.set c t, vals := s.vals.set c v } := by
    unfold saveResults saveResults
    simp only [hcy, and_false, if_false]
  rw [hsave]
  have hold : ∀ c', (s.vals.get c').isSome = true → pos c' < i := by
    intro c' hc'
    rcases h.part c' with h1 | ⟨_, _, _, _, _, h4, _⟩
    · rw [h1.1] at hc'; cases hc'
    · exact h4
  constructor
  · intro c'
    dsimp only
    rw [Vals.get_set, CToks.get_set]
    by_cases e : c = c'
    · subst e
      simp only [if_true]
      exact Or.inr ⟨v, t, rfl, rfl, ht, by omega, hpw⟩
    · simp only [e, if_false]
      rcases h.part c' with h1 | ⟨v', w, h1, h2, h3, h4, h5⟩
      · exact Or.inl h1
      · exact Or.inr ⟨v', w, h1, h2, h3, by omega, h5⟩
  · intro a b hab ha hb
    dsimp only at ha hb ⊢
    rw [Vals.get_set] at ha hb
    by_cases ea : c = a
    · subst ea
      simp only [if_true, hab, if_false] at hb ⊢
      have := hold b hb; omega
    · by_cases eb : c = b
      · subst eb
        simp only [if_true, ea, if_false] at ha ⊢
        have := hold a ha; omega
      · simp only [ea, eb, if_false] at ha hb ⊢
        exact h.dist a b hab ha hb
  · dsimp only
    intro hm
    rw [CToks.get_set]
    by_cases e : c = .month
    · subst e
      obtain ⟨w, hw, _⟩ := h.auto hm
      rw [(h.unset_of_zero (by decide) h0 (by intro h; cases h)).2] at hw
      cases hw
    · rw [if_neg e]; exact h.auto hm
  · exact h.count
  · dsimp only
    rw [CToks.get_set, if_neg hcy]
    exact h.skip
  · dsimp only
    rw [CToks.get_set]
    simp only [hcy, if_false]
    rcases h.unset with h1 | ⟨u, k, h1, h2, h3, h4, h5, h55, h6, h8⟩
    · exact Or.inl h1
    · refine Or.inr ⟨u, k, h1, h2, h3, h4, by omega, h55, h6, ?_⟩
      intro c' hc'
      rw [Vals.get_set] at hc'
      by_cases ec : c = c'
      · subst ec; simp only [if_true]; omega
      · simp only [ec, if_false] at hc' ⊢; exact h8 c' hc'

/-- The month's word becomes the day's, and the new word is the month's. -/
def swapPos (pos : Comp → Nat) (i : Nat) : Comp → Nat
  | .month => i
  | .day => pos .month
  | c' => pos c'

/-- A month's name after a number taken for the month: that number is the day. -/
theorem SInv.swap {F : List Tok} {i : Nat} {s : ASt} {pos : Comp → Nat} (h : SInv F i s pos) {t : Tok} (ht : F[i]? = some t)
    (htd : t.typ = .letter) {d : Dir} {v : Int} (hd : d = .mJanuary ∨ d = .mJan)
    (hv : gregPartValue .month t.text d = some v) {ao : List Comp} (hao : replaceMonthByDay s.autoOrder = some ao) :
    SInv F (i + 1) (saveResults { s with autoOrder := ao, ctoks := (s.ctoks.set .day ((s.ctoks.get .month).getD ⟨[], .null⟩)).set .month ⟨t.text, .letter⟩ } t.text.length
      [(.month, v), (.day, s.vals.get0 .month)]) (swapPos pos i) := by
  have htok : (⟨t.text, .letter⟩ : Tok) = t := by rw [← htd]
  rw [htok, saveResults_two]
  have hcnt := replaceMonth_count hao
  have hmem : Comp.month ∈ s.autoOrder := List.count_pos_iff.mp (by omega)
  have hao0 : ao.count .month = 0 := by have := h.count; omega
  obtain ⟨w0, hw0, hty⟩ := h.auto hmem
  obtain ⟨v', w, h1, h2, h3, h4, h5⟩ : ∃ v w, s.vals.get .month = some v ∧ s.ctoks.get .month = some w ∧ F[pos .month]? = some w ∧ pos .month < i ∧ PW .month w v := by
    rcases h.part .month with h1 | h1
    · rw [h1.2] at hw0; cases hw0
    · exact h1
  rw [h2] at hw0
  cases hw0
  have hday : PW .day w0 v' := by
    rcases h5 with ⟨a, b, c, e, f⟩ | ⟨a, _⟩
    · exact ⟨a, b, c, e, by omega⟩
    · rw [a] at hty; cases hty
  have hg0 : s.vals.get0 .month = v' := by simp [Vals.get0, h1]
  have hmsome : (s.vals.get .month).isSome = true := by rw [h1]; rfl
  rw [h2, hg0]
  simp only [Option.getD_some]
  have hold : ∀ c', (s.vals.get c').isSome = true → pos c' < i := by
    intro c' hc'
    rcases h.part c' with h1 | ⟨_, _, _, _, _, h4, _⟩
    · rw [h1.1] at hc'; cases hc'
    · exact h4
  have esw : swapPos pos i = (fun c' => match c' with | .month => i | .day => pos .month | c' => pos c') := by funext c'; cases c' <;> rfl
  rw [esw]
  constructor
  · intro c'
    dsimp only
    rw [Vals.get_set, Vals.get_set, CToks.get_set, CToks.get_set]
    cases c' with
    | day => simp; exact ⟨h3, by omega, hday⟩
    | month => simp; exact ⟨ht, Or.inr ⟨htd, partValue_name hd hv⟩⟩
    | year =>
      simp only [reduceCtorEq, if_false]
      rcases h.part .year with h1 | ⟨v', w, h1, h2, h3, h4, h5⟩
      · exact Or.inl h1
      · exact Or.inr ⟨v', w, h1, h2, h3, by omega, h5⟩
    | weekday =>
      simp only [reduceCtorEq, if_false]
      rcases h.part .weekday with h1 | ⟨v', w, h1, h2, h3, h4, h5⟩
      · exact Or.inl h1
      · exact Or.inr ⟨v', w, h1, h2, h3, by omega, h5⟩
  · intro a b hab ha hb
    dsimp only at ha hb ⊢
    rw [Vals.get_set, Vals.get_set] at ha hb
    cases a <;> cases b <;> simp only [reduceCtorEq, if_false, if_true, ne_eq, not_true_eq_false] at hab ha hb ⊢
    all_goals first
      | (have := hold _ ha; omega)
      | (have := hold _ hb; omega)
      | exact h.dist _ _ (by decide) hmsome hb
      | exact h.dist _ _ (by decide) ha hmsome
      | exact h.dist _ _ (by decide) ha hb
      | omega
  · dsimp only
    intro hm
    rw [← List.count_pos_iff] at hm
    omega
  · dsimp only; omega
  · dsimp only
    rw [CToks.get_set, CToks.get_set]
    simp only [reduceCtorEq, if_false]
    exact h.skip
  · dsimp only
    rw [CToks.get_set, CToks.get_set]
    simp only [reduceCtorEq, if_false]
    rcases h.unset with h1 | ⟨u, k, h1, h2, h3, h4, h5, h55, h6, h8⟩
    · exact Or.inl h1
    · refine Or.inr ⟨u, k, h1, h2, h3, h4, by omega, h55, h6, ?_⟩
      intro c' hc'
      rw [Vals.get_set, Vals.get_set] at hc'
      cases c' <;> simp only [reduceCtorEq, if_false] at hc' ⊢
      · exact h8 _ hmsome
      · omega
      · exact h8 _ hc'
      · exact h8 _ hc'

theorem initStep_sound {e : AEnv} (he : e.fns = gregFns) {toks : List Tok} {fl : List FTok} {i : Nat} {ft : FTok} {s s' : ASt}
    {F : List Tok} {pos : Comp → Nat} (hF : F[i]? = some ft.tok) (hrun : ft.tok.text ≠ [] ∧ Run ft.tok.typ ft.tok.text)
    (h : SInv F i s pos) (hs : initStep e toks fl i ft s = .ok s') : ∃ pos', SInv F (i + 1) s' pos' := by
  unfold initStep at hs
  split at hs
  · cases hs; exact ⟨pos, h.later (by omega) rfl (fun _ => rfl) rfl rfl rfl⟩
  · split at hs
    · cases hs; exact ⟨pos, h.later (by omega) rfl (fun _ => rfl) rfl rfl rfl⟩
    · split at hs
      · rename_i strTime sk hcap
        cases hs
        exact ⟨pos, h.later (by omega) rfl (fun c => by cases c <;> rfl) rfl rfl rfl⟩
      · rename_i sk hcap
        dsimp only at hs
        have h2 : SInv F i { s with skippedIdx := sk } pos := h.later (by omega) rfl (fun _ => rfl) rfl rfl rfl
        generalize ({ s with skippedIdx := sk } : ASt) = s2 at hs h2
        split at hs
        · cases hs
        · rename_i s3 results hr
          cases hs
          split at hr
          · rename_i hd
            obtain ⟨c, ds, d, v, un, hm, hdm, hsk, hv, e2, e1, hun⟩ := parseDigitToken_sound _ _ _ _ _ hr
            rw [he] at hv
            simp only [he] at hun
            dsimp only at e1 e2
            subst e1 e2
            exact ⟨_, h2.digit hF hd (numeral_of_run hrun.1 (by rw [← hd]; exact hrun.2) (captureTime_colon hcap)) (numberDirectives_num hm hdm) hsk hv hun⟩
          · split at hr
            · rename_i hd
              obtain ⟨c, ds, d, v, hm, hdm, hv, hsh⟩ := parseLetterToken_sound _ _ _ _ _ hr
              rw [he] at hv
              have hcd := alphaDirectives_names hm hdm
              rcases hsh with ⟨h0, e2, e1⟩ | ⟨rfl, h0, e2, ao, hao, e1⟩
              · dsimp only at e1 e2
                subst e1 e2
                exact ⟨_, h2.letter hF hd hcd hv h0⟩
              · dsimp only at e1 e2
                subst e1 e2
                refine ⟨_, h2.swap hF hd (d := d) ?_ hv hao⟩
                rcases hcd with ⟨h, _⟩ | ⟨_, h⟩
                · cases h
                · exact h
            · simp only [Option.some.injEq, Prod.mk.injEq] at hr
              obtain ⟨e1, e2⟩ := hr
              subst e1 e2
              exact ⟨pos, h2.later (by omega) rfl (fun _ => rfl) rfl rfl rfl⟩

theorem initLoop_sound {e : AEnv} (he : e.fns = gregFns) {toks : List Tok} {fl : List FTok} {F : List Tok} :
    ∀ (r : List FTok) (i : Nat) (s s' : ASt) (pos : Comp → Nat), (∀ k (ft : FTok), r[k]? = some ft → F[i + k]? = some ft.tok) →
      (∀ ft ∈ r, ft.tok.text ≠ [] ∧ Run ft.tok.typ ft.tok.text) → SInv F i s pos →
      initLoop e toks fl i r s = .ok s' → ∃ pos', SInv F (i + r.length) s' pos' := by
  intro r
  induction r with
  | nil => intro i s s' pos _ _ h hs; cases hs; exact ⟨pos, h⟩
  | cons ft r ih =>
    intro i s s' pos hF hr h hs
    rw [initLoop] at hs
    split at hs
    · cases hs
    · rename_i s2 h2
      obtain ⟨pos2, hi⟩ := initStep_sound he (hF 0 ft rfl) (hr ft (by simp)) h h2
      obtain ⟨pos3, h3⟩ := ih (i + 1) s2 s' pos2 (fun k x hx => by have := hF (k + 1) x hx; rwa [show i + 1 + k = i + (k + 1) by omega])
        (fun x hx => hr x (by simp [hx])) hi hs
      exact ⟨pos3, by rw [List.length_cons, show i + (r.length + 1) = i + 1 + r.length by omega]; exact h3⟩

/-! ## The words of the text -/

theorem runs_run : ∀ {w : List Char} {t : TokType} (t' : List Char), w ≠ [] → Run t w →
    (t' = [] ∨ ∃ d r, t' = d :: r ∧ classOf d ≠ t) → runs (w ++ t') = w :: runs t' := by
  have cls : ∀ {c d : Char}, (charClass c = charClass d) ↔ classOf c = classOf d := by
    intro c d
    have e1 := typeClass_eq (c := c) rfl
    have e2 := typeClass_eq (c := d) rfl
    rw [e1, e2]
    have n1 : classOf c ≠ .null := by unfold classOf; split; · simp
                                      · split <;> simp
    have n2 : classOf d ≠ .null := by unfold classOf; split; · simp
                                      · split <;> simp
    revert n1 n2
    cases classOf c <;> cases classOf d <;> simp [typeClass]
  have hd : ∀ (s : List Char), (s = [] ∧ runs s = []) ∨ ∃ c r w l, s = c :: r ∧ runs s = (c :: w) :: l := by
    intro s
    cases s with
    | nil => exact Or.inl ⟨rfl, rfl⟩
    | cons c r =>
      right
      rw [runs]
      split
      · split
        · exact ⟨c, r, _, _, rfl, rfl⟩
        · exact ⟨c, r, _, _, rfl, rfl⟩
      · exact ⟨c, r, _, _, rfl, rfl⟩
  intro w
  induction w with
  | nil => intro t t' h; exact absurd rfl h
  | cons c w ih =>
    intro t t' _ hr ht
    cases w with
    | nil =>
      rw [List.singleton_append, runs]
      rcases hd t' with ⟨rfl, h2⟩ | ⟨d, r, w, l, h1, h2⟩
      · rw [h2]
      · rw [h2]
        dsimp only
        rw [if_neg]
        rw [cls]
        rcases ht with ht | ⟨d', r', h3, h4⟩
        · rw [ht] at h1; cases h1
        · rw [h1] at h3; cases h3
          rw [hr c (by simp)]; exact fun h => h4 h.symm
    | cons d w =>
      have hr' : Run t (d :: w) := fun x hx => hr x (by simp [hx])
      have := ih (t := t) t' (by simp) hr' ht
      rw [List.cons_append, runs, this]
      dsimp only
      rw [if_pos]
      rw [cls, hr c (by simp), hr d (by simp)]

theorem runs_good : ∀ (l : List Tok), GoodToks l → runs ((l.map (·.text)).flatten) = l.map (·.text)
  | [], _ => rfl
  | [t], h => by
    have := runs_run [] h.1 h.2 (Or.inl rfl)
    simpa [runs] using this
  | t :: u :: r, h => by
    have ih := runs_good (u :: r) h.2.2.2
    have hu : u.text ≠ [] ∧ Run u.typ u.text := by
      have := h.2.2.2
      cases r with
      | nil => exact this
      | cons v r => exact ⟨this.1, this.2.1⟩
    rw [List.map_cons, List.flatten_cons, runs_run _ h.1 h.2.1, ih]
    right
    cases hx : u.text with
    | nil => exact absurd hx hu.1
    | cons c cs =>
      refine ⟨c, cs ++ ((r.map (·.text)).flatten), by simp [hx], ?_⟩
      rw [hu.2 c (by simp [hx])]
      exact fun h' => h.2.2.1 h'.symm

theorem trim_token {t : Tok} (h : Run t.typ t.text) (ht : t.typ ≠ .other) : trimSpace t.text = t.text := by
  apply trimSpace_noSpace
  intro c hc
  have := h c hc
  cases hs : isSpace c with
  | false => rfl
  | true =>
    exfalso
    exact ht (by rw [← this]; exact space_class hs)

theorem wordsOf_text (str : List Char) : (wordsOf str).map (·.text) = wordList str := by
  have good := tokenize_good_aux (sanitizeSpaces str).length (sanitizeSpaces str) (Nat.le_refl _)
  unfold wordsOf wordList
  have hr := runs_good _ good.1
  rw [good.2] at hr
  rw [hr]
  have hall := goodToks_run _ good.1
  generalize tokenize (sanitizeSpaces str) = l at hall
  clear hr good
  have gen : ∀ (l : List Tok) (i : Nat), (∀ t ∈ l, t.text ≠ [] ∧ Run t.typ t.text) →
      ((filterToks i (trimToks l)).map (·.tok)).map (·.text) =
        (l.map (·.text)).filter fun w => decide (w.head?.map charClass ≠ some .other) := by
    intro l
    induction l with
    | nil => intro i _; rfl
    | cons t l ih =>
      intro i h
      have ht := h t (by simp)
      have ih' := ih (i + 1) (fun x hx => h x (by simp [hx]))
      have hcl : t.text.head?.map charClass = some (typeClass t.typ) := by
        cases hx : t.text with
        | nil => exact absurd hx ht.1
        | cons c cs => simp [typeClass_eq (ht.2 c (by simp [hx]))]
      have hnn : t.typ ≠ .null := by
        cases hx : t.text with
        | nil => exact absurd hx ht.1
        | cons c cs =>
          rw [← ht.2 c (by simp [hx])]
          unfold classOf
          split
          · simp
          · split <;> simp
      show ((filterToks i ({ t with text := trimSpace t.text } :: trimToks l)).map (·.tok)).map (·.text) = _
      rw [filterToks]
      dsimp only
      rw [List.map_cons, List.filter_cons, hcl]
      by_cases e : t.typ = .other
      · rw [if_pos e, e]
        simp only [typeClass]
        simpa using ih'
      · rw [if_neg e]
        have : typeClass t.typ ≠ .other := by
          revert e hnn
          cases t.typ <;> simp [typeClass]
        simp only [List.map_cons]
        rw [ih', trim_token ht.2 e]
        simp [this]
  exact gen l 0 hall

/-- What `Init` has found before the fallback. -/
theorem absInit_sinv {e : AEnv} (he : e.fns = gregFns) {str : List Char} {s : ASt} (hi : absInit e str = .ok s) :
    ∃ s1 pos i, SInv (wordsOf str) i s1 pos ∧ s = fallbacks s1 := by
  unfold absInit at hi
  dsimp only at hi
  split at hi
  · cases hi
  · split at hi
    · cases hi
    · rename_i s1 h1
      cases hi
      obtain ⟨pos, hp⟩ := initLoop_sound he (F := wordsOf str) _ 0 {} s1 (fun _ => 0) (by
        intro k ft hk
        unfold wordsOf
        rw [Nat.zero_add, List.getElem?_map, hk]; rfl) (by
        intro ft hft
        have h2 := mem_filterToks _ _ ft hft
        obtain ⟨t0, h3, h4⟩ := List.mem_map.mp h2.1
        have h5 := goodToks_run _ (tokenize_good_aux _ (sanitizeSpaces str) (Nat.le_refl _)).1 t0 h3
        have h6 : t0.typ = ft.tok.typ := by rw [← h4]
        have h7 : ft.tok.text = t0.text := by rw [← h4]; exact trim_token h5.2 (by rw [h6]; exact h2.2)
        rw [h7, ← h6]; exact h5) (SInv.empty _ _) h1
      exact ⟨s1, pos, _, hp, rfl⟩

theorem fallback1_some {s : ASt} {c : Comp} (h : (s.vals.get c).isSome = true) : fallback1 s c = s := by
  unfold fallback1; rw [if_pos h]

theorem fallback1_nil {s : ASt} {c : Comp} (h : s.unset = []) : fallback1 s c = s := by
  unfold fallback1; rw [h]; split <;> rfl

theorem fallback1_one {s : ASt} {c : Comp} {u : Tok} (h : s.unset = [u]) (hu : u.typ = .digit) (ht : IsNumeral u.text) (hn : s.vals.get c = none) :
    fallback1 s c = { s with ctoks := s.ctoks.set c u, vals := s.vals.set c (natOfDigits u.text) } := by
  have hall : ∀ x ∈ u.text, x.isDigit = true := ht.2
  unfold fallback1
  rw [hn, h]
  simp [hu, h, if_pos hall]

/-- What a word may stand for, left-over numbers included. -/
def Stands : Comp → List Char → Int → Prop
  | .day, w, n => AsDay w n ∨ (Two w ∧ n = number w)
  | .month, w, n => AsMonth w n ∨ (Two w ∧ n = number w)
  | .year, w, n => AsYear w n
  | .weekday, w, _ => ∃ n, IsWeekdayName w n

theorem pw_stands {c : Comp} {w : Tok} {v : Int} (h : PW c w v) : Stands c w.text v := by
  cases c with
  | day => exact Or.inl h.2
  | month =>
    rcases h with ⟨_, h⟩ | ⟨_, h⟩
    · exact Or.inl (Or.inl h)
    · exact Or.inl (Or.inr h)
  | year => exact h.2
  | weekday => exact h.2

/-- Every part found stands in the text. -/
theorem absInit_words {e : AEnv} (he : e.fns = gregFns) {str : List Char} {s : ASt} (hi : absInit e str = .ok s) (c : Comp) (v : Int)
    (hv : s.vals.get c = some v) : ∃ w ∈ wordList str, Stands c w v := by
  obtain ⟨s1, pos, i, inv, rfl⟩ := absInit_sinv he hi
  have word : ∀ {k : Nat} {w : Tok}, (wordsOf str)[k]? = some w → w.text ∈ wordList str := by
    intro k w h
    rw [← wordsOf_text]
    exact List.mem_map_of_mem (List.mem_of_getElem? h)
  have own : ∀ c v, s1.vals.get c = some v → ∃ w ∈ wordList str, Stands c w v := by
    intro c v h
    rcases inv.part c with h1 | ⟨v', w, h1, _, h3, _, h5⟩
    · rw [h1.1] at h; cases h
    · rw [h1] at h; cases h
      exact ⟨w.text, word h3, pw_stands h5⟩
  rcases inv.unset with hu | ⟨u, k, hu, hut, htwo, hk, _, _, ⟨w, hw, _⟩, _⟩
  · unfold fallbacks at hv
    rw [fallback1_nil (c := .day) hu, fallback1_nil (c := .month) hu, fallback1_nil (c := .year) hu] at hv
    exact own c v hv
  · have hys : (s1.vals.get .year).isSome = true := by
      rcases inv.part .year with h1 | ⟨v', _, h1, _⟩
      · rw [h1.2] at hw; cases hw
      · rw [h1]; rfl
    -- one fallback keeps what we want
    have step : ∀ (s2 : ASt) (a : Comp), a = .day ∨ a = .month → s2.unset = [u] → (∀ c v, s2.vals.get c = some v → ∃ w ∈ wordList str, Stands c w v) →
        (fallback1 s2 a).unset = [u] ∧ (∀ c v, (fallback1 s2 a).vals.get c = some v → ∃ w ∈ wordList str, Stands c w v) ∧
        ((s2.vals.get .year).isSome = true → ((fallback1 s2 a).vals.get .year).isSome = true) := by
      intro s2 a ha hu2 h2
      cases hn : s2.vals.get a with
      | some x =>
        rw [fallback1_some (by rw [hn]; rfl)]
        exact ⟨hu2, h2, id⟩
      | none =>
        rw [fallback1_one hu2 hut htwo.1 hn]
        refine ⟨hu2, ?_, ?_⟩
        · intro c v hcv
          dsimp only at hcv
          rw [Vals.get_set] at hcv
          split at hcv
          · rename_i e
            cases hcv
            subst e
            refine ⟨u.text, word hk, ?_⟩
            rcases ha with rfl | rfl
            · exact Or.inr ⟨htwo, (number_eq _).symm⟩
            · exact Or.inr ⟨htwo, (number_eq _).symm⟩
          · exact h2 c v hcv
        · intro hy
          dsimp only
          rw [Vals.get_set]
          split
          · rfl
          · exact hy
    obtain ⟨a1, a2, a3⟩ := step s1 .day (Or.inl rfl) hu own
    obtain ⟨_, b2, b3⟩ := step _ .month (Or.inr rfl) a1 a2
    unfold fallbacks at hv
    rw [fallback1_some (c := .year) (b3 (a3 hys))] at hv
    exact b2 c v hv

end Verif.Lemmas
