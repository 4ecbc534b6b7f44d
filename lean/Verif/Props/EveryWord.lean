import Verif.Lemmas.EveryWord
import Verif.Props.Sound
import Verif.Props.ClockSound
import Verif.Props.Missing
/-! # C62: every word of the text is used, once -/
set_option autoImplicit false
namespace Verif.Props
open Verif.Go Verif.Model Verif.Lemmas Verif.Spec

instance (w : List Char) : Decidable (IsSkippedWord w) := by unfold IsSkippedWord; infer_instance

/-- What `Init` has found before the fallback, and what it has done with every word. -/
theorem absInit_cover {e : AEnv} (he : e.fns = gregFns) {str : List Char} {s : ASt} (hi : absInit e str = .ok s) :
    ∃ s1 pos sp lo, Cover str (wordsOf str) (wordsOf str).length s1 pos sp lo ∧ s = fallbacks s1 := by
  unfold absInit at hi
  dsimp only at hi
  split at hi
  · cases hi
  · split at hi
    · cases hi
    · rename_i s1 h1
      cases hi
      obtain ⟨pos, sp, lo, hp⟩ := initLoop_cover he (str := str) (F := wordsOf str) _ 0 {} s1 (fun _ => 0) none none (by
        intro k ft hk
        unfold wordsOf
        rw [Nat.zero_add, List.getElem?_map, hk]; rfl) (fun k ft hk => by rw [Nat.zero_add]; exact hk) (by
        intro ft hft
        have h2 := mem_filterToks _ _ ft hft
        obtain ⟨t0, h3, h4⟩ := List.mem_map.mp h2.1
        have h5 := goodToks_run _ (tokenize_good_aux _ (sanitizeSpaces str) (Nat.le_refl _)).1 t0 h3
        have h6 : t0.typ = ft.tok.typ := by rw [← h4]
        have h7 : ft.tok.text = t0.text := by rw [← h4]; exact trim_token h5.2 (by rw [h6]; exact h2.2)
        rw [h7, ← h6]
        refine ⟨h5, ?_⟩
        have hne : t0.typ ≠ .other := by rw [h6]; exact h2.2
        cases htx : t0.text with
        | nil => exact absurd htx h5.1
        | cons c r =>
          have hcl : classOf c = t0.typ := h5.2 c (by rw [htx]; simp)
          rw [← hcl] at hne ⊢
          unfold classOf at hne ⊢
          split
          · exact Or.inl rfl
          · split
            · exact Or.inr rfl
            · simp_all) (Cover.empty _ _) h1
      refine ⟨s1, pos, sp, lo, ?_, rfl⟩
      have : (wordsOf str).length = 0 + (filtOf str).length := by unfold wordsOf; simp
      rw [this]; exact hp

/-- The result, when all three parts have been found (and nothing is taken from a left-over word). -/
theorem made_of_parts {cfg : Cfg} {now : Time} (hf : now.loc.IsFixed) {e : AEnv} (hcfg : e.cfg = cfg) (hfn : e.fns = gregFns) (hnow : e.now = now)
    {s : ASt} {tz : Option Tz} {r : DateRes} (hr : absParse e s tz = .ok r) {d m y : Int} {td tm ty : Tok} (hd : s.vals.day = some d) (hm : s.vals.month = some m)
    (hy : s.vals.year = some y) (htd : s.ctoks.day = some td) (htm : s.ctoks.month = some tm) (hty : s.ctoks.year = some ty)
    (a1 : 1 ≤ m) (a2 : m ≤ 12) (a3 : 1 ≤ d) (a4 : d ≤ 31) : MadeOf cfg now y m d ty.text r.time := by
  obtain ⟨H, M, S, ns, p, dt, dt2, hc, hcr, hfr, hres, hchk⟩ := absParse_ok hr
  rw [hfn, hcfg, hnow] at hcr
  rw [hcfg, hnow] at hfr
  have hm0 : m ≠ 0 := by omega
  have hd0 : d ≠ 0 := by omega
  obtain ⟨Y, D, g1, g2, g3⟩ := gregCreate_mended cfg (if y = 0 then now.year else y) m d H M S ns now.loc a1 a2 a3 a4
  have hcr' : gregCreate cfg (if y = 0 then now.year else y) m d H M S ns now.loc = .ok dt := by
    simp only [hm, hd, hy, orNow, hm0, hd0, if_false] at hcr
    exact hcr
  rw [g1] at hcr'
  have hdt := Except.ok.inj hcr'
  rw [← hdt, frame_complete hf (m := m) (d := d) hy (by rw [htm]; rfl) hty hc.ok g3] at hfr
  have hdt2 := Except.ok.inj hfr
  have o3 : r.time = goDate (if ty.text.length = 2 then centuryFor cfg.dateSource (now.before (goDate Y m D H M S ns now.loc)) Y else Y) m D H M S ns now.loc := by
    rw [hres]
    simp only [correctForDay, correctForMonth, htd, htm, Option.isSome_some, Bool.true_or, if_true, ← hdt2]
  refine ⟨Y, D, H, M, S, ns, hc.ok, g2, ?_, ?_⟩
  · intro h4
    have : ty.text.length ≠ 2 := by have := h4.2; omega
    rw [if_neg this] at o3
    rw [o3]; exact shows_goDate g3 hc.ok (hf.noJump _)
  · intro h2
    rw [if_pos h2.2] at o3
    refine ⟨o3, fun hdate => ?_⟩
    rw [o3]; exact shows_goDate hdate hc.ok (hf.noJump _)

/-- Where the roles are. -/
def placeOf (s : ASt) (pos : Comp → Nat) (sp lo : Option Nat) : Role → Option Nat
  | .day => (s.vals.get .day).map fun _ => pos .day
  | .month => (s.vals.get .month).map fun _ => pos .month
  | .year => (s.vals.get .year).map fun _ => pos .year
  | .weekday => (s.vals.get .weekday).map fun _ => pos .weekday
  | .formerYear => sp
  | .formerDay => lo

/-- **C62** For every string and every setting: if there is a result, every word of the string has been used, and for one purpose
only.  It is one of the four skipped words, it belongs to a time of day, or it has a role in the date, which no other word has: the
day, the month, the year, the weekday – or (finding 66) a former day or a former two digit year, of which there is at most one each.
When day, month and year all have words, the result is made of these, whether or not StrictParsing is set. -/
theorem C62_words (cfg : Cfg) (sysNow : Time) (mf : Nat → Bool) (tz : Option Tz) (str : List Char) (r : DateRes)
    (hf : (nowOf cfg sysNow).loc.IsFixed) (hr : absoluteParse cfg sysNow mf str tz = .ok r) :
    ∃ place, Uses str place ∧ (∀ i j k, place .day = some i → place .month = some j → place .year = some k →
      ∃ dw mw yw d m y, (wordList str)[i]? = some dw ∧ (wordList str)[j]? = some mw ∧ (wordList str)[k]? = some yw ∧ AsDay dw d ∧ AsMonth mw m ∧ AsYear yw y ∧
        MadeOf cfg (nowOf cfg sysNow) y m d yw r.time) := by
  unfold absoluteParse at hr
  dsimp only at hr
  generalize he : (AEnv.mk gregFns cfg sysNow mf) = e at *
  have hcfg : e.cfg = cfg := by rw [← he]
  have hfn : e.fns = gregFns := by rw [← he]
  have hnow : e.now = nowOf cfg sysNow := by rw [← he]; rfl
  cases hi : absInit e str with
  | error f => rw [hi] at hr; cases hr
  | ok s =>
    rw [hi] at hr
    dsimp only at hr
    obtain ⟨s1, pos, sp, lo, cov, hs1⟩ := absInit_cover hfn hi
    have word : ∀ {k : Nat} {w : Tok}, (wordsOf str)[k]? = some w → (wordList str)[k]? = some w.text := by
      intro k w h
      rw [← wordsOf_text, List.getElem?_map, h]; rfl
    have mapped : ∀ {c : Comp} {i : Nat}, (s1.vals.get c).map (fun _ => pos c) = some i →
        ∃ v w, s1.vals.get c = some v ∧ s1.ctoks.get c = some w ∧ (wordsOf str)[i]? = some w ∧ PW c w v ∧ pos c = i := by
      intro c i h
      rcases cov.inv.part c with x | ⟨v, w, h1, h2, h3, _, h5⟩
      · rw [x.1] at h; cases h
      · rw [h1] at h
        simp only [Option.map_some, Option.some.injEq] at h
        exact ⟨v, w, h1, h2, by rw [← h]; exact h3, h5, h⟩
    have asMonth : ∀ {w : Tok} {m : Int}, PW .month w m → AsMonth w.text m := by
      intro w m h
      rcases h with ⟨_, h⟩ | ⟨_, h⟩
      · exact Or.inl h
      · exact Or.inr h
    refine ⟨placeOf s1 pos sp lo, ⟨?_, ?_, ?_, ?_, ?_⟩, ?_⟩
    · intro q i h
      cases q with
      | day => obtain ⟨v, w, _, _, h3, h4, _⟩ := mapped h; exact ⟨_, word h3, v, h4.2⟩
      | month => obtain ⟨v, w, _, _, h3, h4, _⟩ := mapped h; exact ⟨_, word h3, v, asMonth h4⟩
      | year => obtain ⟨v, w, _, _, h3, h4, _⟩ := mapped h; exact ⟨_, word h3, v, h4.2⟩
      | weekday => obtain ⟨v, w, _, _, h3, h4, _⟩ := mapped h; exact ⟨_, word h3, h4.2⟩
      | formerYear => obtain ⟨⟨u, h1, h2⟩, _⟩ := cov.spare i h; exact ⟨_, word h1, h2⟩
      | formerDay => obtain ⟨⟨u, v, h1, h2⟩, _⟩ := cov.lost i h; exact ⟨_, word h1, v, h2⟩
    · have two : ∀ {c c' : Comp} {i : Nat}, (s1.vals.get c).map (fun _ => pos c) = some i → (s1.vals.get c').map (fun _ => pos c') = some i → c = c' := by
        intro c c' i h h'
        obtain ⟨v, _, h1, _, _, _, h2⟩ := mapped h
        obtain ⟨v', _, h1', _, _, _, h2'⟩ := mapped h'
        by_cases e : c = c'
        · exact e
        · exact absurd (h2.trans h2'.symm) (cov.inv.dist c c' e (by rw [h1]; rfl) (by rw [h1']; rfl))
      have noS : ∀ {c : Comp} {i : Nat}, (s1.vals.get c).map (fun _ => pos c) = some i → sp ≠ some i := by
        intro c i h hs
        obtain ⟨v, _, h1, _, _, _, h2⟩ := mapped h
        exact (cov.spare i hs).2.2.2.2 c (by rw [h1]; rfl) h2
      have noL : ∀ {c : Comp} {i : Nat}, (s1.vals.get c).map (fun _ => pos c) = some i → lo ≠ some i := by
        intro c i h hs
        obtain ⟨v, _, h1, _, _, _, h2⟩ := mapped h
        exact (cov.lost i hs).2.2.2.2.1 c (by rw [h1]; rfl) h2
      have noSL : ∀ {i : Nat}, sp = some i → lo ≠ some i := fun h hl => (cov.lost _ hl).2.2.2.2.2 h
      intro a b i ha hb
      cases a <;> cases b <;> simp only [placeOf] at ha hb <;> first
        | rfl
        | cases two ha hb
        | exact absurd hb (noS ha)
        | exact absurd hb (noL ha)
        | exact absurd ha (noS hb)
        | exact absurd ha (noL hb)
        | exact absurd hb (noSL ha)
        | exact absurd ha (noSL hb)
    · intro i h
      obtain ⟨_, _, h1, ⟨w, h2, h3⟩, _⟩ := cov.spare i h
      rcases cov.inv.part .year with x | ⟨v, w', e1, e2, e3, _, e5⟩
      · rw [x.2] at h2; cases h2
      · rw [e2] at h2; cases h2
        refine ⟨pos .year, w.text, by simp only [placeOf, e1, Option.map_some], h1, word e3, ?_⟩
        rcases e5.2 with ⟨x, _⟩ | ⟨x, _⟩
        · exact x
        · have := x.2; omega
    · intro i h
      obtain ⟨_, _, h1, ⟨w, h2, h3⟩, _⟩ := cov.lost i h
      rcases cov.inv.part .month with x | ⟨v, w', e1, e2, e3, _, e5⟩
      · rw [x.2] at h2; cases h2
      · rw [e2] at h2; cases h2
        rcases e5 with ⟨x, _⟩ | ⟨_, x⟩
        · rw [h3] at x; cases x
        · exact ⟨pos .month, w.text, v, by simp only [placeOf, e1, Option.map_some], h1, word e3, x⟩
    · intro i w hw
      rw [← wordsOf_text, List.getElem?_map] at hw
      cases ht : (wordsOf str)[i]? with
      | none => rw [ht] at hw; cases hw
      | some t =>
        rw [ht] at hw
        cases hw
        have hlt : i < (wordsOf str).length := by
          refine Nat.lt_of_not_le fun h => ?_
          rw [List.getElem?_eq_none h] at ht; cases ht
        rcases cov.cov i hlt t ht with a | a | ⟨c, a, b⟩ | a | a
        · exact Or.inl a
        · exact Or.inr (Or.inl a)
        · refine Or.inr (Or.inr ?_)
          obtain ⟨v, hv⟩ := Option.isSome_iff_exists.mp a
          cases c with
          | day => exact ⟨.day, by simp only [placeOf, hv, Option.map_some, b]⟩
          | month => exact ⟨.month, by simp only [placeOf, hv, Option.map_some, b]⟩
          | year => exact ⟨.year, by simp only [placeOf, hv, Option.map_some, b]⟩
          | weekday => exact ⟨.weekday, by simp only [placeOf, hv, Option.map_some, b]⟩
        · exact Or.inr (Or.inr ⟨.formerYear, a⟩)
        · exact Or.inr (Or.inr ⟨.formerDay, a⟩)
    · intro i j k hd hm hy
      obtain ⟨d, dw, d1, d2, d3, d4, _⟩ := mapped hd
      obtain ⟨m, mw, m1, m2, m3, m4, _⟩ := mapped hm
      obtain ⟨y, yw, y1, y2, y3, y4, _⟩ := mapped hy
      have hs : s = s1 := by
        rw [hs1]; unfold fallbacks
        rw [fallback1_some (c := .day) (by rw [d1]; rfl), fallback1_some (c := .month) (by rw [m1]; rfl), fallback1_some (c := .year) (by rw [y1]; rfl)]
      subst hs
      have mr : 1 ≤ m ∧ m ≤ 12 := by
        rcases asMonth m4 with ⟨_, _, h⟩ | h
        · exact h
        · exact monthName_range h
      exact ⟨_, _, _, d, m, y, word d3, word m3, word y3, d4.2, asMonth m4, y4.2,
        made_of_parts hf hcfg hfn hnow hr d1 m1 y1 d2 m2 y2 mr.1 mr.2 d4.2.2.2.1 d4.2.2.2.2⟩

/-- **C62** A string with a word that is none of these – not skipped, not part of a time of day, not a number of a day, month or year,
not an English name of a month or a weekday – is refused, whatever else it says. -/
theorem C62_refuses (cfg : Cfg) (sysNow : Time) (mf : Nat → Bool) (tz : Option Tz) (str : List Char) (i : Nat) (w : List Char)
    (hf : (nowOf cfg sysNow).loc.IsFixed) (hw : (wordList str)[i]? = some w) (h1 : ¬ IsSkippedWord w) (h2 : ∀ j t used, ClockOf str j t used → i ∉ used)
    (h3 : ∀ d, ¬ AsDay w d) (h4 : ∀ m, ¬ AsMonth w m) (h5 : ∀ y, ¬ AsYear w y) (h6 : ∀ n, ¬ IsWeekdayName w n) (r : DateRes) :
    absoluteParse cfg sysNow mf str tz ≠ .ok r := by
  intro hr
  obtain ⟨place, u, _⟩ := C62_words cfg sysNow mf tz str r hf hr
  rcases u.all i w hw with a | ⟨j, t, used, a, b⟩ | ⟨q, a⟩
  · exact h1 a
  · exact h2 j t used a b
  · obtain ⟨w', e, fit⟩ := u.fits q i a
    rw [hw] at e; cases e
    cases q with
    | day => exact h3 _ fit.choose_spec
    | month => exact h4 _ fit.choose_spec
    | year => exact h5 _ fit.choose_spec
    | weekday => exact h6 _ fit.choose_spec
    | formerYear => exact h5 _ (Or.inr ⟨fit, rfl⟩)
    | formerDay => exact h3 _ fit.choose_spec

/-- A name of a month or a weekday is no number. -/
theorem name_not_number {w : List Char} (h : (∃ m, IsMonthName w m) ∨ ∃ n, IsWeekdayName w n) : ¬ IsNumeral w := by
  intro hn
  have m : (monthNames.all fun p => p.1.any fun c => !c.isDigit) = true := by decide +kernel
  have d : (weekdays.all fun p => p.1.any fun c => !c.isDigit) = true := by decide +kernel
  have key : ∀ c ∈ toLower w, c.isDigit = true := by
    intro c hc
    rw [toLower, List.mem_map] at hc
    obtain ⟨x, hx, rfl⟩ := hc
    have := hn.2 x hx
    rw [toLowerC_digit this]; exact this
  rcases h with ⟨v, h⟩ | ⟨v, h⟩
  · obtain ⟨c, hc, e⟩ := List.any_eq_true.mp (List.all_eq_true.mp m _ h)
    rw [key c hc] at e; cases e
  · obtain ⟨c, hc, e⟩ := List.any_eq_true.mp (List.all_eq_true.mp d _ h)
    rw [key c hc] at e; cases e

/-- No word is a month and a weekday. -/
theorem month_not_weekday {w : List Char} {m n : Int} (h : IsMonthName w m) : ¬ IsWeekdayName w n := by
  intro h'
  have all : (monthNames.all fun p => weekdays.all fun q => decide (p.1 ≠ q.1)) = true := by decide +kernel
  have := List.all_eq_true.mp (List.all_eq_true.mp all _ h) _ h'
  simp at this

theorem filler_not_name : ∀ w, IsSkippedWord w → (∀ m, ¬ IsMonthName w m) ∧ (∀ n, ¬ IsWeekdayName w n) ∧ ¬ IsNumeral w := by
  have m : (monthNames.all fun p => !skippedTokens.contains p.1) = true := by decide +kernel
  have d : (weekdays.all fun p => !skippedTokens.contains p.1) = true := by decide +kernel
  have low : (skippedTokens.all fun w => toLower w == w) = true := by decide +kernel
  have num : (skippedTokens.all fun w => w.any fun c => !c.isDigit) = true := by decide +kernel
  intro w hw
  have hmem : w ∈ skippedTokens := by simpa [skippedTokens, IsSkippedWord] using hw
  have e := eq_of_beq (List.all_eq_true.mp low w hmem)
  refine ⟨fun v h => ?_, fun v h => ?_, fun h => ?_⟩
  · have := List.all_eq_true.mp m _ h
    rw [e] at this; simp at this; exact this hmem
  · have := List.all_eq_true.mp d _ h
    rw [e] at this; simp at this; exact this hmem
  · obtain ⟨c, hc, x⟩ := List.any_eq_true.mp (List.all_eq_true.mp num w hmem)
    rw [h.2 c hc] at x; cases x

/-- **C62** Contradictions are refused: a string with two names of months, two names of weekdays or two numbers of four digits, outside a
time of day, gives no result. -/
theorem C62_twice (cfg : Cfg) (sysNow : Time) (mf : Nat → Bool) (tz : Option Tz) (str : List Char) (i j : Nat) (v w : List Char)
    (hf : (nowOf cfg sysNow).loc.IsFixed) (hij : i ≠ j) (hv : (wordList str)[i]? = some v) (hw : (wordList str)[j]? = some w)
    (hi : ∀ k t used, ClockOf str k t used → i ∉ used ∧ j ∉ used)
    (h : ((∃ m, IsMonthName v m) ∧ ∃ m, IsMonthName w m) ∨ ((∃ n, IsWeekdayName v n) ∧ ∃ n, IsWeekdayName w n) ∨ (Four v ∧ Four w)) (r : DateRes) :
    absoluteParse cfg sysNow mf str tz ≠ .ok r := by
  intro hr
  obtain ⟨place, u, _⟩ := C62_words cfg sysNow mf tz str r hf hr
  -- such a word has one role
  have role : ∀ (k : Nat) (x : List Char), (wordList str)[k]? = some x → (∀ k' t used, ClockOf str k' t used → k ∉ used) →
      ((∃ m, IsMonthName x m) → place .month = some k) ∧ ((∃ n, IsWeekdayName x n) → place .weekday = some k) ∧ (Four x → place .year = some k) := by
    intro k x hx hcl
    rcases u.all k x hx with a | ⟨k', t, used, a, b⟩ | ⟨q, a⟩
    · obtain ⟨n1, n2, n3⟩ := filler_not_name x a
      exact ⟨fun ⟨m, h⟩ => absurd h (n1 m), fun ⟨m, h⟩ => absurd h (n2 m), fun h => absurd h.1 n3⟩
    · exact absurd b (hcl k' t used a)
    · obtain ⟨x', e, fit⟩ := u.fits q k a
      rw [hx] at e; cases e
      have nodig : IsNumeral x → (∃ m, IsMonthName x m) ∨ (∃ n, IsWeekdayName x n) → False := fun h h' => name_not_number h' h
      cases q with
      | day =>
        obtain ⟨d, ⟨⟨s1, s2⟩, _⟩⟩ := fit
        exact ⟨fun h => (nodig s1 (Or.inl h)).elim, fun h => (nodig s1 (Or.inr h)).elim, fun h => by have := h.2; omega⟩
      | formerDay =>
        obtain ⟨d, ⟨⟨s1, s2⟩, _⟩⟩ := fit
        exact ⟨fun h => (nodig s1 (Or.inl h)).elim, fun h => (nodig s1 (Or.inr h)).elim, fun h => by have := h.2; omega⟩
      | formerYear =>
        have fit : Two x := fit
        exact ⟨fun h => (nodig fit.1 (Or.inl h)).elim, fun h => (nodig fit.1 (Or.inr h)).elim, fun h => by have := h.2; have := fit.2; omega⟩
      | month =>
        refine ⟨fun _ => a, fun h => ?_, fun h => ?_⟩
        · obtain ⟨m, ⟨⟨s1, _⟩, _⟩ | s1⟩ := fit
          · exact (nodig s1 (Or.inr h)).elim
          · exact absurd h.choose_spec (month_not_weekday s1)
        · obtain ⟨m, ⟨⟨_, s1⟩, _⟩ | s1⟩ := fit
          · have := h.2; omega
          · exact (nodig h.1 (Or.inl ⟨m, s1⟩)).elim
      | year =>
        have num : IsNumeral x := by
          obtain ⟨y, ⟨s1, _⟩ | ⟨s1, _⟩⟩ := fit
          · exact s1.1
          · exact s1.1
        exact ⟨fun h => (nodig num (Or.inl h)).elim, fun h => (nodig num (Or.inr h)).elim, fun _ => a⟩
      | weekday =>
        obtain ⟨n, s1⟩ := fit
        exact ⟨fun h => absurd s1 (month_not_weekday h.choose_spec), fun _ => a, fun h => (nodig h.1 (Or.inr ⟨n, s1⟩)).elim⟩
  have ri := role i v hv (fun k t used hc => (hi k t used hc).1)
  have rj := role j w hw (fun k t used hc => (hi k t used hc).2)
  have clash : ∀ q, place q = some i → place q = some j → False := by
    intro q a b
    rw [a] at b; exact hij (Option.some.inj b)
  rcases h with ⟨a, b⟩ | ⟨a, b⟩ | ⟨a, b⟩
  · exact clash _ (ri.1 a) (rj.1 b)
  · exact clash _ (ri.2.1 a) (rj.2.1 b)
  · exact clash _ (ri.2.2 a) (rj.2.2 b)

/-- No word of the list has "am" or "pm". -/
theorem no_meridian {l : List (List Char)} (h : (l.all fun w => (findMeridian w).isEmpty) = true) : ∀ w ∈ l, ∀ ap mr, IsMeridian ap mr → ¬ ap <:+: w := by
  intro w hw ap mr hm hin
  have := List.all_eq_true.mp h w hw
  have two : ∃ a b, ap = [a, b] ∧ (toLowerC a = 'a' ∨ toLowerC a = 'p') ∧ toLowerC b = 'm' := by
    clear hin
    have len : ap.length = 2 := by
      have : (toLower ap).length = 2 := by cases mr <;> simp only [IsMeridian] at hm <;> rw [hm] <;> rfl
      simpa [toLower] using this
    match ap, len with
    | [a, b], _ =>
      refine ⟨a, b, rfl, ?_⟩
      cases mr <;> simp [IsMeridian, toLower] at hm <;> simp [hm.1, hm.2]
  obtain ⟨a, b, rfl, h1, h2⟩ := two
  obtain ⟨x, y, rfl⟩ := hin
  have : findMeridian (x ++ [a, b] ++ y) ≠ [] := by
    clear this hw
    induction x with
    | nil =>
      have : ((toLowerC a == 'a' || toLowerC a == 'p') && toLowerC b == 'm') = true := by rcases h1 with h | h <;> simp [h, h2]
      simp [findMeridian, this]
    | cons c x ih =>
      cases x with
      | nil => simp only [List.cons_append, List.nil_append, findMeridian] at ih ⊢; split <;> simp_all
      | cons c' x => simp only [List.cons_append, List.nil_append] at ih ⊢; rw [findMeridian]; split <;> simp_all
  simp_all

/-- C62 is met by a date with a weekday and a time. -/
example : ∃ r, absoluteParse clockCfg Time.zero (fun _ => true) "Tuesday, 12 May 2015 3:04:05.25 pm".toList none = .ok r ∧
    momentOf (.ok r) = some ([2015, 5, 12, 15, 4, 5, 250000000], .second) ∧ ∃ place, Uses "Tuesday, 12 May 2015 3:04:05.25 pm".toList place := by
  have key : momentOf (absoluteParse clockCfg Time.zero (fun _ => true) "Tuesday, 12 May 2015 3:04:05.25 pm".toList none) =
    some ([2015, 5, 12, 15, 4, 5, 250000000], .second) := by decide +kernel
  cases h : absoluteParse clockCfg Time.zero (fun _ => true) "Tuesday, 12 May 2015 3:04:05.25 pm".toList none with
  | error f => rw [h] at key; cases key
  | ok r =>
    rw [h] at key
    obtain ⟨place, u, _⟩ := C62_words clockCfg Time.zero _ _ _ r Loc.utc_isFixed h
    exact ⟨r, rfl, key, place, u⟩

/-- A complete date with one word too many: every hypothesis of `C62_refuses` is met. -/
example (r : DateRes) : absoluteParse clockCfg Time.zero (fun _ => true) "12 May 2015 or so".toList none ≠ .ok r := by
  have nc : ∀ j t used, ClockOf "12 May 2015 or so".toList j t used → 3 ∉ used := fun j t used h =>
    absurd (clockOf_at h) (no_clock (by decide) (by decide) (no_meridian (by decide +kernel)) j t)
  have nn : ¬ IsNumeral "or".toList := by decide +kernel
  refine C62_refuses clockCfg Time.zero _ _ _ 3 "or".toList Loc.utc_isFixed (by decide +kernel) (by decide +kernel) nc ?_ ?_ ?_ ?_ r
  · exact fun d h => nn h.1.1
  · rintro m (h | h)
    · exact nn h.1.1
    · have : ∀ x ∈ monthNames, x.1 ≠ "or".toList := by decide +kernel
      exact this _ h rfl
  · rintro y (h | h)
    · exact nn h.1.1
    · exact nn h.1.1
  · intro n h
    have : ∀ x ∈ weekdays, x.1 ≠ "or".toList := by decide +kernel
    exact this _ h rfl

/-- … and of `C62_twice`. -/
example (r : DateRes) : absoluteParse clockCfg Time.zero (fun _ => true) "12 May or June 2015".toList none ≠ .ok r ∧
    absoluteParse clockCfg Time.zero (fun _ => true) "12 May June 2015".toList none ≠ .ok r := by
  constructor
  · refine C62_twice clockCfg Time.zero _ _ _ 1 3 "May".toList "June".toList Loc.utc_isFixed (by decide) (by decide +kernel) (by decide +kernel) ?_
      (Or.inl ⟨⟨5, by unfold IsMonthName; decide +kernel⟩, 6, by unfold IsMonthName; decide +kernel⟩) r
    exact fun j t used h => absurd (clockOf_at h) (no_clock (by decide) (by decide) (no_meridian (by decide +kernel)) j t)
  · refine C62_twice clockCfg Time.zero _ _ _ 1 2 "May".toList "June".toList Loc.utc_isFixed (by decide) (by decide +kernel) (by decide +kernel) ?_
      (Or.inl ⟨⟨5, by unfold IsMonthName; decide +kernel⟩, 6, by unfold IsMonthName; decide +kernel⟩) r
    exact fun j t used h => absurd (clockOf_at h) (no_clock (by decide) (by decide) (no_meridian (by decide +kernel)) j t)

/-- **C62** (finding 66) A number taken for the day is dropped when a second number, taken for the month, turns out to be the day: in the
order DMY "5 6 May 2015" is 6 May, and the 5 has no effect; "31 6 May 2015" gives the same. -/
theorem C62_former_day :
    ["5 6 May 2015", "31 6 May 2015"].map (fun s => dayOf (absoluteParse clockCfg Time.zero (fun _ => true) s.toList none)) =
      [some (2015, 5, 6, .day), some (2015, 5, 6, .day)] := by decide +kernel

/-! ## Texts that say nothing -/

theorem initLoop_filler {e : AEnv} {toks : List Tok} {fl : List FTok} : ∀ (r : List FTok) (i : Nat) (s : ASt),
    (∀ ft ∈ r, skippedTokens.contains ft.tok.text = true) → s.skippedIdx = [] → initLoop e toks fl i r s = .ok s := by
  intro r
  induction r with
  | nil => intro i s _ _; rfl
  | cons ft r ih =>
    intro i s h h0
    rw [initLoop]
    have : initStep e toks fl i ft s = .ok s := by
      unfold initStep
      rw [h0, if_neg (by simp), if_pos (h ft (by simp))]
    rw [this]
    exact ih (i + 1) s (fun x hx => h x (by simp [hx])) h0

/-- **C62** (finding 65) A string that says nothing – separators, and perhaps the four skipped words – is not refused: unless parts are
required, the result is the beginning of the day the preferences give for no information at all (today, by default). -/
theorem C62_nothing (cfg : Cfg) (sysNow : Time) (mf : Nat → Bool) (tz : Option Tz) (str : List Char) (hf : (nowOf cfg sysNow).loc.IsFixed)
    (hne : sanitizeSpaces str ≠ []) (hw : ∀ w ∈ wordList str, IsSkippedWord w) (hs : cfg.strict = false) (hq : cfg.requiredParts = [])
    (hm : cfg.monthOfYear = .current) :
    ∃ r, absoluteParse cfg sysNow mf str tz = .ok r ∧ r.period = .day ∧
      Shows r.time (nowOf cfg sysNow).year (nowOf cfg sysNow).month
        (chosenDay cfg.dayOfMonth (nowOf cfg sysNow).day (monthLen (nowOf cfg sysNow).year (nowOf cfg sysNow).month)) 0 0 0 0 := by
  unfold absoluteParse
  dsimp only
  generalize he : (AEnv.mk gregFns cfg sysNow mf) = e at *
  have hcfg : e.cfg = cfg := by rw [← he]
  have hfn : e.fns = gregFns := by rw [← he]
  have hnow : e.now = nowOf cfg sysNow := by rw [← he]; rfl
  have hi : absInit e str = .ok {} := by
    unfold absInit
    dsimp only
    rw [if_neg (by simpa using hne)]
    rw [initLoop_filler _ _ _ ?_ rfl]
    · rfl
    · intro ft hft
      have : ft.tok.text ∈ wordList str := by
        rw [← wordsOf_text]
        unfold wordsOf
        exact List.mem_map.mpr ⟨ft.tok, List.mem_map.mpr ⟨ft, hft, rfl⟩, rfl⟩
      simpa [skippedTokens, IsSkippedWord] using hw _ this
  rw [hi]
  dsimp only
  generalize hnn : nowOf cfg sysNow = now at *
  have V : IsDate now.year now.month now.day := (valid_iff _ _ _).mp now.civil_valid
  have hc0 : IsClock 0 0 0 0 := by unfold IsClock; omega
  have S1 := shows_goDate (l := now.loc) V hc0 (hf.noJump _)
  have hcr : gregCreate cfg now.year now.month now.day 0 0 0 0 now.loc = .ok (goDate now.year now.month now.day 0 0 0 0 now.loc) :=
    gregCreate_valid cfg _ _ _ 0 0 0 0 now.loc V.1 V.2.1 V
  have hchk : checkStrictParsing e.cfg ((missingParts {}).map Comp.name) = true := by
    unfold checkStrictParsing
    rw [hcfg, hs, hq]; rfl
  have hloc : (goDate now.year now.month now.day 0 0 0 0 now.loc).loc = now.loc := rfl
  have hmon : applyMonthFromConfig cfg e.sysNow (goDate now.year now.month now.day 0 0 0 0 now.loc) (some now.month) =
      goDate now.year now.month now.day 0 0 0 0 now.loc := by
    unfold applyMonthFromConfig
    rw [hm]
    simp only [S1.year, S1.day, S1.hour, S1.minute, S1.second, S1.nanosecond, hloc]
  have hday := applyDay_eq cfg e.sysNow _ now.day _ _ _ _ _ _ _ S1 hc0 (by rw [hloc]; exact hf) V V.2.2.1
  rw [hloc] at hday
  refine ⟨{ period := .day, time := goDate now.year now.month (chosenDay cfg.dayOfMonth now.day (monthLen now.year now.month)) 0 0 0 0 now.loc }, ?_, rfl, ?_⟩
  · unfold absParse
    rw [hchk]
    simp only [Bool.not_true, Bool.false_eq_true, if_false, hfn, hcfg, hnow, gregFns, orNow]
    rw [hcr]
    simp only [correctForTimeFrame, frameWeekday, frameMonth, frameYear2, frameTime, Option.isSome_none, Bool.false_and, Bool.false_eq_true, if_false,
      correctForDay, correctForMonth, hcfg, hnow, Bool.or_false, hmon, hday, getPeriod]
  · exact shows_goDate (chosenDay_isDate _ _ _ _ V.1 V.2.1 V.2.2.1) hc0 (hf.noJump _)

/-- Met by these, in the default settings. -/
example : ["-", "year", "hour, minute", "..."].map (fun s => dayOf (absoluteParse clockCfg Time.zero (fun _ => true) s.toList none)) =
    [some (2016, 3, 31, .day), some (2016, 3, 31, .day), some (2016, 3, 31, .day), some (2016, 3, 31, .day)] := by decide +kernel

example : ∃ r, absoluteParse clockCfg Time.zero (fun _ => true) "hour, minute".toList none = .ok r ∧ Shows r.time 2016 3 31 0 0 0 0 := by
  obtain ⟨r, h1, _, h2⟩ := C62_nothing clockCfg Time.zero (fun _ => true) none "hour, minute".toList Loc.utc_isFixed (by decide +kernel) (by decide +kernel) rfl rfl rfl
  refine ⟨r, h1, ?_⟩
  have : (nowOf clockCfg Time.zero).year = 2016 ∧ (nowOf clockCfg Time.zero).month = 3 ∧ (nowOf clockCfg Time.zero).day = 31 := by decide +kernel
  rw [this.1, this.2.1, this.2.2] at h2
  exact h2

end Verif.Props
