import Verif.Props.Search
import Verif.Spec.SearchExact
/-! # C32, C41: what a search finds, exactly -/
set_option autoImplicit false
namespace Verif.Props
open Verif.Go Verif.Model Verif.Spec Verif.Lemmas

section
variable {σ τ D : Type}

/-- A split as pieces. -/
def toPieces (p : List (ParsedSearch D) × List (List Char)) : List (Option D × List Char) := (p.1.map (·.date)).zip p.2

theorem toPieces_length {p : List (ParsedSearch D) × List (List Char)} (h : p.1.length = p.2.length) : (toPieces p).length = p.2.length := by
  unfold toPieces; rw [List.length_zip, List.length_map]; omega

theorem undated_toPieces : ∀ (a : List (ParsedSearch D)) (b : List (List Char)), a.length = b.length →
    undated (toPieces (a, b)) = notParsed (a, b) := by
  intro a
  induction a with
  | nil => intro b _; rfl
  | cons x a ih =>
    intro b h
    cases b with
    | nil => simp at h
    | cons y b =>
      have := ih b (by simpa using h)
      unfold undated notParsed toPieces at *
      simp only [List.map_cons, List.zip_cons_cons, List.filter_cons] at this ⊢
      split <;> simp [this]

theorem digitless_toPieces (isDigit : Char → Bool) : ∀ (a : List (ParsedSearch D)) (b : List (List Char)), a.length = b.length →
    digitless isDigit (toPieces (a, b)) = withoutDigit isDigit (a, b) := by
  intro a
  induction a with
  | nil => intro b h; cases b with
    | nil => rfl
    | cons y b => simp at h
  | cons x a ih =>
    intro b h
    cases b with
    | nil => simp at h
    | cons y b =>
      have := ih b (by simpa using h)
      unfold digitless withoutDigit toPieces at *
      simp only [List.map_cons, List.zip_cons_cons, List.filter_cons] at this ⊢
      split <;> simp [this]

theorem noWorse_iff (isDigit : Char → Bool) {a b : List (ParsedSearch D) × List (List Char)} (ha : a.1.length = a.2.length)
    (hb : b.1.length = b.2.length) : noWorse isDigit (toPieces a) (toPieces b) = true ↔ NotWorse isDigit a b := by
  obtain ⟨a1, a2⟩ := a
  obtain ⟨b1, b2⟩ := b
  unfold noWorse NotWorse
  rw [toPieces_length ha, toPieces_length hb, undated_toPieces _ _ ha, undated_toPieces _ _ hb, digitless_toPieces _ _ _ ha,
    digitless_toPieces _ _ _ hb]
  simp only [Bool.or_eq_true, Bool.and_eq_true, decide_eq_true_eq]

theorem find?_first {α : Type} (q : α → Bool) (x : α) : ∀ (pre suf : List α), (∀ t ∈ pre, q t = false) → q x = true →
    (pre ++ x :: suf).find? q = some x := by
  intro pre
  induction pre with
  | nil => intro suf _ h; simp [h]
  | cons t pre ih =>
    intro suf h hx
    rw [List.cons_append, List.find?_cons, h t (by simp)]
    exact ih suf (fun u hu => h u (by simp [hu])) hx

/-- The split chosen, as pieces. -/
theorem chooseBestSplit_eq (isDigit : Char → Bool) (l : List (List (ParsedSearch D) × List (List Char)))
    (h : ∀ s ∈ l, s.1.length = s.2.length) (hne : l ≠ []) :
    ∃ s ∈ l, chooseBestSplit isDigit l = some s ∧ toPieces s = bestOf isDigit (l.map toPieces) := by
  obtain ⟨pre, s, suf, e, hc, hall, hpre⟩ := C42_best_split isDigit l h hne
  have hs : s ∈ l := by rw [e]; simp
  refine ⟨s, hs, hc, ?_⟩
  unfold bestOf
  have key : (l.map toPieces).find? (fun a => (l.map toPieces).all fun b => noWorse isDigit a b) = some (toPieces s) := by
    have e' : l.map toPieces = pre.map toPieces ++ toPieces s :: suf.map toPieces := by rw [e]; simp
    generalize hq : (fun a => (l.map toPieces).all fun b => noWorse isDigit a b) = q
    rw [e']
    apply find?_first
    · intro t ht
      obtain ⟨y, hy, rfl⟩ := List.mem_map.mp ht
      rw [← hq]
      have hyl : y ∈ l := by rw [e]; simp [hy]
      rw [← Bool.not_eq_true, List.all_eq_true]
      intro hh
      exact hpre y hy ((noWorse_iff isDigit (h y hyl) (h s hs)).mp (hh _ (List.mem_map.mpr ⟨s, hs, rfl⟩)))
    · rw [← hq]
      simp only [List.all_eq_true]
      intro b hb
      obtain ⟨y, hy, rfl⟩ := List.mem_map.mp hb
      exact (noWorse_iff isDigit (h s hs) (h y hy)).mpr (hall y hy)
  rw [key]; rfl

/-- The parser's answers, at this current time and in the states it can be in, are a function of the text. -/
structure Memoryless (env : SearchEnv σ τ D) (now : τ) (f : List Char → Option D) (I : σ → Prop) : Prop where
  stays : ∀ s e, I s → I (env.parse s (some now) e).1
  answer : ∀ s e, I s → (env.parse s (some now) e).2 = f e

variable {env : SearchEnv σ τ D} {now : τ} {f : List Char → Option D} {I : σ → Prop}

theorem parseEntry_exact (hm : Memoryless env now f I) {s : σ} (hs : I s) (entry tr : List Char) (l : List (ParsedSearch D)) :
    ∃ s' b, I s' ∧ parseEntry env (s, some now) entry tr l false = ((s', some now), ⟨f (textFor entry), b⟩) := by
  refine ⟨(env.parse s (some now) (textFor entry)).1, relativeWords.any fun rw => containsStr rw tr, hm.stays _ _ hs, ?_⟩
  unfold parseEntry
  simp only [Bool.false_eq_true, if_false]
  change ((_, _), ParsedSearch.mk (env.parse s (some now) (textFor entry)).2 _) = _
  rw [hm.answer _ _ hs]; rfl

theorem parseParts_exact (hm : Memoryless env now f I) (split : SplitResult) (hl : split.entryParts.length = split.originalParts.length) :
    ∀ (rest orest : List (List Char)) (j : Nat) (s : σ) (res : List (ParsedSearch D)) (subs : List (List Char)),
    split.entryParts.drop j = rest → split.originalParts.drop j = orest → I s →
    ∃ s' R, I s' ∧ parseParts env false split j rest (s, some now) res subs =
      some ((s', some now), res ++ R, subs ++ (readCut f ⟨rest, orest⟩).map (·.2)) ∧
      R.map (·.date) = (readCut f ⟨rest, orest⟩).map (·.1) := by
  intro rest
  induction rest with
  | nil => intro orest j s res subs _ _ hs; exact ⟨s, [], hs, by simp [parseParts, readCut], by simp [readCut]⟩
  | cons jEntry rest ih =>
    intro orest j s res subs hd hd2 hs
    have hj : split.entryParts[j]? = some jEntry := by
      rw [← Nat.add_zero j, ← List.getElem?_drop, hd]; rfl
    have hlt : j < split.originalParts.length := by
      rw [← hl]; exact (List.getElem?_eq_some_iff.mp hj).1
    have hd' : split.entryParts.drop (j + 1) = rest := by
      rw [← List.drop_drop, hd]; rfl
    cases orest with
    | nil => simp at hd2; omega
    | cons op orest =>
    have ho : split.originalParts[j]? = some op := by
      rw [← Nat.add_zero j, ← List.getElem?_drop, hd2]; rfl
    have hd2' : split.originalParts.drop (j + 1) = orest := by
      rw [← List.drop_drop, hd2]; rfl
    unfold parseParts
    by_cases h2 : jEntry.length ≤ 2
    · rw [if_pos h2]
      obtain ⟨s', R, i1, i2, i3⟩ := ih orest (j + 1) s res subs hd' hd2' hs
      have e : readCut f ⟨jEntry :: rest, op :: orest⟩ = readCut f ⟨rest, orest⟩ := by
        unfold readCut
        simp only [List.zip_cons_cons, List.filter_cons]
        rw [if_neg (by simp; omega)]
      rw [e]
      exact ⟨s', R, i1, i2, i3⟩
    · rw [if_neg h2, hj, ho]
      obtain ⟨s1, b, hs1, e1⟩ := parseEntry_exact hm hs jEntry jEntry res
      simp only [Option.bind_eq_bind, Option.bind_some, e1]
      obtain ⟨s', R, i1, i2, i3⟩ := ih orest (j + 1) s1 (res ++ [⟨f (textFor jEntry), b⟩]) (subs ++ [trimChars op " .,:()[]-".toList]) hd' hd2' hs1
      have e : readCut f ⟨jEntry :: rest, op :: orest⟩ = (f (textFor jEntry), trimChars op " .,:()[]-".toList) :: readCut f ⟨rest, orest⟩ := by
        unfold readCut
        simp only [List.zip_cons_cons, List.filter_cons]
        rw [if_pos (by simp; omega)]; rfl
      refine ⟨s', ⟨f (textFor jEntry), b⟩ :: R, i1, ?_, ?_⟩
      · rw [i2, e]; simp
      · rw [e]; simp [i3]

theorem parseSplits_exact (hm : Memoryless env now f I) : ∀ (splits : List SplitResult) (s : σ),
    (∀ r ∈ splits, r.entryParts.length = r.originalParts.length) → I s →
    ∃ s' poss, I s' ∧ parseSplits env false splits (s, some now) = some ((s', some now), poss) ∧
      (∀ p ∈ poss, p.1.length = p.2.length) ∧ poss.map toPieces = splits.map (readCut f) := by
  intro splits
  induction splits with
  | nil => intro s _ hs; exact ⟨s, [], hs, rfl, by simp, rfl⟩
  | cons sp splits ih =>
    intro s h hs
    obtain ⟨s1, R, hs1, e1, e2⟩ := parseParts_exact hm sp (h sp (by simp)) sp.entryParts sp.originalParts 0 s [] [] rfl rfl hs
    obtain ⟨s2, poss, hs2, e3, e4, e5⟩ := ih s1 (fun r hr => h r (by simp [hr])) hs1
    have hlen : R.length = ((readCut f sp).map (·.2)).length := by
      have := congrArg List.length e2
      simpa using this
    refine ⟨s2, (R, (readCut f sp).map (·.2)) :: poss, hs2, ?_, ?_, ?_⟩
    · unfold parseSplits
      simp only [Option.bind_eq_bind, e1, Option.bind_some, e3]; simp
    · intro p hp
      rcases List.mem_cons.mp hp with rfl | hp
      · exact hlen
      · exact e4 p hp
    · rw [List.map_cons, List.map_cons, e5]
      congr 1
      unfold toPieces
      simp only
      rw [e2]
      change List.zip ((readCut f sp).map (·.1)) ((readCut f sp).map (·.2)) = _
      rw [List.zip_map']
      simp

theorem kept_eq : ∀ (a : List (ParsedSearch D)) (b : List (List Char)),
    let kept := (a.zip b).filter (·.1.date.isSome)
    let found := (toPieces (a, b)).filterMap fun x => x.1.map fun d => (d, x.2)
    kept.map (·.1.date) = found.map (fun x => some x.1) ∧ kept.map (·.2) = found.map (·.2) := by
  intro a
  induction a with
  | nil => intro b; exact ⟨rfl, rfl⟩
  | cons x a ih =>
    intro b
    cases b with
    | nil => exact ⟨rfl, rfl⟩
    | cons y b =>
      obtain ⟨h1, h2⟩ := ih b
      unfold toPieces at *
      simp only [List.map_cons, List.zip_cons_cons, List.filter_cons, List.filterMap_cons] at h1 h2 ⊢
      cases hx : x.date with
      | none => simpa [hx] using ⟨h1, h2⟩
      | some d => simp [hx]; exact ⟨by simpa using h1, by simpa using h2⟩

theorem foundLoop_exact (hm : Memoryless env now f I) (translation original entries : List (List Char))
    (ht : translation.length = entries.length) (ho : original.length = entries.length) :
    ∀ (rest orest : List (List Char)) (i : Nat) (s : σ) (res : List (ParsedSearch D)) (subs : List (List Char)),
    entries.drop i = rest → original.drop i = orest → I s →
    let found := (rest.zip orest).flatMap fun x => findsIn env.isDigit f x.1 x.2
    ∃ s' R, I s' ∧ foundLoop env false translation original i rest (s, some now) res subs =
      some ((s', some now), res ++ R, subs ++ found.map (·.2)) ∧ R.map (·.date) = found.map fun x => some x.1 := by
  intro rest
  induction rest with
  | nil => intro orest i s res subs _ _ hs; exact ⟨s, [], hs, by simp [foundLoop], by simp⟩
  | cons entry rest ih =>
    intro orest i s res subs hd hd2 hs
    have hi : entries[i]? = some entry := by
      rw [← Nat.add_zero i, ← List.getElem?_drop, hd]; rfl
    have hlt : i < entries.length := (List.getElem?_eq_some_iff.mp hi).1
    have hd' : entries.drop (i + 1) = rest := by rw [← List.drop_drop, hd]; rfl
    have hti : i < translation.length := by omega
    cases orest with
    | nil => simp at hd2; omega
    | cons o orest =>
    have hoi : original[i]? = some o := by
      rw [← Nat.add_zero i, ← List.getElem?_drop, hd2]; rfl
    have hd2' : original.drop (i + 1) = orest := by rw [← List.drop_drop, hd2]; rfl
    -- what one more chunk adds
    have step : ∀ (s1 : σ) (A : List (ParsedSearch D)), I s1 →
        A.map (·.date) = (findsIn env.isDigit f entry o).map (fun x => some x.1) →
        ∃ s' R, I s' ∧ foundLoop env false translation original (i + 1) rest (s1, some now) (res ++ A)
            (subs ++ (findsIn env.isDigit f entry o).map (·.2)) =
          some ((s', some now), res ++ R, subs ++ (((entry :: rest).zip (o :: orest)).flatMap fun x => findsIn env.isDigit f x.1 x.2).map (·.2)) ∧
          R.map (·.date) = (((entry :: rest).zip (o :: orest)).flatMap fun x => findsIn env.isDigit f x.1 x.2).map fun x => some x.1 := by
      intro s1 A hs1 hA
      obtain ⟨s', R, i1, i2, i3⟩ := ih orest (i + 1) s1 (res ++ A) (subs ++ (findsIn env.isDigit f entry o).map (·.2)) hd' hd2' hs1
      refine ⟨s', A ++ R, i1, ?_, ?_⟩
      · rw [i2]; simp
      · rw [List.map_append, hA, i3]; simp
    dsimp only
    unfold foundLoop
    by_cases h2 : entry.length ≤ 2
    · rw [if_pos h2]
      have e0 : findsIn env.isDigit f entry o = [] := by unfold findsIn; rw [if_pos h2]
      have := step s [] hs (by rw [e0]; rfl)
      rw [e0] at this
      simpa [e0] using this
    · rw [if_neg h2, List.getElem?_eq_getElem hti, hoi]
      obtain ⟨s1, b, hs1, e1⟩ := parseEntry_exact hm hs entry translation[i] res
      simp only [Option.bind_eq_bind, Option.bind_some, e1]
      cases hf : f (textFor entry) with
      | some d =>
        have e0 : findsIn env.isDigit f entry o = [(d, trimChars o " .,:()[]-'".toList)] := by
          unfold findsIn; rw [if_neg h2, hf]
        simp only [Option.isSome_some, if_true]
        have := step s1 [⟨some d, b⟩] hs1 (by rw [e0]; rfl)
        rw [e0] at this
        simpa [e0] using this
      | none =>
        simp only [Option.isSome_none, Bool.false_eq_true, if_false]
        rw [C32_cuts]
        simp only [Option.bind_some]
        have e0 : findsIn env.isDigit f entry o = (bestOf env.isDigit ((separators.flatMap (cuts entry o)).map (readCut f))).filterMap
            fun x => x.1.map fun d => (d, x.2) := by
          unfold findsIn; rw [if_neg h2, hf]
        obtain ⟨l, hl, hsp⟩ := C32_split_lossless entry o
        rw [C32_cuts] at hl
        injection hl with hl
        have hsp' : ∀ r ∈ separators.flatMap (cuts entry o), r.entryParts.length = r.originalParts.length := by
          intro r hr
          rw [hl] at hr
          obtain ⟨sep, _, h, _⟩ := hsp r hr
          exact h
        generalize hS : separators.flatMap (cuts entry o) = S at *
        by_cases hemp : S.isEmpty = true
        · rw [if_pos hemp]
          have : S = [] := by simpa using hemp
          rw [this] at e0
          have e0 : findsIn env.isDigit f entry o = [] := by rw [e0]; rfl
          have := step s1 [] hs1 (by rw [e0]; rfl)
          rw [e0] at this
          simpa [e0] using this
        · rw [if_neg hemp]
          obtain ⟨s2, poss, hs2, e2, e3, e4⟩ := parseSplits_exact hm S s1 hsp' hs1
          have hpne : poss ≠ [] := by
            intro hn
            rw [hn] at e4
            have := congrArg List.length e4
            simp at this
            apply hemp
            cases S with
            | nil => rfl
            | cons a b => simp at this
          obtain ⟨best, hb, e5, e6⟩ := chooseBestSplit_eq env.isDigit poss e3 hpne
          have hbl := e3 best hb
          rw [e2]
          simp only [Option.bind_some, e5]
          rw [if_pos (Nat.le_of_eq hbl)]
          rw [e4] at e6
          obtain ⟨k1, k2⟩ := kept_eq best.1 best.2
          rw [e6] at k1 k2
          rw [← e0] at k1 k2
          have := step s2 (((best.1.zip best.2).filter (·.1.date.isSome)).map (·.1)) hs2 (by rw [← k1]; simp)
          rw [← k2] at this
          exact this

/-- **C32.** What a search with a given current time finds, exactly, for a parser whose answers at that time are a function of the
text: chunk by chunk in order, the date of the chunk or those of the pieces of the best cut, each with its original text. -/
theorem C32_exact (hm : Memoryless env now f I) {s : σ} (hs : I s) (useTranslation : Bool) (translation original : List (List Char))
    (h : translation.length = original.length) :
    let found := ((if useTranslation then translation else original).zip original).flatMap fun x => findsIn env.isDigit f x.1 x.2
    ∃ s' res, parseFoundObjects env useTranslation translation original (s, some now) = some ((s', some now), res, found.map (·.2)) ∧
      res.map (·.date) = found.map fun x => some x.1 := by
  have hl : original.length = (if useTranslation then translation else original).length := by cases useTranslation <;> simp [h]
  obtain ⟨s', R, _, e, hr⟩ := foundLoop_exact hm translation original _ (h.trans hl) hl _ original 0 s [] [] rfl rfl hs
  exact ⟨s', R, by simpa [parseFoundObjects] using e, hr⟩

theorem containsStr_iff (p : List Char) : ∀ (s : List Char), containsStr p s = true ↔ p <:+: s := by
  intro s
  induction s with
  | nil => simp [containsStr]
  | cons c s ih => rw [containsStr, Bool.or_eq_true, ih, List.infix_cons_iff, List.isPrefixOf_iff_prefix]

/-- **C41.** Which of the dates found count as relative: those whose text (in English) has one of six words, or something that
contains one, as "interval" contains "in". -/
theorem C41_relative_words (env : SearchEnv σ τ D) (st : σ × Option τ) (entry translation : List Char) (l : List (ParsedSearch D)) (need : Bool) :
    (parseEntry env st entry translation l need).2.isRelative = true ↔ SaysRelative translation := by
  have e : (parseEntry env st entry translation l need).2.isRelative = relativeWords.any fun rw => containsStr rw translation := by
    unfold parseEntry
    dsimp only
    split <;> rfl
  have w : relativeWords = ["ago", "in", "from now", "tomorrow", "today", "yesterday"].map String.toList := by rfl
  rw [e, w, List.any_map]
  unfold SaysRelative
  simp only [List.any_eq_true, Function.comp]
  constructor
  · rintro ⟨x, hx, hc⟩; exact ⟨x, hx, (containsStr_iff _ _).mp hc⟩
  · rintro ⟨x, hx, hc⟩; exact ⟨x, hx, (containsStr_iff _ _).mpr hc⟩

end

/-! ## The hypotheses are met -/

/-- The toy parser answers alike in all states. -/
theorem toy_memoryless : Memoryless toyEnv 7 (fun e => if e = "2 may 2015".toList then some 100 else if e = "tomorrow".toList then some 8 else none)
    (fun _ => True) := ⟨fun _ _ _ => trivial, fun _ _ _ => rfl⟩

/-- Two dates, one in a piece. -/
example : findsIn toyEnv.isDigit (fun e => (toyEnv.parse () (some 7) e).2) "on hold,2 may 2015".toList "en attente,(2 mai 2015)".toList =
    [(100, "2 mai 2015".toList)] := by decide +kernel
example : SaysRelative "the interval".toList := ⟨"in", by simp, ⟨"the ".toList, "terval".toList, by decide⟩⟩
example : ¬ SaysRelative "2 may".toList := by
  rintro ⟨w, hw, h⟩
  rw [← containsStr_iff] at h
  revert h; revert w
  decide +kernel

/-- A parser that knows "1 5 9" and "tomorrow". -/
def toyEnv2 : SearchEnv Unit Nat Nat where
  parse := fun _ now e =>
    ((), if e = "1 5 9".toList then some 100 else if e = "tomorrow".toList then some (now.getD 7 + 1) else none)
  time := some
  isDigit := fun c => '0' ≤ c && c ≤ '9'

/-- **C41 (finding).** A date in a cut that is not chosen is not found, yet it stays the current time: the "tomorrow" after it, the
only date found, is the day after it.  (Cut at the comma, "1 5 9" is a date and " a b" is read after it; cut at spaces no piece
is long enough to be read, and that cut is chosen.) -/
theorem C41_rejected_date_stays :
    (parseFoundObjects toyEnv2 true ["1 5 9, a b".toList, "tomorrow".toList] ["1 5 9, a b".toList, "tomorrow".toList] ((), none)).map
      (fun r => (r.2.1.map (·.date), r.2.2)) = some ([some 101], ["tomorrow".toList]) ∧
    (parseFoundObjects toyEnv2 true ["tomorrow".toList] ["tomorrow".toList] ((), none)).map
      (fun r => (r.2.1.map (·.date), r.2.2)) = some ([some 8], ["tomorrow".toList]) := by decide +kernel

end Verif.Props
