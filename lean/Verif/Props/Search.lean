import Verif.Lemmas.Search
/-! # C32, C41: search results -/
set_option autoImplicit false
namespace Verif.Props
open Verif.Go Verif.Model Verif.Spec Verif.Lemmas

/-- **C32.** The candidate pieces of a chunk: however it is split, entry and original come in the same number of pieces
and joining the pieces gives back the chunk. -/
theorem C32_split_lossless (entry original : List Char) :
    ∃ l, splitIfNotParsed entry original = some l ∧ ∀ r ∈ l, ∃ sep, sep ∈ splitters ∧
      r.entryParts.length = r.originalParts.length ∧
      joinWith sep r.entryParts = entry ∧ joinWith sep r.originalParts = original :=
  splitIfNotParsed_spec entry original

theorem inGroups_cons {α : Type} {k : Nat} {l : List α} (hl : l ≠ []) (hk : k ≠ 0) : inGroups k l = l.take k :: inGroups k (l.drop k) := by
  rw [inGroups, dif_neg (by simp [hl, hk])]

theorem inGroups_nil {α : Type} (k : Nat) : inGroups k ([] : List α) = [] := by rw [inGroups, dif_pos (Or.inl rfl)]

theorem groupLoop_eq {ep op : List (List Char)} {sep : List Char} {i n : Nat} (hi : 0 < i) (hn : ep.length = n) (hn' : op.length = n) :
    ∀ (fuel j : Nat), n ≤ fuel + j → groupLoop ep op sep i n fuel j =
      some ((inGroups i (ep.drop j)).map (joinWith sep), (inGroups i (op.drop j)).map (joinWith sep)) := by
  intro fuel
  induction fuel with
  | zero =>
    intro j h
    rw [List.drop_eq_nil_of_le (by omega), List.drop_eq_nil_of_le (by omega), inGroups_nil]; rfl
  | succ fuel ih =>
    intro j h
    unfold groupLoop
    by_cases hj : j < n
    · rw [if_pos hj]
      have sl : ∀ (l : List (List Char)), l.length = n → slice? l j (min (j + i) n) = some ((l.drop j).take i) := by
        intro l hl
        unfold slice?
        rw [if_pos (by omega)]
        congr 1
        by_cases hji : j + i ≤ n
        · rw [show min (j + i) n - j = i by omega]
        · rw [show min (j + i) n - j = n - j by omega, List.take_of_length_le (by simp; omega), List.take_of_length_le (by simp; omega)]
      have ne : ∀ (l : List (List Char)), l.length = n → l.drop j ≠ [] := by
        intro l hl e
        have := congrArg List.length e
        simp at this; omega
      rw [inGroups_cons (ne ep hn) (by omega), inGroups_cons (ne op hn') (by omega)]
      simp only [sl ep hn, sl op hn', ih (j + i) (by omega), Option.bind_eq_bind, Option.bind_some, List.drop_drop]
      rfl
    · rw [if_neg hj, List.drop_eq_nil_of_le (by omega), List.drop_eq_nil_of_le (by omega), inGroups_nil]; rfl

theorem countGo_pos {sep : List Char} (hs : sep ≠ []) : ∀ (s : List Char), countGo sep 0 s ≠ 0 ↔ containsStr sep s = true := by
  intro s
  induction s with
  | nil =>
    have : sep.isEmpty = false := by cases sep <;> simp_all
    simp [countGo, containsStr, this]
  | cons c s ih =>
    rw [countGo, containsStr]
    by_cases h : sep.isPrefixOf (c :: s) = true
    · simp [h]
    · simp only [h, Bool.false_eq_true, if_false, Bool.false_or]
      exact ih

theorem splitTurn_eq (entry original : List Char) {sep : List Char} (hs : sep ≠ []) : splitTurn entry original sep = some (cuts entry original sep) := by
  unfold splitTurn cuts
  have hc := countGo_pos hs entry
  change countStr sep entry ≠ 0 ↔ _ at hc
  by_cases h : countStr sep entry = 0 ∨ countStr sep entry ≠ countStr sep original
  · rw [if_pos h, if_neg]
    simp only [Bool.and_eq_true, beq_iff_eq]
    rintro ⟨a, b⟩
    rcases h with h | h
    · exact hc.mpr a h
    · exact h b
  · rw [if_neg h]
    have h0 : countStr sep entry ≠ 0 := fun e => h (Or.inl e)
    have he : countStr sep entry = countStr sep original := Decidable.byContradiction fun e => h (Or.inr e)
    rw [if_pos (by simp [hc.mp h0, he])]
    have h3 : (splitStr sep entry).length = (splitStr sep original).length := by
      unfold splitStr; rw [splitGo_length, splitGo_length]
      exact congrArg (· + 1) he
    unfold splitBy
    by_cases h2 : countStr sep entry ≤ 2
    · rw [if_pos h2]
      dsimp only
      rw [if_neg (by omega)]; rfl
    · rw [if_neg h2]
      dsimp only
      rw [if_pos (by omega)]
      rw [groupLoop_eq (by omega) rfl h3.symm _ _ (by omega), groupLoop_eq (by omega) rfl h3.symm _ _ (by omega)]
      rfl

/-- **C32** The ways a chunk without a date is cut, exactly: at every separator, in the order of the list, that occurs equally often in
the entry and in the original – into all pieces and, from three separators on, in pairs and in threes. -/
theorem C32_cuts (entry original : List Char) : splitIfNotParsed entry original = some (separators.flatMap (cuts entry original)) := by
  have e : splitters = separators := by decide
  have ne : ∀ sep ∈ separators, sep ≠ [] := by decide
  unfold splitIfNotParsed
  rw [e]
  have key : ∀ l : List (List Char), (∀ sep ∈ l, sep ≠ []) → l.mapM (splitTurn entry original) = some (l.map (cuts entry original)) := by
    intro l
    induction l with
    | nil => intro _; rfl
    | cons a l ih =>
      intro h
      rw [List.mapM_cons, splitTurn_eq _ _ (h a (by simp)), ih (fun s hs => h s (by simp [hs]))]; rfl
  rw [key _ ne]
  rfl

/-- Five pieces: all, two pairs and one, three and two. -/
example : cuts "a,b,c,d,e".toList "1,2,3,4,5".toList ",".toList =
    [⟨["a".toList, "b".toList, "c".toList, "d".toList, "e".toList], ["1".toList, "2".toList, "3".toList, "4".toList, "5".toList]⟩,
     ⟨["a,b".toList, "c,d".toList, "e".toList], ["1,2".toList, "3,4".toList, "5".toList]⟩,
     ⟨["a,b,c".toList, "d,e".toList], ["1,2,3".toList, "4,5".toList]⟩] := by decide +kernel

section
variable {σ τ D : Type}

theorem parseEntry_answered (env : SearchEnv σ τ D) (st : σ × Option τ) (entry tr : List Char) (l : List (ParsedSearch D))
    (need : Bool) (d : D) (h : (parseEntry env st entry tr l need).2.date = some d) : Answered env entry d := by
  unfold parseEntry at h
  dsimp only at h
  split at h
  · exact ⟨_, _, h⟩
  · exact ⟨_, _, h⟩

/-- The loop over the parts of one split. -/
theorem parseParts_spec (env : SearchEnv σ τ D) (need : Bool) (split : SplitResult)
    (hl : split.entryParts.length = split.originalParts.length) :
    ∀ (rest : List (List Char)) (j : Nat) (st : σ × Option τ) (res : List (ParsedSearch D)) (subs : List (List Char)),
    split.entryParts.drop j = rest → res.length = subs.length →
    (∀ (k : Nat) r s d, res[k]? = some r → subs[k]? = some s → r.date = some d → ∃ (j : Nat) (e p : List Char),
      split.entryParts[j]? = some e ∧ split.originalParts[j]? = some p ∧ Answered env e d ∧ TrimmedOf " .,:()[]-".toList s p) →
    ∃ st' res' subs', parseParts env need split j rest st res subs = some (st', res', subs') ∧ res'.length = subs'.length ∧
    (∀ (k : Nat) r s d, res'[k]? = some r → subs'[k]? = some s → r.date = some d → ∃ (j : Nat) (e p : List Char),
      split.entryParts[j]? = some e ∧ split.originalParts[j]? = some p ∧ Answered env e d ∧ TrimmedOf " .,:()[]-".toList s p) := by
  intro rest
  induction rest with
  | nil => intro j st res subs _ h1 h2; exact ⟨st, res, subs, rfl, h1, h2⟩
  | cons jEntry rest ih =>
    intro j st res subs hd h1 h2
    have hj : split.entryParts[j]? = some jEntry := by
      rw [← Nat.add_zero j, ← List.getElem?_drop, hd]; rfl
    have hd' : split.entryParts.drop (j + 1) = rest := by
      rw [← List.drop_drop, hd]; rfl
    unfold parseParts
    split
    · exact ih (j + 1) st res subs hd' h1 h2
    · have hlt : j < split.originalParts.length := by
        rw [← hl]; exact (List.getElem?_eq_some_iff.mp hj).1
      rw [hj, List.getElem?_eq_getElem hlt]
      simp only [Option.bind_eq_bind, Option.bind_some]
      refine ih (j + 1) _ _ _ hd' (by simp [h1]) ?_
      intro k r s d hr hs hdate
      by_cases hk : k < res.length
      · rw [List.getElem?_append_left hk] at hr
        rw [List.getElem?_append_left (by omega)] at hs
        exact h2 k r s d hr hs hdate
      · rw [List.getElem?_append_right (by omega)] at hr
        rw [List.getElem?_append_right (by omega)] at hs
        have hk0 : k - res.length = 0 := by
          have := (List.getElem?_eq_some_iff.mp hr).1
          simp at this; omega
        rw [hk0] at hr
        rw [show k - subs.length = 0 by omega] at hs
        simp only [List.getElem?_cons_zero, Option.some.injEq] at hr hs
        subst hr; subst hs
        exact ⟨j, jEntry, _, hj, List.getElem?_eq_getElem hlt, parseEntry_answered env _ _ _ _ _ d hdate, trimChars_spec _ _⟩

/-- What is known of one way to split. -/
def GoodSplit (env : SearchEnv σ τ D) (entry original : List Char) (s : List (ParsedSearch D) × List (List Char)) : Prop :=
  s.1.length = s.2.length ∧ ∀ (k : Nat) r sub d, s.1[k]? = some r → s.2[k]? = some sub → r.date = some d →
    FoundIn env entry original d sub

theorem parseSplits_spec (env : SearchEnv σ τ D) (need : Bool) (entry original : List Char) : ∀ (splits : List SplitResult)
    (st : σ × Option τ), (∀ r ∈ splits, ∃ sep : List Char, r.entryParts.length = r.originalParts.length ∧
      joinWith sep r.entryParts = entry ∧ joinWith sep r.originalParts = original) →
    ∃ st' poss, parseSplits env need splits st = some (st', poss) ∧ poss.length = splits.length ∧
      ∀ s ∈ poss, GoodSplit env entry original s := by
  intro splits
  induction splits with
  | nil => intro st _; exact ⟨st, [], rfl, rfl, by simp⟩
  | cons sp splits ih =>
    intro st h
    obtain ⟨sep, hl, h1, h2⟩ := h sp (by simp)
    obtain ⟨st1, res, subs, e, hlen, hall⟩ := parseParts_spec env need sp hl sp.entryParts 0 st [] [] (by simp) rfl (by simp)
    obtain ⟨st2, poss, e2, hpl, hg⟩ := ih st1 fun r hr => h r (by simp [hr])
    refine ⟨st2, (res, subs) :: poss, ?_, by simp [hpl], ?_⟩
    · unfold parseSplits
      simp only [e, Option.bind_eq_bind, Option.bind_some, e2]; rfl
    · intro s hs
      rcases List.mem_cons.mp hs with rfl | hs
      · refine ⟨hlen, ?_⟩
        intro k r sub d hr hsub hd
        obtain ⟨j, ee, p, he, hp, ha, ht⟩ := hall k r sub d hr hsub hd
        exact Or.inr ⟨ee, p, ⟨sep, _, _, j, hl, h1, h2, he, hp⟩, ha, ht⟩
      · exact hg s hs

theorem firstBest_mem {α : Type} : ∀ (l : List (SplitRating × α)), l ≠ [] → ∃ x ∈ l, firstBest l = some x := by
  intro l
  induction l with
  | nil => intro h; exact absurd rfl h
  | cons x r ih =>
    intro _
    unfold firstBest
    cases hr : firstBest r with
    | none => exact ⟨x, by simp, rfl⟩
    | some y =>
      have hy : y ∈ r := by
        cases r with
        | nil => simp [firstBest] at hr
        | cons z r =>
          obtain ⟨w, hw, e⟩ := ih (by simp)
          rw [hr] at e; injection e with e; rw [e]; exact hw
      simp only
      split
      · exact ⟨y, by simp [hy], rfl⟩
      · exact ⟨x, by simp, rfl⟩

theorem mapM_rate {D : Type} (isDigit : Char → Bool) : ∀ (l : List (List (ParsedSearch D) × List (List Char))),
    (∀ s ∈ l, s.1.length = s.2.length) →
    ∃ rated, (l.mapM fun s => do
      let r ← rateSplit isDigit s.1 s.2
      pure (r, s)) = some rated ∧ rated.map (·.2) = l ∧
      ∀ x ∈ rated, rateSplit isDigit x.2.1 x.2.2 = some x.1 := by
  intro l
  induction l with
  | nil => intro _; exact ⟨[], rfl, rfl, by simp⟩
  | cons s l ih =>
    intro h
    obtain ⟨rated, e, em, hr⟩ := ih fun x hx => h x (by simp [hx])
    have hs := h s (by simp)
    have : ∃ r, rateSplit isDigit s.1 s.2 = some r := by
      unfold rateSplit; rw [if_pos (by omega)]; exact ⟨_, rfl⟩
    obtain ⟨r, hr'⟩ := this
    refine ⟨(r, s) :: rated, ?_, by simp [em], ?_⟩
    · rw [List.mapM_cons, e, hr']; rfl
    · intro x hx
      rcases List.mem_cons.mp hx with rfl | hx
      · exact hr'
      · exact hr x hx

theorem chooseBestSplit_mem (isDigit : Char → Bool) (l : List (List (ParsedSearch D) × List (List Char)))
    (h : ∀ s ∈ l, s.1.length = s.2.length) :
    ∃ s, chooseBestSplit isDigit l = some s ∧ (s ∈ l ∨ s = ([], [])) := by
  unfold chooseBestSplit
  split
  · exact ⟨_, rfl, Or.inr rfl⟩
  · rename_i hne
    obtain ⟨rated, e, em, _⟩ := mapM_rate isDigit l h
    have : rated ≠ [] := by
      intro hn; subst hn; simp at em; rw [em] at hne; simp at hne
    obtain ⟨x, hx, e2⟩ := firstBest_mem rated this
    refine ⟨x.2, ?_, Or.inl ?_⟩
    · rw [e]; simp only [Option.bind_eq_bind, Option.bind_some, e2]; rfl
    · rw [← em]; exact List.mem_map.mpr ⟨x, hx, rfl⟩

/-- What is known of what has been found so far. -/
def GoodResult (env : SearchEnv σ τ D) (entries original : List (List Char)) (bound : Nat) (res : List (ParsedSearch D))
    (subs : List (List Char)) : Prop :=
  res.length = subs.length ∧ ∃ idx : List Nat, idx.length = res.length ∧ idx.Pairwise (· ≤ ·) ∧ (∀ i ∈ idx, i < bound) ∧
    ∀ (k : Nat) i r s, idx[k]? = some i → res[k]? = some r → subs[k]? = some s → ∃ entry o d, entries[i]? = some entry ∧
      original[i]? = some o ∧ r.date = some d ∧ FoundIn env entry o d s

theorem GoodResult.append {env : SearchEnv σ τ D} {entries original : List (List Char)} {i : Nat} {res : List (ParsedSearch D)}
    {subs : List (List Char)} (h : GoodResult env entries original i res subs) {res' : List (ParsedSearch D)} {subs' : List (List Char)}
    (hl : res'.length = subs'.length) {entry o : List Char} (he : entries[i]? = some entry) (ho : original[i]? = some o)
    (hf : ∀ (k : Nat) r s, res'[k]? = some r → subs'[k]? = some s → ∃ d, r.date = some d ∧ FoundIn env entry o d s) :
    GoodResult env entries original (i + 1) (res ++ res') (subs ++ subs') := by
  obtain ⟨h1, idx, h2, h3, h4, h5⟩ := h
  refine ⟨by simp [h1, hl], idx ++ List.replicate res'.length i, by simp [h2], ?_, ?_, ?_⟩
  · rw [List.pairwise_append]
    refine ⟨h3, ?_, ?_⟩
    · rw [List.pairwise_replicate]; right; exact Nat.le_refl _
    · intro a ha b hb
      rw [List.mem_replicate] at hb
      have := h4 a ha
      omega
  · intro a ha
    rcases List.mem_append.mp ha with ha | ha
    · have := h4 a ha; omega
    · rw [List.mem_replicate] at ha; omega
  · intro k j r s hj hr hs
    by_cases hk : k < res.length
    · rw [List.getElem?_append_left (by omega)] at hj
      rw [List.getElem?_append_left hk] at hr
      rw [List.getElem?_append_left (by omega)] at hs
      exact h5 k j r s hj hr hs
    · rw [List.getElem?_append_right (by omega)] at hj
      rw [List.getElem?_append_right (by omega)] at hr
      rw [List.getElem?_append_right (by omega)] at hs
      rw [show k - subs.length = k - res.length by omega] at hs
      have hji : j = i := by
        have := List.mem_of_getElem? hj
        rw [List.mem_replicate] at this
        exact this.2
      subst hji
      obtain ⟨d, hd, hf⟩ := hf _ r s hr hs
      exact ⟨entry, o, d, he, ho, hd, hf⟩

theorem GoodResult.mono {env : SearchEnv σ τ D} {entries original : List (List Char)} {i j : Nat} {res : List (ParsedSearch D)}
    {subs : List (List Char)} (h : GoodResult env entries original i res subs) (hij : i ≤ j) :
    GoodResult env entries original j res subs := by
  obtain ⟨h1, idx, h2, h3, h4, h5⟩ := h
  exact ⟨h1, idx, h2, h3, fun a ha => by have := h4 a ha; omega, h5⟩

theorem foundLoop_spec (env : SearchEnv σ τ D) (need : Bool) (translation original entries : List (List Char))
    (ht : translation.length = entries.length) (ho : original.length = entries.length) :
    ∀ (rest : List (List Char)) (i : Nat) (st : σ × Option τ) (res : List (ParsedSearch D)) (subs : List (List Char)),
    entries.drop i = rest → GoodResult env entries original i res subs →
    ∃ st' res' subs', foundLoop env need translation original i rest st res subs = some (st', res', subs') ∧
      GoodResult env entries original (entries.length) res' subs' := by
  intro rest
  induction rest with
  | nil =>
    intro i st res subs hd hg
    refine ⟨st, res, subs, rfl, ?_⟩
    obtain ⟨h1, idx, h2, h3, h4, h5⟩ := hg
    refine ⟨h1, idx, h2, h3, ?_, h5⟩
    intro a ha
    obtain ⟨k, hk⟩ := List.getElem?_of_mem ha
    have hk' : k < res.length := by rw [← h2]; exact (List.getElem?_eq_some_iff.mp hk).1
    obtain ⟨entry, o, d, he, _⟩ := h5 k a _ _ hk (List.getElem?_eq_getElem hk') (List.getElem?_eq_getElem (by omega))
    exact (List.getElem?_eq_some_iff.mp he).1
  | cons entry rest ih =>
    intro i st res subs hd hg
    have hi : entries[i]? = some entry := by
      rw [← Nat.add_zero i, ← List.getElem?_drop, hd]; rfl
    have hlt : i < entries.length := (List.getElem?_eq_some_iff.mp hi).1
    have hd' : entries.drop (i + 1) = rest := by rw [← List.drop_drop, hd]; rfl
    have hti : i < translation.length := by omega
    have hoi : i < original.length := by omega
    unfold foundLoop
    split
    · exact ih (i + 1) st res subs hd' (hg.mono (by omega))
    · rw [List.getElem?_eq_getElem hti, List.getElem?_eq_getElem hoi]
      simp only [Option.bind_eq_bind, Option.bind_some]
      split
      · rename_i hsome
        refine ih (i + 1) _ _ _ hd' (hg.append (by simp) hi (List.getElem?_eq_getElem hoi) ?_)
        intro k r s hr hs
        have hk : k = 0 := by
          have := (List.getElem?_eq_some_iff.mp hr).1
          simp at this; omega
        subst hk
        simp only [List.getElem?_cons_zero, Option.some.injEq] at hr hs
        subst hr; subst hs
        obtain ⟨d, hd⟩ := Option.isSome_iff_exists.mp hsome
        exact ⟨d, hd, Or.inl ⟨parseEntry_answered env _ _ _ _ _ d hd, trimChars_spec _ _⟩⟩
      · obtain ⟨splits, es, hsp⟩ := splitIfNotParsed_spec entry original[i]
        rw [es]
        simp only [Option.bind_some]
        split
        · exact ih (i + 1) _ res subs hd' (hg.mono (by omega))
        · obtain ⟨st', poss, ep, _, hgood⟩ := parseSplits_spec env need entry original[i] splits
            (parseEntry env st entry translation[i] res need).1
            (fun r hr => by
              obtain ⟨sep, _, h1, h2, h3⟩ := hsp r hr
              exact ⟨sep, h1, h2, h3⟩)
          rw [ep]
          simp only [Option.bind_some]
          obtain ⟨best, eb, hb⟩ := chooseBestSplit_mem env.isDigit poss fun s hs => (hgood s hs).1
          rw [eb]
          simp only [Option.bind_some]
          have hbest : GoodSplit env entry original[i] best := by
            rcases hb with hb | hb
            · exact hgood best hb
            · subst hb; exact ⟨rfl, by simp⟩
          rw [if_pos (Nat.le_of_eq hbest.1)]
          refine ih (i + 1) _ _ _ hd' (hg.append (by simp) hi (List.getElem?_eq_getElem hoi) ?_)
          intro k r s hr hs
          rw [List.getElem?_map] at hr hs
          cases hz : (List.filter (fun x => x.1.date.isSome) (best.1.zip best.2))[k]? with
          | none => rw [hz] at hr; simp at hr
          | some x =>
            rw [hz] at hr hs
            simp only [Option.map_some, Option.some.injEq] at hr hs
            subst hr; subst hs
            have hx := List.mem_of_getElem? hz
            rw [List.mem_filter] at hx
            obtain ⟨d, hd⟩ := Option.isSome_iff_exists.mp hx.2
            obtain ⟨m, hm⟩ := List.getElem?_of_mem hx.1
            rw [List.getElem?_zip_eq_some] at hm
            exact ⟨d, hd, hbest.2 m _ _ d hm.1 hm.2 hd⟩

/-- **C32.** For every parser, every list of chunks (as many translated as original): the search ends without running
out of an index; every date it returns is a date the parser gave for a chunk, or for one of the pieces it can be split
into, and comes with the corresponding text of the original; and results are in the order of the chunks. -/
theorem C32_found (env : SearchEnv σ τ D) (useTranslation : Bool) (translation original : List (List Char))
    (h : translation.length = original.length) (st : σ × Option τ) :
    ∃ st' res subs, parseFoundObjects env useTranslation translation original st = some (st', res, subs) ∧
      res.length = subs.length ∧
      ∃ idx : List Nat, idx.length = res.length ∧ idx.Pairwise (· ≤ ·) ∧
        ∀ (k : Nat) i r s, idx[k]? = some i → res[k]? = some r → subs[k]? = some s →
          ∃ entry o d, (if useTranslation then translation else original)[i]? = some entry ∧ original[i]? = some o ∧
            r.date = some d ∧ FoundIn env entry o d s := by
  have hg0 : ∀ entries, GoodResult env entries original 0 [] [] := fun entries =>
    ⟨rfl, [], rfl, by simp, by simp, by simp⟩
  obtain ⟨st', res, subs, e, h1, idx, h2, h3, _, h5⟩ := foundLoop_spec env st.2.isNone translation original
    (if useTranslation then translation else original) (by cases useTranslation <;> simp [h])
    (by cases useTranslation <;> simp [h]) _ 0 st [] [] rfl (hg0 _)
  exact ⟨st', res, subs, e, h1, idx, h2, h3, h5⟩

/-- The text returned is a part of the chunk. -/
theorem FoundIn.infix {env : SearchEnv σ τ D} {entry o : List Char} {d : D} {s : List Char} (h : FoundIn env entry o d s) :
    s <:+: o := by
  have ht : ∀ chars s t, TrimmedOf chars s t → s <:+: t := by
    rintro chars s t ⟨a, b, e, _⟩
    exact ⟨a, b, e.symm⟩
  rcases h with ⟨_, h⟩ | ⟨e, p, ⟨sep, es, ps, j, hl, h1, h2, h3, h4⟩, _, h⟩
  · exact ht _ _ _ h
  · refine (ht _ _ _ h).trans ?_
    rw [← h2]
    have key : ∀ (ps : List (List Char)) (j : Nat), ps[j]? = some p → p <:+: joinWith sep ps := by
      intro ps
      induction ps with
      | nil => intro j h; simp at h
      | cons x ps ih =>
        intro j h
        cases ps with
        | nil =>
          cases j with
          | zero => simp at h; subst h; exact List.infix_refl _
          | succ j => simp at h
        | cons y ps =>
          rw [joinWith_cons _ _ (by simp)]
          cases j with
          | zero => simp at h; subst h; rw [List.append_assoc]; exact (List.prefix_append _ _).isInfix
          | succ j =>
            rw [List.getElem?_cons_succ] at h
            exact (ih j h).trans (List.suffix_append _ _).isInfix
    exact key ps j h4

/-- **C41.** When the caller gives no current time, a chunk that is parsed after an absolute date was found, with only
relative ones since, is read relative to that date. -/
theorem C41_relative_base (env : SearchEnv σ τ D) (st : σ × Option τ) (entry tr : List Char) (before after : List (ParsedSearch D))
    (p : ParsedSearch D) (d : D) (base : τ) (hp : p.isRelative = false) (hd : p.date = some d) (hb : env.time d = some base)
    (ha : ∀ q ∈ after, q.isRelative = true) :
    ∃ s', (parseEntry env st entry tr (before ++ p :: after) true).2.date = (env.parse s' (some base) (cleanEntry entry)).2 ∧
      (parseEntry env st entry tr (before ++ p :: after) true).1.2 = some base := by
  have hbase : getRelativeBase env (before ++ p :: after) = some base := by
    unfold getRelativeBase
    have key : ∀ (l : List (ParsedSearch D)) r, (∀ q ∈ l, q.isRelative = true) → relativeBaseLoop env (l ++ r) = relativeBaseLoop env r := by
      intro l r
      induction l with
      | nil => intro _; rfl
      | cons q l ih =>
        intro h
        rw [List.cons_append, relativeBaseLoop, h q (by simp), if_pos rfl]
        exact ih fun x hx => h x (by simp [hx])
    rw [List.reverse_append, List.reverse_cons, List.append_assoc, key _ _ (by simpa using ha)]
    simp [relativeBaseLoop, hp, hd, hb]
  unfold parseEntry
  simp only [if_true, hbase]
  exact ⟨_, rfl, trivial⟩

theorem parseEntry_given (env env' : SearchEnv σ τ D) (now : τ) (hp : ∀ s e, env.parse s (some now) e = env'.parse s (some now) e)
    (s : σ) (entry tr : List Char) (l : List (ParsedSearch D)) :
    parseEntry env (s, some now) entry tr l false = parseEntry env' (s, some now) entry tr l false ∧
      (parseEntry env (s, some now) entry tr l false).1.2 = some now := by
  unfold parseEntry
  simp only [Bool.false_eq_true, if_false, hp]
  exact ⟨trivial, trivial⟩

theorem parseParts_given (env env' : SearchEnv σ τ D) (now : τ) (hp : ∀ s e, env.parse s (some now) e = env'.parse s (some now) e)
    (split : SplitResult) : ∀ (rest : List (List Char)) (j : Nat) (s : σ) (res : List (ParsedSearch D)) (subs : List (List Char)),
    parseParts env false split j rest (s, some now) res subs = parseParts env' false split j rest (s, some now) res subs ∧
    ∀ out, parseParts env false split j rest (s, some now) res subs = some out → out.1.2 = some now := by
  intro rest
  induction rest with
  | nil =>
    intro j s res subs
    refine ⟨rfl, fun out h => ?_⟩
    simp only [parseParts, Option.some.injEq] at h
    rw [← h]
  | cons jEntry rest ih =>
    intro j s res subs
    unfold parseParts
    split
    · exact ih _ _ _ _
    · cases h1 : split.entryParts[j]? with
      | none => exact ⟨rfl, fun out h => by simp at h⟩
      | some ep =>
        obtain ⟨e1, e2⟩ := parseEntry_given env env' now hp s jEntry ep res
        cases h2 : split.originalParts[j]? with
        | none => exact ⟨rfl, fun out h => by simp at h⟩
        | some op =>
          simp only [Option.bind_eq_bind, Option.bind_some]
          rw [← e1]
          generalize parseEntry env (s, some now) jEntry ep res false = r at e2 ⊢
          obtain ⟨⟨s2, t2⟩, parsed⟩ := r
          simp only at e2 ⊢
          rw [e2]
          exact ih _ _ _ _

theorem parseSplits_given (env env' : SearchEnv σ τ D) (now : τ) (hp : ∀ s e, env.parse s (some now) e = env'.parse s (some now) e) :
    ∀ (splits : List SplitResult) (s : σ), parseSplits env false splits (s, some now) = parseSplits env' false splits (s, some now) ∧
    ∀ out, parseSplits env false splits (s, some now) = some out → out.1.2 = some now := by
  intro splits
  induction splits with
  | nil =>
    intro s
    refine ⟨rfl, fun out h => ?_⟩
    simp only [parseSplits, Option.some.injEq] at h
    rw [← h]
  | cons split rest ih =>
    intro s
    obtain ⟨e1, e2⟩ := parseParts_given env env' now hp split split.entryParts 0 s [] []
    unfold parseSplits
    rw [← e1]
    cases h : parseParts env false split 0 split.entryParts (s, some now) [] [] with
    | none => exact ⟨rfl, fun out h => by simp at h⟩
    | some r =>
      have e2 := e2 r h
      obtain ⟨⟨s2, t2⟩, res, subs⟩ := r
      simp only at e2
      subst e2
      simp only [Option.bind_eq_bind, Option.bind_some]
      obtain ⟨f1, f2⟩ := ih s2
      rw [← f1]
      cases h' : parseSplits env false rest (s2, some now) with
      | none => exact ⟨rfl, fun out h => by simp at h⟩
      | some r =>
        refine ⟨rfl, fun out h => ?_⟩
        have f2 := f2 r h'
        simp only [Option.bind_some, Option.pure_def, Option.some.injEq] at h
        rw [← h]; exact f2

theorem foundLoop_given (env env' : SearchEnv σ τ D) (now : τ) (hp : ∀ s e, env.parse s (some now) e = env'.parse s (some now) e)
    (hd : env.isDigit = env'.isDigit) (translation original : List (List Char)) :
    ∀ (rest : List (List Char)) (i : Nat) (s : σ) (pl : List (ParsedSearch D)) (subs : List (List Char)),
    foundLoop env false translation original i rest (s, some now) pl subs =
      foundLoop env' false translation original i rest (s, some now) pl subs := by
  intro rest
  induction rest with
  | nil => intro i s pl subs; rfl
  | cons entry rest ih =>
    intro i s pl subs
    unfold foundLoop
    split
    · exact ih _ _ _ _
    · cases h1 : translation[i]? with
      | none => simp only [Option.bind_eq_bind, Option.bind_none]
      | some tr =>
        obtain ⟨e1, e2⟩ := parseEntry_given env env' now hp s entry tr pl
        simp only [Option.bind_eq_bind, Option.bind_some]
        rw [← e1]
        generalize parseEntry env (s, some now) entry tr pl false = r at e2 ⊢
        obtain ⟨⟨s2, t2⟩, parsed⟩ := r
        simp only at e2 ⊢
        subst e2
        cases h2 : original[i]? with
        | none => simp only [Option.bind_eq_bind, Option.bind_none]
        | some orig =>
          simp only [Option.bind_some]
          split
          · exact ih _ _ _ _
          · cases h3 : splitIfNotParsed entry orig with
            | none => simp only [Option.bind_eq_bind, Option.bind_none]
            | some splits =>
              simp only [Option.bind_some]
              split
              · exact ih _ _ _ _
              · obtain ⟨f1, f2⟩ := parseSplits_given env env' now hp splits s2
                rw [← f1]
                cases h4 : parseSplits env false splits (s2, some now) with
                | none => simp only [Option.bind_eq_bind, Option.bind_none]
                | some r =>
                  have f2 := f2 r h4
                  obtain ⟨⟨s3, t3⟩, possible⟩ := r
                  simp only at f2
                  subst f2
                  simp only [Option.bind_some, hd]
                  cases h5 : chooseBestSplit env'.isDigit possible with
                  | none => simp only [Option.bind_eq_bind, Option.bind_none]
                  | some b =>
                    obtain ⟨br, bs⟩ := b
                    simp only [Option.bind_some]
                    split
                    · exact ih _ _ _ _
                    · rfl

/-- **C41.** When the caller gives a current time, everything is read relative to it: what is found is the same for every
parser that behaves alike when that is the current time, whatever it answers for other times and whatever the times of
the dates found. -/
theorem C41_given_time (env env' : SearchEnv σ τ D) (now : τ)
    (hp : ∀ s e, env.parse s (some now) e = env'.parse s (some now) e) (hd : env.isDigit = env'.isDigit)
    (useTranslation : Bool) (translation original : List (List Char)) (s : σ) :
    parseFoundObjects env useTranslation translation original (s, some now) =
      parseFoundObjects env' useTranslation translation original (s, some now) :=
  foundLoop_given env env' now hp hd translation original _ 0 s [] []

/-! ## The split chosen -/

/-- The number of pieces that are not dates. -/
def notParsed (a : List (ParsedSearch D) × List (List Char)) : Nat := (a.1.filter (·.date.isNone)).length
/-- The number of pieces without a digit. -/
def withoutDigit (isDigit : Char → Bool) (a : List (ParsedSearch D) × List (List Char)) : Nat :=
  (a.2.filter fun s => !s.any isDigit).length

/-- `a` is not worse than `b`: a smaller share of the pieces are not dates; or the same share and fewer pieces; or as
many pieces, and no more without digits. -/
def NotWorse (isDigit : Char → Bool) (a b : List (ParsedSearch D) × List (List Char)) : Prop :=
  notParsed a * b.2.length < notParsed b * a.2.length ∨
  notParsed a * b.2.length = notParsed b * a.2.length ∧
    (a.2.length < b.2.length ∨ a.2.length = b.2.length ∧ withoutDigit isDigit a ≤ withoutDigit isDigit b)

def RLe (a b : SplitRating) : Prop :=
  a.nNotParsed * b.nSubString < b.nNotParsed * a.nSubString ∨
  a.nNotParsed * b.nSubString = b.nNotParsed * a.nSubString ∧
    (a.nSubString < b.nSubString ∨ a.nSubString = b.nSubString ∧ a.nWithoutDigit ≤ b.nWithoutDigit)

theorem lt_iff (a b : SplitRating) : a.lt b = false ↔ RLe b a := by
  unfold SplitRating.lt RLe
  split
  · rename_i h; simp only [decide_eq_false_iff_not]; omega
  · rename_i h
    split
    · simp only [decide_eq_false_iff_not]; omega
    · split
      · simp only [decide_eq_false_iff_not]; omega
      · simp; omega

theorem RLe.refl (a : SplitRating) : RLe a a := by unfold RLe; omega

theorem RLe.trans {a b c : SplitRating} (ha : a.nNotParsed ≤ a.nSubString) (hb : b.nNotParsed ≤ b.nSubString)
    (hc : c.nNotParsed ≤ c.nSubString) (h1 : RLe a b) (h2 : RLe b c) : RLe a c := by
  unfold RLe at *
  by_cases hbz : b.nSubString = 0
  · have hb0 : b.nNotParsed = 0 := by omega
    rw [hbz, hb0] at h1
    simp only [Nat.mul_zero, Nat.zero_mul, Nat.lt_irrefl, false_or, true_and] at h1
    rw [hb0, hbz] at h2
    simp only [Nat.mul_zero, Nat.zero_mul, Nat.lt_irrefl, false_or, true_and] at h2
    have ha0 : a.nSubString = 0 := by omega
    have ha1 : a.nNotParsed = 0 := by omega
    rw [ha0, ha1]
    simp only [Nat.mul_zero, Nat.zero_mul, Nat.lt_irrefl, false_or, true_and]
    omega
  · have hbp : 0 < b.nSubString := by omega
    have e1 : a.nNotParsed * b.nSubString ≤ b.nNotParsed * a.nSubString := by omega
    have e2 : b.nNotParsed * c.nSubString ≤ c.nNotParsed * b.nSubString := by omega
    have f1 := Nat.mul_le_mul_right c.nSubString e1
    have f2 := Nat.mul_le_mul_right a.nSubString e2
    have g1 : a.nNotParsed * b.nSubString * c.nSubString = b.nSubString * (a.nNotParsed * c.nSubString) := by ac_rfl
    have g2 : b.nNotParsed * a.nSubString * c.nSubString = b.nNotParsed * c.nSubString * a.nSubString := by ac_rfl
    have g3 : c.nNotParsed * b.nSubString * a.nSubString = b.nSubString * (c.nNotParsed * a.nSubString) := by ac_rfl
    have le : a.nNotParsed * c.nSubString ≤ c.nNotParsed * a.nSubString :=
      Nat.le_of_mul_le_mul_left (by omega) hbp
    rcases Nat.lt_or_eq_of_le le with hlt | heq
    · exact Or.inl hlt
    · right
      refine ⟨heq, ?_⟩
      have k1 : b.nNotParsed * a.nSubString * c.nSubString = b.nSubString * (a.nNotParsed * c.nSubString) := by
        rw [heq] at g1 ⊢; omega
      -- no strict step: the middle products agree
      have s2 : a.nSubString = 0 ∨ b.nNotParsed * c.nSubString = c.nNotParsed * b.nSubString := by
        by_cases hz : a.nSubString = 0
        · exact Or.inl hz
        · right
          refine Nat.eq_of_mul_eq_mul_right (m := a.nSubString) (by omega) ?_
          rw [heq] at k1; omega
      have s1 : c.nSubString = 0 ∨ a.nNotParsed * b.nSubString = b.nNotParsed * a.nSubString := by
        by_cases hz : c.nSubString = 0
        · exact Or.inl hz
        · right
          refine Nat.eq_of_mul_eq_mul_right (m := c.nSubString) (by omega) ?_
          omega
      rcases s2 with s2 | s2
      · -- no pieces in a
        have ha1 : a.nNotParsed = 0 := by omega
        rw [s2, ha1] at h1
        simp only [Nat.mul_zero, Nat.zero_mul, Nat.lt_irrefl, false_or, true_and] at h1
        by_cases hcz : c.nSubString = 0
        · exfalso
          rw [hcz] at h2
          simp only [Nat.mul_zero] at h2
          by_cases hcn : c.nNotParsed = 0
          · rw [hcn] at h2; simp at h2; omega
          · omega
        · omega
      · rcases s1 with s1 | s1
        · rw [s1] at h2 s2
          simp only [Nat.mul_zero] at h2 s2
          rw [← s2] at h2
          simp at h2
          omega
        · omega

theorem firstBest_le {α : Type} : ∀ (l : List (SplitRating × α)), (∀ x ∈ l, x.1.nNotParsed ≤ x.1.nSubString) → ∀ y, firstBest l = some y →
    ∀ x ∈ l, RLe y.1 x.1 := by
  intro l
  induction l with
  | nil => intro _ y h; simp [firstBest] at h
  | cons z r ih =>
    intro hn y h x hx
    unfold firstBest at h
    cases hr : firstBest r with
    | none =>
      rw [hr] at h; injection h with h; subst h
      rcases List.mem_cons.mp hx with rfl | hx
      · exact RLe.refl _
      · cases r with
        | nil => simp at hx
        | cons w r =>
          obtain ⟨v, _, e⟩ := firstBest_mem (w :: r) (by simp)
          rw [hr] at e; simp at e
    | some w =>
      rw [hr] at h
      simp only at h
      have hw := ih (fun x hx => hn x (by simp [hx])) w hr
      have hwm : w ∈ r := by
        cases r with
        | nil => simp [firstBest] at hr
        | cons v r =>
          obtain ⟨u, hu, e⟩ := firstBest_mem (v :: r) (by simp)
          rw [hr] at e; injection e with e; rw [e]; exact hu
      split at h
      · rename_i hlt
        injection h with h; subst h
        rcases List.mem_cons.mp hx with rfl | hx
        · unfold SplitRating.lt at hlt
          unfold RLe
          split at hlt
          · simp only [decide_eq_true_eq] at hlt; exact Or.inl hlt
          · split at hlt
            · simp only [decide_eq_true_eq] at hlt; omega
            · split at hlt
              · simp only [decide_eq_true_eq] at hlt; omega
              · simp at hlt
        · exact hw x hx
      · rename_i hlt
        injection h with h; subst h
        have hzw : RLe z.1 w.1 := (lt_iff _ _).mp (by simpa using hlt)
        rcases List.mem_cons.mp hx with rfl | hx
        · exact RLe.refl _
        · exact RLe.trans (hn z (by simp)) (hn w (by simp [hwm])) (hn x (by simp [hx])) hzw (hw x hx)

theorem firstBest_first {α : Type} : ∀ (l : List (SplitRating × α)), (∀ x ∈ l, x.1.nNotParsed ≤ x.1.nSubString) → ∀ y, firstBest l = some y →
    ∃ pre suf, l = pre ++ y :: suf ∧ ∀ x ∈ pre, ¬ RLe x.1 y.1 := by
  intro l
  induction l with
  | nil => intro _ y h; simp [firstBest] at h
  | cons z r ih =>
    intro hn y h
    unfold firstBest at h
    cases hr : firstBest r with
    | none => rw [hr] at h; injection h with h; subst h; exact ⟨[], r, rfl, by simp⟩
    | some w =>
      rw [hr] at h
      simp only at h
      split at h
      · rename_i hlt
        injection h with h; subst h
        obtain ⟨pre, suf, e, hp⟩ := ih (fun x hx => hn x (by simp [hx])) w hr
        refine ⟨z :: pre, suf, by rw [e]; rfl, ?_⟩
        intro x hx
        rcases List.mem_cons.mp hx with rfl | hx
        · intro hle
          rw [(lt_iff _ _).mpr hle] at hlt
          simp at hlt
        · exact hp x hx
      · injection h with h; subst h; exact ⟨[], r, rfl, by simp⟩

/-- **C42.** Of the ways to split a chunk, one is chosen than which no other is better; of several such, the first. -/
theorem C42_best_split (isDigit : Char → Bool) (l : List (List (ParsedSearch D) × List (List Char)))
    (h : ∀ s ∈ l, s.1.length = s.2.length) (hne : l ≠ []) :
    ∃ pre s suf, l = pre ++ s :: suf ∧ chooseBestSplit isDigit l = some s ∧ (∀ t ∈ l, NotWorse isDigit s t) ∧
      ∀ t ∈ pre, ¬ NotWorse isDigit t s := by
  obtain ⟨rated, e, em, hr⟩ := mapM_rate isDigit l h
  have hne' : rated ≠ [] := by
    intro hn; subst hn; simp at em; exact hne em
  obtain ⟨x, hx, e2⟩ := firstBest_mem rated hne'
  have hval : ∀ y ∈ rated, y.1 = ⟨y.2.2.length, notParsed y.2, withoutDigit isDigit y.2⟩ := by
    intro y hy
    have := hr y hy
    have hl := h y.2 (by rw [← em]; exact List.mem_map.mpr ⟨y, hy, rfl⟩)
    unfold rateSplit at this
    rw [if_pos (by omega)] at this
    injection this with this
    rw [← this, hl, List.take_length]; rfl
  have hsmall : ∀ y ∈ rated, y.1.nNotParsed ≤ y.1.nSubString := by
    intro y hy
    rw [hval y hy]
    have hl := h y.2 (by rw [← em]; exact List.mem_map.mpr ⟨y, hy, rfl⟩)
    simp only [notParsed]
    rw [← hl]
    exact List.length_filter_le _ _
  have hle := firstBest_le rated hsmall x e2
  obtain ⟨pre, suf, epre, hpre⟩ := firstBest_first rated hsmall x e2
  refine ⟨pre.map (·.2), x.2, suf.map (·.2), ?_, ?_, ?_, ?_⟩
  · rw [← em, epre]; simp
  · unfold chooseBestSplit
    rw [if_neg (by simpa using hne), e]
    simp only [Option.bind_eq_bind, Option.bind_some, e2]; rfl
  · intro t ht
    rw [← em] at ht
    obtain ⟨y, hy, rfl⟩ := List.mem_map.mp ht
    have := hle y hy
    rw [hval x hx, hval y hy] at this
    exact this
  · intro t ht
    obtain ⟨y, hy, rfl⟩ := List.mem_map.mp ht
    have := hpre y hy
    rw [hval x hx, hval y (by rw [epre]; simp [hy])] at this
    exact this

/-- **C42 (finding).** A way to split a chunk that leaves only pieces of at most two characters, which are not parsed at
all, is preferred to any other, so that no date is found in the chunk. -/
theorem C42_empty_split_wins (isDigit : Char → Bool) (l : List (List (ParsedSearch D) × List (List Char)))
    (h : ∀ s ∈ l, s.1.length = s.2.length) (he : ([], []) ∈ l) : chooseBestSplit isDigit l = some ([], []) := by
  obtain ⟨pre, s, suf, el, e, hall, _⟩ := C42_best_split isDigit l h (by intro hn; rw [hn] at he; simp at he)
  have hs : s ∈ l := by rw [el]; simp
  have := hall _ he
  have hl := h s hs
  unfold NotWorse notParsed at this
  obtain ⟨s1, s2⟩ := s
  simp only [List.length_nil, Nat.mul_zero, List.filter_nil, Nat.zero_mul, Nat.lt_irrefl, false_or, true_and] at this hl
  have h2 : s2 = [] := List.eq_nil_of_length_eq_zero (by omega)
  have h1 : s1 = [] := by
    subst h2; exact List.eq_nil_of_length_eq_zero (by simpa using hl)
  rw [e, h1, h2]

end

/-! ## The hypotheses are met -/

/-- A toy parser: it knows "2 may 2015" and "tomorrow"; its dates are days, its times are days. -/
def toyEnv : SearchEnv Unit Nat Nat where
  parse := fun _ now e =>
    ((), if e = "2 may 2015".toList then some 100 else if e = "tomorrow".toList then some (now.getD 7 + 1) else none)
  time := some
  isDigit := fun c => '0' ≤ c && c ≤ '9'

/-- A date and the day after it. -/
example : (parseFoundObjects toyEnv true ["(2 may 2015)".toList, "2 may 2015".toList, "tomorrow".toList]
      ["(2 Mai 2015)".toList, "2 Mai 2015.".toList, "morgen".toList] ((), none)).map
        (fun r => (r.2.1.map (·.date), r.2.2)) =
    some ([some 100, some 101], ["2 Mai 2015".toList, "morgen".toList]) := by decide +kernel
/-- The same with a current time. -/
example : (parseFoundObjects toyEnv true ["2 may 2015".toList, "tomorrow".toList]
      ["2 Mai 2015.".toList, "morgen".toList] ((), some 7)).map (fun r => (r.2.1.map (·.date), r.2.2)) =
    some ([some 100, some 8], ["2 Mai 2015".toList, "morgen".toList]) := by decide +kernel
/-- A chunk that is split. -/
example : (parseFoundObjects toyEnv true ["2 may 2015,tomorrow".toList] ["2 Mai 2015,morgen".toList] ((), none)).map
      (fun r => (r.2.1.map (·.date), r.2.2)) =
    some ([some 100, some 101], ["2 Mai 2015".toList, "morgen".toList]) := by decide +kernel
example : (splitIfNotParsed "a, b, c, d, e".toList "1, 2, 3, 4, 5".toList).map List.length = some 6 := by decide +kernel
/-- The parsers of `C41_given_time` may differ. -/
example : ∃ env : SearchEnv Unit Nat Nat, env.parse () (some 8) "tomorrow".toList ≠ toyEnv.parse () (some 8) "tomorrow".toList ∧
    ∀ s e, env.parse s (some 7) e = toyEnv.parse s (some 7) e :=
  ⟨{ toyEnv with parse := fun s now e => toyEnv.parse s (if now = some 7 then now else none) e }, by decide +kernel, by
    intro s e; simp⟩

end Verif.Props
