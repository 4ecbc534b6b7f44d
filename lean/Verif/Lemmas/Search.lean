import Verif.Spec.Search
/-! Helper lemmas: splitting and joining. -/
set_option autoImplicit false
namespace Verif.Lemmas
open Verif.Go Verif.Model Verif.Spec

theorem splitGo_ne_nil (sep : List Char) : ∀ (s : List Char) (k : Nat) (acc : List Char), splitGo sep k acc s ≠ [] := by
  intro s
  induction s with
  | nil => intro k acc; simp [splitGo]
  | cons c s ih =>
    intro k acc
    cases k with
    | zero => unfold splitGo; split <;> simp [ih]
    | succ k => unfold splitGo; exact ih k acc

theorem joinWith_cons (sep x : List Char) {l : List (List Char)} (h : l ≠ []) :
    joinWith sep (x :: l) = x ++ sep ++ joinWith sep l := by
  cases l with
  | nil => exact absurd rfl h
  | cons y l => rfl

theorem joinWith_append (sep : List Char) {a b : List (List Char)} (ha : a ≠ []) (hb : b ≠ []) :
    joinWith sep (a ++ b) = joinWith sep a ++ sep ++ joinWith sep b := by
  induction a with
  | nil => exact absurd rfl ha
  | cons x a ih =>
    cases a with
    | nil => rw [List.singleton_append, joinWith_cons _ _ hb]; rfl
    | cons y a =>
      rw [List.cons_append, joinWith_cons _ _ (by simp), ih (by simp), joinWith_cons sep x (l := y :: a) (by simp)]
      simp only [List.append_assoc]

/-- Splitting loses nothing. -/
theorem join_splitGo {sep : List Char} (hs : sep ≠ []) : ∀ (s : List Char) (k : Nat) (acc : List Char),
    joinWith sep (splitGo sep k acc s) = acc.reverse ++ s.drop k := by
  intro s
  induction s with
  | nil => intro k acc; simp [splitGo, joinWith]
  | cons c s ih =>
    intro k acc
    cases k with
    | succ k => unfold splitGo; rw [ih]; simp
    | zero =>
      unfold splitGo
      split
      · rename_i hp
        rw [joinWith_cons _ _ (splitGo_ne_nil _ _ _ _), ih]
        obtain ⟨t, ht⟩ := List.isPrefixOf_iff_prefix.mp hp
        cases sep with
        | nil => exact absurd rfl hs
        | cons x sep =>
          simp only [List.cons_append, List.cons.injEq] at ht
          obtain ⟨rfl, rfl⟩ := ht
          simp
      · rw [ih]; simp

theorem splitGo_length (sep : List Char) : ∀ (s : List Char) (k : Nat) (acc : List Char),
    (splitGo sep k acc s).length = countGo sep k s + 1 := by
  intro s
  induction s with
  | nil => intro k acc; simp [splitGo, countGo]
  | cons c s ih =>
    intro k acc
    cases k with
    | succ k => unfold splitGo countGo; exact ih k acc
    | zero =>
      unfold splitGo countGo
      split
      · simp [ih]
      · exact ih 0 _

theorem groupLoop_spec {ep op : List (List Char)} {sep : List Char} {i n : Nat} (hi : 0 < i) (hn : ep.length = n) (hn' : op.length = n) :
    ∀ (fuel j : Nat), n ≤ fuel + j → ∃ a b, groupLoop ep op sep i n fuel j = some (a, b) ∧ a.length = b.length ∧
      joinWith sep a = joinWith sep (ep.drop j) ∧ joinWith sep b = joinWith sep (op.drop j) ∧ (j < n → a ≠ []) := by
  intro fuel
  induction fuel with
  | zero =>
    intro j h
    refine ⟨[], [], rfl, rfl, ?_, ?_, by omega⟩
    · rw [List.drop_eq_nil_of_le (by omega)]
    · rw [List.drop_eq_nil_of_le (by omega)]
  | succ fuel ih =>
    intro j h
    unfold groupLoop
    by_cases hj : j < n
    · rw [if_pos hj]
      obtain ⟨a, b, e, hl, h1, h2, h3⟩ := ih (j + i) (by omega)
      have s1 : slice? ep j (min (j + i) n) = some ((ep.drop j).take i) := by
        unfold slice?
        rw [if_pos (by omega)]
        congr 1
        by_cases hji : j + i ≤ n
        · rw [show min (j + i) n - j = i by omega]
        · rw [show min (j + i) n - j = n - j by omega, List.take_of_length_le (by simp; omega), List.take_of_length_le (by simp; omega)]
      have s2 : slice? op j (min (j + i) n) = some ((op.drop j).take i) := by
        unfold slice?
        rw [if_pos (by omega)]
        congr 1
        by_cases hji : j + i ≤ n
        · rw [show min (j + i) n - j = i by omega]
        · rw [show min (j + i) n - j = n - j by omega, List.take_of_length_le (by simp; omega), List.take_of_length_le (by simp; omega)]
      refine ⟨joinWith sep ((ep.drop j).take i) :: a, joinWith sep ((op.drop j).take i) :: b, ?_, by simp [hl], ?_, ?_, by simp⟩
      · simp only [s1, s2, e, Option.bind_eq_bind, Option.bind_some]; rfl
      · by_cases hji : j + i < n
        · rw [joinWith_cons _ _ (h3 hji), h1]
          conv => rhs; rw [← List.take_append_drop i (ep.drop j)]
          rw [joinWith_append _ (by
            intro hh
            have := congrArg List.length hh
            simp at this; omega) (by
            intro hh
            have := congrArg List.length hh
            simp at this; omega), List.drop_drop]
        · have ha : a = [] := by
            cases fuel with
            | zero => simp [groupLoop] at e; exact e.1
            | succ f => unfold groupLoop at e; rw [if_neg hji] at e; simp at e; exact e.1
          rw [ha, List.take_of_length_le (by simp; omega)]; rfl
      · by_cases hji : j + i < n
        · have hb : b ≠ [] := by
            have := h3 hji
            intro hb
            apply this
            rw [hb] at hl
            exact List.eq_nil_of_length_eq_zero (by simpa using hl)
          rw [joinWith_cons _ _ hb, h2]
          conv => rhs; rw [← List.take_append_drop i (op.drop j)]
          rw [joinWith_append _ (by
            intro hh
            have := congrArg List.length hh
            simp at this; omega) (by
            intro hh
            have := congrArg List.length hh
            simp at this; omega), List.drop_drop]
        · have hb : b = [] := by
            cases fuel with
            | zero => simp [groupLoop] at e; exact e.2
            | succ f => unfold groupLoop at e; rw [if_neg hji] at e; simp at e; exact e.2
          rw [hb, List.take_of_length_le (by simp; omega)]; rfl
    · rw [if_neg hj]
      refine ⟨[], [], rfl, rfl, ?_, ?_, by omega⟩
      · rw [List.drop_eq_nil_of_le (by omega)]
      · rw [List.drop_eq_nil_of_le (by omega)]

theorem splitBy_spec {entry original sep : List Char} (hs : sep ≠ []) (hc : countStr sep entry = countStr sep original) :
    ∃ l, splitBy entry original sep = some l ∧ ∀ r ∈ l, r.entryParts.length = r.originalParts.length ∧
      joinWith sep r.entryParts = entry ∧ joinWith sep r.originalParts = original := by
  have h1 : joinWith sep (splitStr sep entry) = entry := by simp [splitStr, join_splitGo hs]
  have h2 : joinWith sep (splitStr sep original) = original := by simp [splitStr, join_splitGo hs]
  have h3 : (splitStr sep entry).length = (splitStr sep original).length := by
    unfold splitStr; rw [splitGo_length, splitGo_length]
    exact congrArg (· + 1) hc
  unfold splitBy
  split
  · refine ⟨_, rfl, ?_⟩
    intro r hr
    simp only [List.mem_singleton] at hr
    subst hr
    exact ⟨h3, h1, h2⟩
  · obtain ⟨a, b, e, hl, j1, j2, _⟩ := groupLoop_spec (sep := sep) (i := 2) (by omega) rfl h3.symm (splitStr sep entry).length 0 (by omega)
    obtain ⟨c, d, e', hl', j1', j2', _⟩ := groupLoop_spec (sep := sep) (i := 3) (by omega) rfl h3.symm (splitStr sep entry).length 0 (by omega)
    refine ⟨[⟨splitStr sep entry, splitStr sep original⟩, ⟨a, b⟩, ⟨c, d⟩], ?_, ?_⟩
    · simp only [e, e', Option.bind_eq_bind, Option.bind_some]; rfl
    · intro r hr
      simp only [List.mem_cons, List.not_mem_nil, or_false] at hr
      rcases hr with rfl | rfl | rfl
      · exact ⟨h3, h1, h2⟩
      · exact ⟨hl, by rw [j1]; simpa using h1, by rw [j2]; simpa using h2⟩
      · exact ⟨hl', by rw [j1']; simpa using h1, by rw [j2']; simpa using h2⟩

theorem splitIfNotParsed_spec (entry original : List Char) :
    ∃ l, splitIfNotParsed entry original = some l ∧ ∀ r ∈ l, ∃ sep, sep ∈ splitters ∧ r.entryParts.length = r.originalParts.length ∧
      joinWith sep r.entryParts = entry ∧ joinWith sep r.originalParts = original := by
  have hne : ∀ sep ∈ splitters, sep ≠ [] := by decide
  have key : ∀ seps : List (List Char), (∀ sep ∈ seps, sep ∈ splitters) → ∃ ll, seps.mapM (splitTurn entry original) = some ll ∧
      ∀ l ∈ ll, ∀ r ∈ l, ∃ sep, sep ∈ splitters ∧ r.entryParts.length = r.originalParts.length ∧
      joinWith sep r.entryParts = entry ∧ joinWith sep r.originalParts = original := by
    intro seps
    induction seps with
    | nil => intro _; exact ⟨[], rfl, by simp⟩
    | cons sep seps ih =>
      intro h
      obtain ⟨ll, e, h2⟩ := ih fun s hs => h s (by simp [hs])
      have hsep := h sep (by simp)
      have : ∃ l, splitTurn entry original sep = some l ∧ ∀ r ∈ l, r.entryParts.length = r.originalParts.length ∧
          joinWith sep r.entryParts = entry ∧ joinWith sep r.originalParts = original := by
        unfold splitTurn
        split
        · rename_i hc
          simp only [Bool.and_eq_true, beq_iff_eq] at hc
          exact splitBy_spec (hne sep hsep) hc.2
        · exact ⟨[], rfl, by simp⟩
      obtain ⟨l, el, hl⟩ := this
      refine ⟨l :: ll, ?_, ?_⟩
      · rw [List.mapM_cons, el, e]; rfl
      · intro l' hl' r hr
        rcases List.mem_cons.mp hl' with rfl | hl'
        · exact ⟨sep, hsep, hl r hr⟩
        · exact h2 l' hl' r hr
  obtain ⟨ll, e, h⟩ := key splitters fun _ hs => hs
  refine ⟨ll.flatten, by unfold splitIfNotParsed; rw [e]; rfl, ?_⟩
  intro r hr
  obtain ⟨l, hl, hr⟩ := List.mem_flatten.mp hr
  exact h l hl r hr

/-! ## Trimming -/

theorem dropWhile_decomp {α : Type} (p : α → Bool) (l : List α) : ∃ a, l = a ++ l.dropWhile p ∧ ∀ x ∈ a, p x = true :=
  ⟨l.takeWhile p, (List.takeWhile_append_dropWhile).symm, fun x hx => List.all_takeWhile (p := p) (l := l) |> List.all_eq_true.mp |> fun h => h x hx⟩

theorem head_dropWhile {α : Type} (p : α → Bool) (l : List α) (c : α) (h : (l.dropWhile p).head? = some c) : p c = false := by
  induction l with
  | nil => simp at h
  | cons x l ih =>
    rw [List.dropWhile_cons] at h
    split at h
    · exact ih h
    · rename_i hx; simp at h; subst h; simpa using hx

theorem trimChars_spec (s chars : List Char) : TrimmedOf chars (trimChars s chars) s := by
  obtain ⟨a, ha, ha'⟩ := dropWhile_decomp chars.contains s
  obtain ⟨b, hb, hb'⟩ := dropWhile_decomp chars.contains (s.dropWhile chars.contains).reverse
  refine ⟨a, b.reverse, ?_, ?_, ?_⟩
  · have : (s.dropWhile chars.contains) = trimChars s chars ++ b.reverse := by
      have := congrArg List.reverse hb
      rw [List.reverse_reverse, List.reverse_append] at this
      exact this
    rw [List.append_assoc, ← this]; exact ha
  · intro c hc
    rcases List.mem_append.mp hc with hc | hc
    · simpa using ha' c hc
    · simpa using hb' c (by simpa using hc)
  · intro c hc
    have hlast : ∀ c, (trimChars s chars).getLast? = some c → c ∉ chars := by
      intro c hc
      unfold trimChars at hc
      rw [List.getLast?_reverse] at hc
      have := head_dropWhile _ _ _ hc
      simpa using this
    rcases hc with hc | hc
    · -- the head
      have : (s.dropWhile chars.contains) = trimChars s chars ++ b.reverse := by
        have := congrArg List.reverse hb
        rw [List.reverse_reverse, List.reverse_append] at this
        exact this
      have h2 : (s.dropWhile chars.contains).head? = some c := by
        rw [this, List.head?_append, hc]; rfl
      have := head_dropWhile _ _ _ h2
      simpa using this
    · exact hlast c hc

end Verif.Lemmas
