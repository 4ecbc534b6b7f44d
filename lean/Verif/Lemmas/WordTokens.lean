import Verif.Lemmas.WordSplit
/-!
Helper lemmas: the tokens of a text with one word among digits, spaces, commas, dots and colons.
-/
set_option autoImplicit false
namespace Verif.Lemmas
open Verif.Go Verif.Model Verif.Data Verif.Spec

/-- A language in which the word is known, and nothing else that could be seen in a date. -/
structure CutsWord (U : Uni) (L : Lang) (w : List Char) : Prop where
  ascii : AsciiUni U
  spacing : L.noWordSpacing = false
  known : ∀ k ∈ L.knownWords, knownOk k = true
  space : [' '] ∈ L.knownWords
  comma : [','] ∈ L.knownWords
  dot : ['.'] ∈ L.knownWords
  colon : [':'] ∈ L.knownWords
  word : w ∈ L.knownWords
  nonempty : w ≠ []
  letters : ∀ c ∈ w, lett c = true
  plain : PlainWord U w
  noSpace : ∀ c ∈ w, isSpace c = false

theorem CutsWord.wordLetters {U : Uni} {L : Lang} {w : List Char} (h : CutsWord U L w) : WordLetters U w := fun c hc => (h.plain c hc).1

theorem lett_ne {c : Char} (h : lett c = true) : c ≠ ' ' ∧ c ≠ ',' ∧ c ≠ '.' ∧ c ≠ '_' ∧ c ≠ '\n' ∧ c.isDigit = false ∧ c ≠ '-' ∧ c ≠ '|' ∧ c ≠ ':' ∧ c ≠ '-' := by
  refine ⟨?_, ?_, ?_, ?_, ?_, ?_, ?_, ?_, ?_, ?_⟩ <;> try (rintro rfl; revert h; decide)
  cases hd : c.isDigit with
  | false => rfl
  | true =>
    exfalso
    have := digit_range hd
    simp only [lett, Bool.or_eq_true, Bool.and_eq_true, decide_eq_true_eq] at h
    omega

theorem date_cases {c : Char} (h : dateChar c = true) : c.isDigit = true ∨ c = ' ' ∨ c = ',' ∨ c = '.' ∨ c = ':' := by
  simp only [dateChar, Bool.or_eq_true, Bool.and_eq_true, decide_eq_true_eq, beq_iff_eq] at h
  rcases h with ((h | h) | h) | h
  · by_cases hc : c.toNat = 58
    · exact Or.inr (Or.inr (Or.inr (Or.inr (toNat_inj hc))))
    left
    have key : ∀ n < 58, 48 ≤ n → (Char.ofNat n).isDigit = true := by decide +kernel
    have := key c.toNat (by omega) h.1
    rwa [Char.ofNat_toNat] at this
  · exact Or.inr (Or.inl (toNat_inj h))
  · exact Or.inr (Or.inr (Or.inl (toNat_inj h)))
  · exact Or.inr (Or.inr (Or.inr (Or.inl (toNat_inj h))))

theorem digit_date {c : Char} (h : c.isDigit = true) : dateChar c = true := by
  have := digit_range h
  simp only [dateChar, Bool.or_eq_true, Bool.and_eq_true, decide_eq_true_eq, beq_iff_eq]
  omega

theorem neighbor_letter {U : Uni} {w : List Char} (hp : PlainWord U w) {c : Char} (hc : c ∈ w) (hl : lett c = true) : neighborOk U (some c) = false := by
  obtain ⟨h1, h2, _⟩ := hp c hc
  have h3 := (lett_ne hl).2.2.2.1
  simp only [neighborOk, h2, Bool.or_false, Bool.or_eq_false_iff, Bool.not_eq_false', Bool.or_eq_true]
  exact ⟨by simpa using h3, h1⟩

theorem neighbor_date {U : Uni} (hU : AsciiUni U) {c : Char} (h : dateChar c = true) : neighborOk U (some c) = true := by
  rcases date_cases h with h | rfl | rfl | rfl | rfl
  · have hr := digit_range h
    simp only [neighborOk, hU.isNumber c (by omega), h]
    simp
  all_goals
    simp only [neighborOk]
    rw [hU.isNumber _ (by decide), hU.isLetter _ (by decide), hU.isMark _ (by decide)]
    decide

/-- What may be found. -/
theorem candidates {U : Uni} {L : Lang} {w : List Char} (h : CutsWord U L w) {T : List Char} (hF : Framed w T) (hO : OneWord T)
    {k : List Char} (hk : k ∈ L.knownWords) {pos : Nat} (hi : indexStr k T = some pos) (ho : okAt U T pos k = true) : k = w ∨ k = [' '] ∨ k = [','] ∨ k = ['.'] ∨ k = [':'] := by
  obtain ⟨a, b, hT, ha⟩ := index_sound hi
  have hko := h.known k hk
  simp only [knownOk, Bool.or_eq_true, beq_iff_eq, Bool.and_eq_true, Bool.not_eq_true', List.isEmpty_eq_false_iff, List.all_eq_true] at hko
  rcases hko with ((((⟨hne, hl⟩ | hko) | hko) | hko) | hko) | hko
  · left
    obtain ⟨u, v, hw, hu, hv⟩ := hF.wordRuns a k b hT hne hl
    unfold okAt at ho
    rw [Bool.and_eq_true] at ho
    have e1 : T.take pos = a := by rw [hT, ← ha, List.append_assoc, List.take_left]
    have e2 : T.drop (pos + k.length) = b := by rw [hT, ← ha, ← List.length_append, List.drop_left]
    rw [e1, e2] at ho
    have no : ∀ x ∈ T, neighborOk U (some x) = true → lett x = false := by
      intro x hx hn
      cases hlx : lett x with
      | false => rfl
      | true => rw [neighbor_letter h.plain (hF.mem hx hlx) hlx] at hn; cases hn
    have hu0 := hu fun x hx => no x (by rw [hT]; simp [List.mem_of_getLast? hx]) (by rw [← hx]; exact ho.1)
    have hv0 := hv fun x hx => no x (by rw [hT]; simp [List.mem_of_head? hx]) (by rw [← hx]; exact ho.2)
    rw [hw, hu0, hv0]; simp
  · exact Or.inr (Or.inl hko)
  · exact Or.inr (Or.inr (Or.inl hko))
  · exact Or.inr (Or.inr (Or.inr (Or.inl hko)))
  · exact Or.inr (Or.inr (Or.inr (Or.inr hko)))
  · exact absurd hT (never_infix hO hko)

theorem index_get {p : Char} {T : List Char} {pos : Nat} {k : List Char} (h : indexStr (p :: k) T = some pos) : T[pos]? = some p := by
  obtain ⟨a, b, rfl, rfl⟩ := index_sound h
  simp

/-- The word, first or after a space. -/
theorem find_word {U : Uni} {L : Lang} {w : List Char} (h : CutsWord U L w) {A D B : List Char} (hD : ∀ c ∈ D, c.isDigit = true) (hA : A = [] ∨ A = D ++ [' '])
    (hB : ∀ c ∈ B, dateChar c = true) (hBh : ∀ c, B.head? = some c → c = ' ') : findKnown U L (A ++ w ++ B) = some (A.length, w) := by
  have hAc : ∀ c ∈ A, dateChar c = true := by
    intro c hc
    rcases hA with rfl | rfl
    · cases hc
    · rcases List.mem_append.mp hc with hc | hc
      · exact digit_date (hD c hc)
      · have : c = ' ' := by simpa using hc
        subst this; decide
  have hAl : ∀ c, A.getLast? = some c → c = ' ' := by
    intro c hc
    rcases hA with rfl | rfl
    · cases hc
    · simpa using hc.symm
  have hF := framed_word h.letters hAc hB
  have hO := one_word h.letters hAc hB hAl hBh
  have hat : indexStr w (A ++ w ++ B) = some A.length := by
    cases hw : w with
    | nil => exact absurd hw h.nonempty
    | cons c w' =>
      rw [List.append_assoc]
      refine index_at B A fun hm => ?_
      have := date_not_lett (hAc c hm)
      rw [h.letters c (by rw [hw]; simp)] at this
      cases this
  obtain ⟨x, hx⟩ : ∃ x, x ∈ w := List.exists_mem_of_ne_nil _ h.nonempty
  unfold findKnown
  have hsp : (trimSpace (A ++ w ++ B)).isEmpty = false := by
    cases hwx : w with
    | nil => exact absurd hwx h.nonempty
    | cons c w' =>
      cases hs : isSpace c with
      | false => exact trim_nonempty (by simp) hs
      | true => exact absurd hs (by simp [h.noSpace c (by rw [hwx]; simp)])
  rw [hsp, h.spacing, if_neg (by simp)]
  refine known_loop hat ?_ _ none ?_ (fun q hq => by cases hq) (Or.inl h.word)
  · unfold okAt
    rw [Bool.and_eq_true]
    have e1 : (A ++ w ++ B).take A.length = A := by rw [List.append_assoc, List.take_left]
    have e2 : (A ++ w ++ B).drop (A.length + w.length) = B := by rw [← List.length_append, List.drop_left]
    rw [e1, e2]
    constructor
    · cases ha : A.getLast? with
      | none => rfl
      | some c => exact neighbor_date h.ascii (hAc c (List.mem_of_getLast? ha))
    · cases hb : B.head? with
      | none => rfl
      | some c => exact neighbor_date h.ascii (hB c (List.mem_of_head? hb))
  · intro k hk pos hi ho
    have hsep : ∀ p : Char, (p = ' ' ∨ p = ',' ∨ p = '.' ∨ p = ':') → k = [p] → A.length < pos ∨ (pos = A.length ∧ k = w) := by
      rintro p hp rfl
      have hpl : lett p = false := by rcases hp with rfl | rfl | rfl | rfl <;> decide
      have hpd : p.isDigit = false := by rcases hp with rfl | rfl | rfl | rfl <;> decide
      have hg := index_get hi
      left
      rcases Nat.lt_trichotomy pos A.length with hlt | heq | hgt
      · exfalso
        rw [List.append_assoc, List.getElem?_append_left hlt] at hg
        have hm : p ∈ A := List.mem_of_getElem? hg
        rcases hA with rfl | rfl
        · cases hm
        · rcases List.mem_append.mp hm with hm | hm
          · rw [hD p hm] at hpd; cases hpd
          · have : p = ' ' := by simpa using hm
            subst this
            have hno : ' ' ∉ D := fun hm => by rw [hD _ hm] at hpd; cases hpd
            have := index_at (c := ' ') (k := []) (w ++ B) D hno
            have e : D ++ ([' '] ++ (w ++ B)) = D ++ [' '] ++ w ++ B := by simp
            rw [e, hi] at this
            have hpos : pos = D.length := Option.some.inj this
            unfold okAt at ho
            rw [Bool.and_eq_true] at ho
            have e3 : (D ++ [' '] ++ w ++ B).drop (pos + [' '].length) = w ++ B := by
              rw [hpos, List.append_assoc, ← List.length_append, List.drop_left]
            rw [e3] at ho
            cases hwx : w with
            | nil => exact absurd hwx h.nonempty
            | cons c w' =>
              rw [hwx] at ho
              simp only [List.cons_append, List.head?_cons] at ho
              rw [neighbor_letter h.plain (c := c) (by rw [hwx]; simp) (h.letters c (by rw [hwx]; simp))] at ho
              cases ho.2
      · exfalso
        rw [List.append_assoc, heq, List.getElem?_append_right (Nat.le_refl _), Nat.sub_self] at hg
        cases hwx : w with
        | nil => exact absurd hwx h.nonempty
        | cons c w' =>
          rw [hwx] at hg
          simp at hg
          rw [← hg, h.letters c (by rw [hwx]; simp)] at hpl
          cases hpl
      · exact hgt
    rcases candidates h hF hO hk hi ho with rfl | rfl | rfl | rfl | rfl
    · right
      rw [hat] at hi
      exact ⟨(Option.some.inj hi).symm, rfl⟩
    · exact hsep ' ' (by simp) rfl
    · exact hsep ',' (by simp) rfl
    · exact hsep '.' (by simp) rfl
    · exact hsep ':' (by simp) rfl

/-- A separator before which there are only digits. -/
theorem find_sep {U : Uni} {L : Lang} {w : List Char} (h : CutsWord U L w) {D R : List Char} {p : Char} (hD : ∀ c ∈ D, c.isDigit = true)
    (hp : p = ' ' ∨ p = ',' ∨ p = '.' ∨ p = ':') (hF : Framed w (D ++ p :: R)) (hO : OneWord (D ++ p :: R)) (hR : ∀ c, R.head? = some c → dateChar c = true)
    {x : Char} (hx : x ∈ D ++ p :: R) (hxs : isSpace x = false) : findKnown U L (D ++ p :: R) = some (D.length, [p]) := by
  have hpl : lett p = false := by rcases hp with rfl | rfl | rfl | rfl <;> decide
  have hpd : p.isDigit = false := by rcases hp with rfl | rfl | rfl | rfl <;> decide
  have hpD : ∀ {q : Char}, q.isDigit = false → q ∉ D := fun hq hm => by rw [hD _ hm] at hq; cases hq
  have hat : indexStr [p] (D ++ p :: R) = some D.length := index_at (k := []) R D (hpD hpd)
  unfold findKnown
  rw [trim_nonempty hx hxs, h.spacing, if_neg (by simp)]
  refine known_loop hat ?_ _ none ?_ (fun q hq => by cases hq) (Or.inl ?_)
  · unfold okAt
    rw [Bool.and_eq_true]
    have e1 : (D ++ p :: R).take D.length = D := List.take_left
    have e2 : (D ++ p :: R).drop (D.length + [p].length) = R := by
      have : D ++ p :: R = (D ++ [p]) ++ R := by simp
      rw [this, ← List.length_append, List.drop_left]
    rw [e1, e2]
    constructor
    · cases ha : D.getLast? with
      | none => rfl
      | some c => exact neighbor_date h.ascii (digit_date (hD c (List.mem_of_getLast? ha)))
    · cases hb : R.head? with
      | none => rfl
      | some c => exact neighbor_date h.ascii (hR c hb)
  · intro k hk pos hi ho
    have get : ∀ {q : Char}, (D ++ p :: R)[pos]? = some q → q.isDigit = false → q ≠ p → D.length < pos := by
      intro q hg hqd hqp
      rcases Nat.lt_trichotomy pos D.length with hlt | heq | hgt
      · exfalso
        rw [List.getElem?_append_left hlt] at hg
        exact hpD hqd (List.mem_of_getElem? hg)
      · exfalso
        rw [heq, List.getElem?_append_right (Nat.le_refl _), Nat.sub_self] at hg
        simp at hg
        exact hqp hg.symm
      · exact hgt
    have hsep : ∀ q : Char, (q = ' ' ∨ q = ',' ∨ q = '.' ∨ q = ':') → k = [q] → D.length < pos ∨ (pos = D.length ∧ k = [p]) := by
      rintro q hq rfl
      by_cases e : q = p
      · subst e
        rw [hat] at hi
        exact Or.inr ⟨(Option.some.inj hi).symm, rfl⟩
      · exact Or.inl (get (index_get hi) (by rcases hq with rfl | rfl | rfl | rfl <;> decide) e)
    rcases candidates h hF hO hk hi ho with rfl | rfl | rfl | rfl | rfl
    · left
      cases hwx : k with
      | nil => exact absurd hwx h.nonempty
      | cons c w' =>
        have hc := h.letters c (by rw [hwx]; simp)
        rw [hwx] at hi
        refine get (index_get hi) (lett_ne hc).2.2.2.2.2.1 ?_
        rintro rfl
        rw [hc] at hpl; cases hpl
    · exact hsep ' ' (by simp) rfl
    · exact hsep ',' (by simp) rfl
    · exact hsep '.' (by simp) rfl
    · exact hsep ':' (by simp) rfl
  · rcases hp with rfl | rfl | rfl | rfl
    · exact h.space
    · exact h.comma
    · exact h.dot
    · exact h.colon

theorem find_digits {U : Uni} {L : Lang} {w : List Char} (h : CutsWord U L w) {D : List Char} (hD : ∀ c ∈ D, c.isDigit = true) : findKnown U L D = none := by
  have hdc : ∀ c ∈ D, dateChar c = true := fun c hc => digit_date (hD c hc)
  unfold findKnown
  split
  · rfl
  · rw [h.spacing]
    refine known_none _ fun k hk pos hi => ?_
    cases ho : okAt U D pos k with
    | false => rfl
    | true =>
      exfalso
      have hsep : ∀ q : Char, q.isDigit = false → ∀ k', k ≠ q :: k' := by
        rintro q hq k' rfl
        rw [hD q (List.mem_of_getElem? (index_get hi))] at hq
        cases hq
      rcases candidates h (framed_plain hdc) (one_plain hdc) hk hi ho with rfl | rfl | rfl | rfl | rfl
      · cases hwx : k with
        | nil => exact h.nonempty hwx
        | cons c w' => exact hsep c (lett_ne (h.letters c (by rw [hwx]; simp))).2.2.2.2.2.1 w' hwx
      · exact hsep ' ' (by decide) _ rfl
      · exact hsep ',' (by decide) _ rfl
      · exact hsep '.' (by decide) _ rfl
      · exact hsep ':' (by decide) _ rfl

/-! ## Numerals -/

theorem uni_digit {U : Uni} (hU : AsciiUni U) {c : Char} (h : c.isDigit = true) : U.isDigit c = true := by
  have := digit_range h
  rw [hU.isDigit c (by omega), h]

theorem numeral_loop {U : Uni} (hU : AsciiUni U) : ∀ (D g r : List Char), (∀ c ∈ D, c.isDigit = true) → numeralLoop U true g (D ++ r) = numeralLoop U true (D.reverse ++ g) r := by
  intro D
  induction D with
  | nil => intro g r _; rfl
  | cons c D ih =>
    intro g r h
    simp only [List.cons_append]
    rw [numeralLoop, uni_digit hU (h c (by simp)), if_neg (by simp), ih _ _ fun x hx => h x (by simp [hx])]
    simp

theorem capture_digits {U : Uni} {D : List Char} (h : IsNumeral D) (k : List Char) (hk : '\n' ∉ k) : shouldCapture U (D ++ k) false = true := by
  unfold shouldCapture
  have h1 : (D ++ k).contains '\n' = false := by
    rw [Bool.eq_false_iff]
    intro hc
    rw [List.contains_iff_mem, List.mem_append] at hc
    rcases hc with hc | hc
    · have := h.2 _ hc; revert this; decide
    · exact hk hc
  rw [h1]
  obtain ⟨c, hc⟩ := List.exists_mem_of_ne_nil _ h.1
  have h2 : ((D ++ k).any fun c => c.isAlphanum || U.isLetter c) = true := by
    rw [List.any_eq_true]
    refine ⟨c, by simp [hc], ?_⟩
    unfold Char.isAlphanum
    rw [h.2 c hc]; simp
  rw [h2]; simp

theorem numerals_digits {U : Uni} (hU : AsciiUni U) {D : List Char} (h : IsNumeral D) : splitByNumerals U D false = [D] := by
  have hc := capture_digits (U := U) h [] (by simp)
  rw [List.append_nil] at hc
  unfold splitByNumerals
  cases D with
  | nil => exact absurd rfl h.1
  | cons c D =>
    have hl := numeral_loop hU D [c] [] fun x hx => h.2 x (by simp [hx])
    rw [List.append_nil] at hl
    simp only [uni_digit hU (h.2 c (by simp)), hl, numeralLoop]
    simp only [List.reverse_append, List.reverse_reverse, List.reverse_cons, List.reverse_nil, List.nil_append, List.singleton_append]
    rw [List.filter_cons_of_pos (by exact hc)]; rfl

theorem numerals_space {U : Uni} (hU : AsciiUni U) {D : List Char} (h : D = [] ∨ IsNumeral D) :
    splitByNumerals U (D ++ [' ']) false = (if D.isEmpty then [] else [D]) ++ [[' ']] := by
  have hs : U.isDigit ' ' = false := by rw [hU.isDigit _ (by decide)]; decide
  rcases h with rfl | h
  · unfold splitByNumerals
    simp only [List.nil_append, List.isEmpty_nil, if_true]
    rw [hs]
    rfl
  · have hc := capture_digits (U := U) h [] (by simp)
    rw [List.append_nil] at hc
    unfold splitByNumerals
    cases D with
    | nil => exact absurd rfl h.1
    | cons c D =>
      have hl := numeral_loop hU D [c] [' '] fun x hx => h.2 x (by simp [hx])
      simp only [List.cons_append, uni_digit hU (h.2 c (by simp)), hl]
      rw [numeralLoop, hs, if_pos (by simp), numeralLoop]
      simp only [List.reverse_append, List.reverse_reverse, List.reverse_cons, List.reverse_nil, List.nil_append, List.singleton_append]
      rw [List.filter_cons_of_pos (by exact hc), List.filter_cons_of_pos (by rfl)]
      rfl

/-! ## Steps -/

/-- The tokens of what is left. -/
theorem split_digits {U : Uni} {L : Lang} {w : List Char} (h : CutsWord U L w) {D : List Char} (hD : IsNumeral D) : ∀ n, splitByKnownFuel U L false (n + 1) D = [D] := by
  intro n
  have hc := capture_digits (U := U) hD [] (by simp)
  rw [List.append_nil] at hc
  rw [splitByKnownFuel, find_digits h hD.2]
  simp only [hc, if_true, numerals_digits h.ascii hD]

/-- What a separator gives. -/
def sepToken (p : Char) : List (List Char) := if p = ',' then [] else [[p]]

theorem split_sep {U : Uni} {L : Lang} {w : List Char} (h : CutsWord U L w) {D R : List Char} {p : Char} (hD : D = [] ∨ IsNumeral D)
    (hp : p = ' ' ∨ p = ',' ∨ p = '.' ∨ p = ':') (hF : Framed w (D ++ p :: R)) (hO : OneWord (D ++ p :: R)) (hR : ∀ c, R.head? = some c → dateChar c = true)
    {x : Char} (hx : x ∈ R) (hxs : isSpace x = false) (n : Nat) :
    splitByKnownFuel U L false (n + 1) (D ++ p :: R) = (if D.isEmpty then [] else [D]) ++ sepToken p ++ splitByKnownFuel U L false n R := by
  have hDd : ∀ c ∈ D, c.isDigit = true := by
    rcases hD with rfl | hD
    · simp
    · exact hD.2
  rw [splitByKnownFuel, find_sep h hDd hp hF hO hR (x := x) (by simp [hx]) hxs]
  have e1 : (D ++ p :: R).take D.length = D := List.take_left
  have e2 : (D ++ p :: R).drop (D.length + [p].length) = R := by
    have : D ++ p :: R = (D ++ [p]) ++ R := by simp
    rw [this, ← List.length_append, List.drop_left]
  have hRe : R.isEmpty = false := by
    cases R with
    | nil => cases hx
    | cons c R => rfl
  simp only [e1, e2, hRe, Bool.not_false, if_true]
  congr 1
  congr 1
  · rcases hD with rfl | hD
    · rfl
    · have hc := capture_digits (U := U) hD [] (by simp)
      rw [List.append_nil] at hc
      have hDe : D.isEmpty = false := by
        cases D with
        | nil => exact absurd rfl hD.1
        | cons c D => rfl
      rw [hDe, hc, if_pos (by simp), if_neg (by simp), numerals_digits h.ascii hD]
  · rcases hp with rfl | rfl | rfl | rfl
    · rfl
    · unfold sepToken shouldCapture
      rw [if_pos rfl, if_neg]
      simp only [List.any_cons, List.any_nil, h.ascii.isLetter ',' (by decide)]
      decide
    · rfl
    · rfl

theorem capture_word {U : Uni} {L : Lang} {w : List Char} (h : CutsWord U L w) (hn : ∃ c ∈ w, U.isLetter c = true) : shouldCapture U w false = true := by
  unfold shouldCapture
  have h1 : w.contains '\n' = false := by
    rw [Bool.eq_false_iff]
    intro hc
    rw [List.contains_iff_mem] at hc
    exact (lett_ne (h.letters _ hc)).2.2.2.2.1 rfl
  have h2 : (w.any fun c => c.isAlphanum || U.isLetter c) = true := by
    rw [List.any_eq_true]
    obtain ⟨c, hc, hl⟩ := hn
    exact ⟨c, hc, by simp [hl]⟩
  rw [h1, h2]; simp

theorem split_word {U : Uni} {L : Lang} {w : List Char} (h : CutsWord U L w) (hn : ∃ c ∈ w, U.isLetter c = true) {A D B : List Char}
    (hD : D = [] ∨ IsNumeral D) (hA : (A = [] ∧ D = []) ∨ A = D ++ [' '])
    (hB : ∀ c ∈ B, dateChar c = true) (hBh : ∀ c, B.head? = some c → c = ' ') (n : Nat) :
    splitByKnownFuel U L false (n + 1) (A ++ w ++ B) =
      (if D.isEmpty then [] else [D]) ++ (if A.isEmpty then [] else [[' ']]) ++ [w] ++ (if B.isEmpty then [] else splitByKnownFuel U L false n B) := by
  have hDd : ∀ c ∈ D, c.isDigit = true := by
    rcases hD with rfl | hD
    · simp
    · exact hD.2
  rw [splitByKnownFuel, find_word h hDd (by rcases hA with h | h; exact Or.inl h.1; exact Or.inr h) hB hBh]
  have e1 : (A ++ w ++ B).take A.length = A := by rw [List.append_assoc, List.take_left]
  have e2 : (A ++ w ++ B).drop (A.length + w.length) = B := by rw [← List.length_append, List.drop_left]
  simp only [e1, e2, capture_word h hn, if_true]
  congr 1
  · congr 1
    rcases hA with ⟨rfl, rfl⟩ | rfl
    · rfl
    · have hne : (D ++ [' ']).isEmpty = false := by cases D <;> rfl
      have hcap : shouldCapture U (D ++ [' ']) false = true := by
        rcases hD with rfl | hD
        · rfl
        · exact capture_digits hD _ (by simp)
      rw [hne, hcap, numerals_space h.ascii hD]
      rfl
  · cases B <;> rfl

end Verif.Lemmas
