import Verif.Lemmas.WordPass
/-!
Helper lemmas: dates with a month name up to the individual parsers.
-/
set_option autoImplicit false
namespace Verif.Lemmas
open Verif.Go Verif.Model Verif.Data Verif.Spec Verif.Props

/-! ## Texts as written -/

theorem form_chars (f : WordForm) {D W Y Z Zo : List Char} {ts : List (List Char)} (hD : IsNumeral D) (hY : IsNumeral Y) (hZ : IsTail Z Zo ts) : ∀ c ∈ f.write D W Y ++ Z, dateChar c = true ∨ c ∈ W := by
  intro c hc
  rw [form_eq_tail] at hc
  rcases List.mem_append.mp hc with hc | hc
  · rcases List.mem_append.mp hc with hc | hc
    · exact Or.inl ((form_before f hD hY).1 c hc)
    · exact Or.inr hc
  · exact Or.inl ((after_chars f hD hY hZ).1 c hc)

/-- A character that is only in one place. -/
theorem one_place {p : Char} {A B a r : List Char} (hA : p ∉ A) (hB : p ∉ B) (h : A ++ p :: B = a ++ p :: r) : a = A ∧ r = B := by
  induction A generalizing a with
  | nil =>
    cases a with
    | nil => simp at h; exact ⟨rfl, h.symm⟩
    | cons x a =>
      simp only [List.nil_append, List.cons_append, List.cons.injEq] at h
      exact absurd (by rw [h.2]; simp) hB
  | cons x A ih =>
    cases a with
    | nil =>
      simp only [List.nil_append, List.cons_append, List.cons.injEq] at h
      exact absurd (by rw [h.1]; simp) hA
    | cons x' a =>
      simp only [List.cons_append, List.cons.injEq] at h
      obtain ⟨e1, e2⟩ := ih (fun hm => hA (by simp [hm])) h.2
      exact ⟨by rw [e1, h.1], e2⟩

theorem numeral_ne {D : List Char} (h : IsNumeral D) {p : Char} (hp : p.isDigit = false) : p ∉ D := by
  intro hm
  have := h.2 p hm
  rw [hp] at this; cases this

theorem IsTail.dots {Z Zo : List Char} {ts : List (List Char)} (h : IsTail Z Zo ts) : '.' ∉ Z := by
  have hl : ∀ c, '.' ∉ lead c := by decide
  have hn : ∀ {N : List Char}, IsNumeral N → '.' ∉ N := fun hN => numeral_ne hN (by decide)
  cases h with
  | nil => simp
  | hm c h m hh hm => simp [hl, hn hh, hn hm]
  | hms c h m s hh hm hs => simp [hl, hn hh, hn hm, hn hs]

theorem IsTail.colons {Z Zo : List Char} {ts : List (List Char)} (h : IsTail Z Zo ts) : colonOk Z = true := by
  have hl : ∀ c, ':' ∉ lead c := by decide
  have hn : ∀ {N : List Char}, IsNumeral N → ':' ∉ N := fun hN => numeral_ne hN (by decide)
  have key : ∀ {N R : List Char}, IsNumeral N → colonOk (':' :: (N ++ R)) = colonOk R := by
    intro N R hN
    rw [show colonOk (':' :: (N ++ R)) = ((':' != ':' || (N ++ R).head?.any Char.isDigit) && colonOk (N ++ R)) from rfl, colon_append (hn hN)]
    cases hc : N with
    | nil => exact absurd hc hN.1
    | cons c N' => simp [hN.2 c (by rw [hc]; simp)]
  have last : ∀ {N : List Char}, IsNumeral N → colonOk (':' :: N) = true := by
    intro N hN
    have := key (R := []) hN
    rw [List.append_nil] at this
    rw [this]; rfl
  cases h with
  | nil => rfl
  | hm c h m hh hm => rw [colon_append (hl c), colon_append (hn hh), last hm]
  | hms c h m s hh hm hs => rw [colon_append (hl c), colon_append (hn hh), key hm, last hs]

theorem form_clean {U : Uni} (hU : AsciiUni U) (f : WordForm) {D W Y Z Zo : List Char} {ts : List (List Char)} (hD : IsNumeral D) (hY : IsNumeral Y) (hZ : IsTail Z Zo ts) (hne : W ≠ [])
    (hW : ∀ c ∈ W, RawChar U c) : CleanText U (f.write D W Y ++ Z) := by
  have hWs : ∀ c ∈ W, isSpace c = false := fun c hc => (hW c hc).space
  have hWp : ∀ p : Char, p.toNat < 128 → p.isAlpha = false → p ∉ W := fun p h1 h2 hm => wordChar_ne hU (hW p hm).toWordChar h1 h2 rfl
  have hWdot := hWp '.' (by decide) (by decide)
  have hWcom := hWp ',' (by decide) (by decide)
  have hWcol := hWp ':' (by decide) (by decide)
  have dD := numeral_ne hD (p := '.') (by decide)
  have dY := numeral_ne hY (p := '.') (by decide)
  have cD := numeral_ne hD (p := ',') (by decide)
  have cY := numeral_ne hY (p := ',') (by decide)
  have oD := numeral_ne hD (p := ':') (by decide)
  have oY := numeral_ne hY (p := ':') (by decide)
  have dZ := hZ.dots
  have hdot : ∀ a r, f.write D W Y ++ Z = a ++ '.' :: r → a = D ∧ r = ' ' :: (W ++ ' ' :: (Y ++ Z)) := by
    intro a r e
    cases f
    case dotted =>
      have e' : D ++ '.' :: (' ' :: (W ++ ' ' :: (Y ++ Z))) = a ++ '.' :: r := by rw [← e]; simp [WordForm.write]
      obtain ⟨e1, e2⟩ := one_place dD (by
        simp only [List.mem_cons, List.mem_append]
        rintro (h | h | h | h | h)
        · cases h
        · exact hWdot h
        · cases h
        · exact dY h
        · exact dZ h) e'
      exact ⟨e1, e2⟩
    all_goals
      exfalso
      have hm : '.' ∈ a ++ '.' :: r := by simp
      rw [← e] at hm
      simp [WordForm.write, hWdot, dD, dY, dZ] at hm
  refine ⟨fun c hc => ?_, fun a x r e => ?_, fun a r e => ?_, fun a r e => ?_, ?_, form_tidy f hD hY hne hWs hZ⟩
  · rcases form_chars f hD hY hZ c hc with h | h
    · exact Or.inl h
    · exact Or.inr (hW c h)
  · obtain ⟨e1, _⟩ := hdot (a ++ [x]) r (by rw [e]; simp)
    exact hD.2 x (by rw [← e1]; simp)
  · obtain ⟨_, e2⟩ := hdot a r e
    cases W with
    | nil => exact absurd rfl hne
    | cons z W => exact ⟨z, W ++ ' ' :: (Y ++ Z), by rw [e2]; rfl, (hW z (by simp)).number⟩
  · -- commas come after the word
    rw [form_eq_tail] at e
    have hno : ',' ∉ f.before D Y ++ W := by cases f <;> simp [WordForm.before, hWcom, cD, cY]
    have hall := (after_chars f hD hY hZ).1
    rw [List.append_eq_append_iff] at e
    rcases e with ⟨a', _, h2⟩ | ⟨c', h1, h2⟩
    · intro c hc
      exact hall c (by rw [h2]; simp [hc])
    · cases c' with
      | nil =>
        intro c hc
        exact hall c (by rw [show f.after D Y ++ Z = ',' :: r from h2.symm]; simp [hc])
      | cons x c' =>
        exfalso
        simp only [List.cons_append, List.cons.injEq] at h2
        exact hno (by rw [h1, ← h2.1]; simp)
  · rw [colon_append (by cases f <;> simp [WordForm.write, hWcol, oD, oY])]
    exact hZ.colons

theorem get_after {A : List Char} {c : Char} {B : List Char} : (A ++ c :: B)[A.length]? = some c := by simp

theorem form_stamp {U : Uni} (f : WordForm) {D W Y : List Char} (Z : List Char) (hD : IsNumeral D) (hY : IsNumeral Y) (lD : D.length < 10) (lY : Y.length < 10) (hne : W ≠ [])
    (hU : AsciiUni U) (hW : ∀ c ∈ W, RawChar U c) : rxTimestamp.matches (f.write D W Y ++ Z) = false := by
  have early : ∀ {T : List Char} {i : Nat} {c : Char}, i < 10 → T[i]? = some c → c.isDigit = false → rxTimestamp.matches (T ++ Z) = false := by
    intro T i c hi hc hd
    refine word_stamp hi ?_ hd
    obtain ⟨hl, _⟩ := List.getElem?_eq_some_iff.mp hc
    rw [List.getElem?_append_left hl]; exact hc
  cases f
  · exact early lD get_after (by decide)
  · exact early lD get_after (by decide)
  all_goals
    first
    | exact early lY get_after (by decide)
    | (cases W with
       | nil => exact absurd rfl hne
       | cons z W =>
        refine early (i := 0) (c := z) (by decide) rfl ?_
        cases hz : z.isDigit with
        | false => rfl
        | true =>
          have hr := digit_range hz
          have h1 := (hW z (by simp)).digit
          rw [hU.isDigit z (by omega), hz] at h1
          cases h1)

/-! ## Normalised -/

theorem form_plain_chars {A : List Char} (h : ∀ c ∈ A, dateChar c = true) : ∀ c ∈ A, c.toNat < 128 ∧ c.isAlpha = false := by
  intro c hc
  have h := h c hc
  simp only [dateChar, Bool.or_eq_true, Bool.and_eq_true, decide_eq_true_eq, beq_iff_eq] at h
  refine ⟨by omega, ?_⟩
  cases ha : c.isAlpha with
  | false => rfl
  | true =>
    exfalso
    have key : ∀ n < 59, (Char.ofNat n).isAlpha = false := by decide +kernel
    have := key c.toNat (by omega)
    rw [Char.ofNat_toNat, ha] at this
    cases this

theorem date_ascii {c : Char} (h : dateChar c = true) : c.toNat < 128 := by
  simp only [dateChar, Bool.or_eq_true, Bool.and_eq_true, decide_eq_true_eq, beq_iff_eq] at h
  omega

theorem form_normal {U : Uni} {W w : List Char} (h : ReadAs U W w) (f : WordForm) {D Y Z Zo : List Char} {ts : List (List Char)} (hD : IsNumeral D) (hY : IsNumeral Y) (hZ : IsTail Z Zo ts)
    (hne : w ≠ []) (hw : ∀ c ∈ w, WordChar U c) : U.normalizeString (f.write D W Y ++ Z) = f.write D w Y ++ Z := by
  unfold Uni.normalizeString
  rw [form_eq_tail, h (f.before D Y) (f.after D Y ++ Z) (by
    intro c hc
    rcases List.mem_append.mp hc with hc | hc
    · exact form_plain_chars (form_before f hD hY).1 c hc
    · exact form_plain_chars (after_chars f hD hY hZ).1 c hc), ← form_eq_tail]
  exact tidy_spaces (form_tidy f hD hY hne (fun c hc => (hw c hc).space) hZ)

theorem form_token {U : Uni} (hU : AsciiUni U) {W w : List Char} (h : ReadAs U W w) (f : WordForm) {D Y Z Zo : List Char} {ts : List (List Char)} (hD : IsNumeral D) (hY : IsNumeral Y)
    (hZ : IsTail Z Zo ts) (hne : w ≠ []) (hw : ∀ c ∈ w, WordChar U c) : normalizeToken U (f.write D W Y ++ Z) = f.write D w Y ++ Z := by
  unfold normalizeToken
  rw [form_normal h f hD hY hZ hne hw]
  refine digits_word hU fun c hc => ?_
  rcases form_chars f hD hY hZ c hc with h | h
  · exact Or.inl (date_ascii h)
  · exact Or.inr (hw c h).digit

/-! ## Cut and translated -/

theorem simplify_same {U : Uni} {d : LangData} {T w : List Char} (hF : Framed w T) (hw : WordOk d w) (hl : WordLetters U w) : simplify (d.lang U) T = T := by
  unfold simplify
  show List.foldl _ T (d.simplifications.map fun x => (x.1.toRx U, x.2)) = T
  have : ∀ l : List (Pat × List Tmpl), (∀ x ∈ l, cannot w x.1 = true) →
      (l.map fun x => (x.1.toRx U, x.2)).foldl (fun s d => if d.1.matches s then replaceAllTmpl d.1 d.2 s else s) T = T := by
    intro l
    induction l with
    | nil => intro _; rfl
    | cons x l ih =>
      intro h
      rw [List.map_cons, List.foldl_cons]
      simp only
      rw [cannot_matches hF hl (h x (by simp)), if_neg (by simp)]
      exact ih fun y hy => h y (by simp [hy])
  exact this _ hw.simplifications

theorem containsStr_mem {c : Char} {k : List Char} : ∀ {s : List Char}, c ∉ s → containsStr (c :: k) s = false
  | [], _ => by simp [containsStr]
  | x :: s, h => by
    have hx : (c == x) = false := by
      rw [beq_eq_false_iff_ne]; rintro rfl; exact h (by simp)
    simp only [containsStr, Bool.or_eq_false_iff, List.isPrefixOf, hx, Bool.false_and, true_and]
    exact containsStr_mem fun hm => h (by simp [hm])

theorem split_raw {U : Uni} {d : LangData} {w : List Char} (hw : WordOk d w) (hl : WordLetters U w) {T : List Char} (hF : Framed w T)
    (hbar : '|' ∉ T) : splitRaw U (d.lang U) T false = splitByKnown U (d.lang U) false T := by
  unfold splitRaw
  have e1 : (match (d.lang U).rxCombined with
    | some (rx, k) => splitWithRegex rx k T
    | none => T) = T := by
    show (match d.rxCombined.map fun x => (x.1.toRx U, x.2) with
      | some (rx, k) => splitWithRegex rx k T
      | none => T) = T
    cases hr : d.rxCombined with
    | none => rfl
    | some x =>
      simp only [Option.map_some]
      unfold splitWithRegex
      rw [splitWithRegexFuel]
      have : (x.1.toRx U).findFirst T = none := cannot_find hF hl (hw.combined x hr)
      rw [this]
  have e2 : splitStr splitSeparator T = [T] := splitGo_absent (acc := []) (containsStr_mem hbar)
  have e3 : ((d.lang U).rxExact.map (·.matches T)).getD false = false := by
    show ((d.rxExact.map (·.toRx U)).map (·.matches T)).getD false = false
    cases hr : d.rxExact with
    | none => rfl
    | some x =>
      simp only [Option.map_some, Option.getD_some]
      exact cannot_matches hF hl (hw.exactly x hr)
  have key : ∀ str, str = T → ((splitStr splitSeparator str).flatMap fun token =>
      if ((d.lang U).rxExact.map (·.matches token)).getD false then [token] else splitByKnown U (d.lang U) false token) = splitByKnown U (d.lang U) false T := by
    rintro str rfl
    rw [e2]; simp [e3]
  exact key _ e1

theorem trim_id {t : List Char} (h : t.head?.all (fun c => !isSpace c) = true) (h' : t.getLast?.all (fun c => !isSpace c) = true) : trimSpace t = t := by
  cases t with
  | nil => rfl
  | cons a r =>
    have h1 : isSpace a = false := by simpa using h
    unfold trimSpace
    have : (a :: r).dropWhile isSpace = a :: r := by simp [h1]
    rw [this]
    cases hr : (a :: r).reverse with
    | nil => simp at hr
    | cons b q =>
      have hb : (a :: r).getLast? = some b := by
        rw [← List.head?_reverse, hr]; rfl
      rw [hb] at h'
      have h2 : isSpace b = false := by simpa using h'
      have : (b :: q).dropWhile isSpace = b :: q := by simp [h2]
      rw [this, ← hr, List.reverse_reverse]

theorem trim_word {t : List Char} (h : ∀ c ∈ t, isSpace c = false) : trimSpace t = t :=
  trim_id (by cases hh : t.head? with
    | none => rfl
    | some c => simpa using h c (List.mem_of_head? hh)) (by cases hh : t.getLast? with
    | none => rfl
    | some c => simpa using h c (List.mem_of_getLast? hh))

/-- A token of such a text. -/
inductive IsToken (w : List Char) : List Char → Prop
  | num {N : List Char} (hN : IsNumeral N) : IsToken w N
  | word : IsToken w w
  | space : IsToken w [' ']
  | dot : IsToken w ['.']
  | colon : IsToken w [':']

theorem form_isToken (f : WordForm) {D w Y t Z Zo : List Char} {ts : List (List Char)} (hD : IsNumeral D) (hY : IsNumeral Y) (hZ : IsTail Z Zo ts) (h : t ∈ f.tokens D w Y ++ ts) : IsToken w t := by
  rcases List.mem_append.mp h with h | h
  · cases f <;> simp only [WordForm.tokens, List.mem_cons, List.not_mem_nil, or_false] at h
    all_goals
      first
      | (rcases h with rfl | rfl | rfl | rfl | rfl <;> first | exact .word | exact .space | exact .dot | exact .num hD | exact .num hY)
      | (rcases h with rfl | rfl | rfl | rfl | rfl | rfl <;> first | exact .word | exact .space | exact .dot | exact .num hD | exact .num hY)
  · cases hZ with
    | nil => cases h
    | hm c h' m hh hm =>
      simp only [List.mem_cons, List.not_mem_nil, or_false] at h
      rcases h with rfl | rfl | rfl | rfl <;> first | exact .space | exact .colon | exact .num hh | exact .num hm
    | hms c h' m s hh hm hs =>
      simp only [List.mem_cons, List.not_mem_nil, or_false] at h
      rcases h with rfl | rfl | rfl | rfl | rfl | rfl <;> first | exact .space | exact .colon | exact .num hh | exact .num hm | exact .num hs

theorem skip_t {L : Lang} {x : List Char} (h : x ∈ mapSkippedTokens [['t']] L) : x = ['t'] := by
  unfold mapSkippedTokens at h
  split at h
  · rw [List.mem_filter] at h; simpa using h.1
  · simpa using h

theorem token_kept {w t : List Char} (hn : w ≠ []) (hs : ∀ c ∈ w, isSpace c = false) (ht : w ≠ ['t']) (h : IsToken w t) :
    t ≠ [] ∧ t ≠ ['t'] ∧ trimSpace t ≠ ['t'] := by
  have key : ∀ N, IsNumeral N → N ≠ ['t'] := by
    rintro N hN rfl
    exact absurd (hN.2 't' (by simp)) (by decide)
  cases h with
  | num hD => exact ⟨hD.1, key _ hD, by rw [trim_word (numeral_noSpace hD)]; exact key _ hD⟩
  | word => exact ⟨hn, ht, by rw [trim_word hs]; exact ht⟩
  | space => decide
  | dot => decide
  | colon => decide

theorem lookup_none {β : Type} {l : List (List Char × β)} {w : List Char} (h : ∀ x ∈ l, x.1 ≠ w) : l.lookup w = none := by
  induction l with
  | nil => rfl
  | cons x l ih =>
    have h1 : (w == x.1) = false := by
      rw [beq_eq_false_iff_ne]; exact fun e => h x (by simp) e.symm
    rw [List.lookup, h1]
    exact ih fun y hy => h y (by simp [hy])

/-- How a token is translated. -/
def wordOut (w m t : List Char) : List Char := if t = w then m else t

theorem token_translate {U : Uni} {d : LangData} {w m : List Char} (hd : LangOk d) (hw : WordOk d w) (hl : WordLetters U w) (hm : d.translations.lookup w = some [m])
    {t : List Char} (h : IsToken w t) :
    translateToken (d.lang U) (mapSkippedTokens [['t']] (d.lang U)) false t = [wordOut w m t] := by
  have hns : ∀ N : List Char, (∀ c ∈ N, dateChar c = true) → N ≠ [] → N ≠ w := by
    rintro N hN hne rfl
    obtain ⟨x, hx⟩ := List.exists_mem_of_ne_nil _ hne
    have h1 := date_not_lett (hN x hx)
    rw [hw.letters x hx] at h1
    cases h1
  have hF : Framed w t := by
    have e : w = [] ++ w ++ [] := by simp
    cases h with
    | num hD => exact framed_plain (numeral_date hD)
    | word => rw [e]; exact e ▸ framed_word (A := []) (B := []) hw.letters (by simp) (by simp)
    | space => exact framed_plain (by decide)
    | dot => exact framed_plain (by decide)
    | colon => exact framed_plain (by decide)
  unfold translateToken
  rw [if_neg (by
    rw [List.contains_iff_mem]
    intro hs
    exact (token_kept hw.nonempty hw.noSpace hw.notT h).2.1 (skip_t hs))]
  have e1 : (d.lang U).relativeRegexes.find? (·.1.matches t) = none := by
    rw [List.find?_eq_none]
    intro x hx
    have hx : x ∈ d.relativeRegexes.map fun x => (x.1.toRx U, x.2) := hx
    obtain ⟨y, hy, rfl⟩ := List.mem_map.mp hx
    simp only
    rw [cannot_matches hF hl (hw.regexes y hy)]
    simp
  rw [e1]
  have hnum : ∀ N, IsNumeral N → (d.lang U).translateWord N = none := by
    intro N hN
    have hall : N.all Char.isDigit = true := List.all_eq_true.mpr hN.2
    unfold Lang.translateWord
    have r1 : (d.lang U).relativeType.lookup N = none := lookup_none (l := d.relativeType) fun x hx e => by
      have := (hd.relDigits x hx).1
      rw [e, hall] at this; cases this
    rw [r1]
    exact lookup_none (l := d.translations) fun x hx e => by
      have := hd.digits x hx
      rw [e, hall] at this; cases this
  cases h with
  | num hD => rw [hnum _ hD]; simp only [wordOut]; rw [if_neg (hns _ (numeral_date hD) hD.1)]
  | word =>
    have e : (d.lang U).translateWord w = some [m] := by
      unfold Lang.translateWord
      have r1 : (d.lang U).relativeType.lookup w = none := lookup_none (l := d.relativeType) hw.relative
      rw [r1]; exact hm
    rw [e]; simp [wordOut]
  | space =>
    have e : (d.lang U).translateWord [' '] = some [[' ']] := by
      unfold Lang.translateWord
      have r1 : (d.lang U).relativeType.lookup [' '] = none := lookup_none (l := d.relativeType) fun x hx => (hd.relDigits x hx).2.1
      rw [r1]; exact hd.space
    rw [e]; simp only [wordOut]; rw [if_neg (hns _ (by decide) (by decide))]; rfl
  | dot =>
    have e : (d.lang U).translateWord ['.'] = some [['.']] := by
      unfold Lang.translateWord
      have r1 : (d.lang U).relativeType.lookup ['.'] = none := lookup_none (l := d.relativeType) fun x hx => (hd.relDigits x hx).2.2.1
      rw [r1]; exact hd.dot
    rw [e]; simp only [wordOut]; rw [if_neg (hns _ (by decide) (by decide))]; rfl
  | colon =>
    have e : (d.lang U).translateWord [':'] = some [[':']] := by
      unfold Lang.translateWord
      have r1 : (d.lang U).relativeType.lookup [':'] = none := lookup_none (l := d.relativeType) fun x hx => (hd.relDigits x hx).2.2.2
      rw [r1]; exact hd.colon
    rw [e]; simp only [wordOut]; rw [if_neg (hns _ (by decide) (by decide))]; rfl

theorem combinations_single {T : Type} : ∀ (l : List T), combinations (l.map fun x => [x]) = [l]
  | [] => rfl
  | x :: l => by simp [combinations, combinations_single l]

theorem kept_digits {N : List Char} (h : IsNumeral N) : alwaysKept N = false := by
  cases hk : alwaysKept N with
  | false => rfl
  | true =>
    exfalso
    unfold alwaysKept at hk
    rw [List.contains_iff_mem] at hk
    simp only [List.mem_cons, List.not_mem_nil, or_false] at hk
    have := h.2
    rcases hk with rfl | rfl | rfl | rfl | rfl | rfl <;> exact absurd (this _ (List.mem_singleton.mpr rfl)) (by decide)

/-- Joined again. -/
theorem form_join (f : WordForm) {D m Y w Z Zo : List Char} {ts : List (List Char)} (hD : IsNumeral D) (hY : IsNumeral Y) (hZ : IsTail Z Zo ts)
    (hw : ∀ N, IsNumeral N → N ≠ w) (h2 : [' '] ≠ w) (h3 : ['.'] ≠ w) (h4 : [':'] ≠ w)
    (hm : m ≠ []) (hms : ∀ c ∈ m, isSpace c = false) (hin : m ≠ ['i', 'n']) (hmk : alwaysKept m = false) :
    finishTokens false ((f.tokens D w Y ++ ts).map (wordOut w m)) = f.writeOut D m Y ++ Zo := by
  have eN : ∀ N, IsNumeral N → wordOut w m N = N := fun N hN => if_neg (hw N hN)
  have ew : wordOut w m w = m := if_pos rfl
  have es : wordOut w m [' '] = [' '] := if_neg h2
  have ed : wordOut w m ['.'] = ['.'] := if_neg h3
  have ec : wordOut w m [':'] = [':'] := if_neg h4
  have nN : ∀ N, IsNumeral N → N ≠ ['i', 'n'] := by
    rintro N hN rfl; exact absurd (hN.2 'i' (by simp)) (by decide)
  have bN : ∀ N, IsNumeral N → N.isEmpty = false := fun N hN => numeral_ne_empty hN
  have bm : m.isEmpty = false := by cases m with
    | nil => exact absurd rfl hm
    | cons => rfl
  have bs : ([' '] : List Char).isEmpty = false := rfl
  have bd : (['.'] : List Char).isEmpty = false := rfl
  have bc : ([':'] : List Char).isEmpty = false := rfl
  have kN : ∀ N, IsNumeral N → alwaysKept N = false := fun N hN => kept_digits hN
  have ks : alwaysKept [' '] = true := by decide
  have kd : alwaysKept ['.'] = true := by decide
  have kc : alwaysKept [':'] = true := by decide
  unfold finishTokens
  have hno : ((f.tokens D w Y ++ ts).map (wordOut w m)).contains ['i', 'n'] = false := by
    cases hh : ((f.tokens D w Y ++ ts).map (wordOut w m)).contains ['i', 'n'] with
    | false => rfl
    | true =>
      exfalso
      rw [List.contains_iff_mem] at hh
      obtain ⟨t, ht, e⟩ := List.mem_map.mp hh
      have := form_isToken f hD hY hZ ht
      cases this with
      | num hN => rw [eN _ hN] at e; exact nN _ hN e
      | word => rw [ew] at e; exact hin e
      | space => rw [es] at e; cases e
      | dot => rw [ed] at e; cases e
      | colon => rw [ec] at e; cases e
  rw [hno]
  have htr : trimSpace (f.writeOut D m Y ++ Zo) = f.writeOut D m Y ++ Zo := by
    have := form_tidy f hD hY hm hms hZ.out
    cases f
    case comma =>
      have := form_tidy .plain hD hY hm hms hZ.out
      exact tidy_trim this
    all_goals exact tidy_trim this
  have eD := eN D hD
  have eY := eN Y hY
  have bD := bN D hD
  have bY := bN Y hY
  have kD := kN D hD
  have kY := kN Y hY
  cases hZ with
  | nil =>
    cases f
    all_goals
      simp only [WordForm.tokens, List.append_nil, List.map_cons, List.map_nil, eD, eY, ew, es, ed, Bool.false_eq_true, if_false, List.filter, bD, bY, bm, Bool.not_false, joinTokens, joinLoop, kD, kY, ks, kd, hmk, bs, bd]
    all_goals
      simp only [WordForm.writeOut, WordForm.write] at htr ⊢
      simpa using htr
  | hm c h n hh hn =>
    have e1 := eN h hh; have e2 := eN n hn
    have b1 := bN h hh; have b2 := bN n hn
    have k1 := kN h hh; have k2 := kN n hn
    cases f
    all_goals
      simp only [WordForm.tokens, List.cons_append, List.nil_append, List.map_cons, List.map_nil, eD, eY, e1, e2, ew, es, ed, ec, Bool.false_eq_true, if_false, List.filter, bD, bY, b1, b2, bm, Bool.not_false, joinTokens, joinLoop, kD, kY, k1, k2, ks, kd, kc, hmk, bs, bd, bc]
    all_goals
      simp only [WordForm.writeOut, WordForm.write] at htr ⊢
      simpa using htr
  | hms c h n s hh hn hs =>
    have e1 := eN h hh; have e2 := eN n hn; have e3 := eN s hs
    have b1 := bN h hh; have b2 := bN n hn; have b3 := bN s hs
    have k1 := kN h hh; have k2 := kN n hn; have k3 := kN s hs
    cases f
    all_goals
      simp only [WordForm.tokens, List.cons_append, List.nil_append, List.map_cons, List.map_nil, eD, eY, e1, e2, e3, ew, es, ed, ec, Bool.false_eq_true, if_false, List.filter, bD, bY, b1, b2, b3, bm, Bool.not_false, joinTokens, joinLoop, kD, kY, k1, k2, k3, ks, kd, kc, hmk, bs, bd, bc]
    all_goals
      simp only [WordForm.writeOut, WordForm.write] at htr ⊢
      simpa using htr

theorem form_bar (f : WordForm) {D w Y Z Zo : List Char} {ts : List (List Char)} (hD : IsNumeral D) (hY : IsNumeral Y) (hZ : IsTail Z Zo ts) (hw : ∀ c ∈ w, lett c = true) : '|' ∉ f.write D w Y ++ Z := by
  intro h
  rcases form_chars f hD hY hZ _ h with h | h
  · exact absurd h (by decide)
  · exact absurd (hw _ h) (by decide)

theorem form_split {U : Uni} (hU : AsciiUni U) {d : LangData} {w : List Char} (hd : LangOk d) (hw : WordOk d w) (hu : IsWord U w) (f : WordForm) {D Y Z Zo : List Char} {ts : List (List Char)}
    (hD : IsNumeral D) (hY : IsNumeral Y) (hZ : IsTail Z Zo ts) :
    splitText U (d.lang U) (simplify (d.lang U) (f.write D w Y ++ Z)) false (mapSkippedTokens [['t']] (d.lang U)) = f.tokens D w Y ++ ts := by
  have hl : WordLetters U w := fun c hc => (hu.chars c hc).letter
  have hF : Framed w (f.write D w Y ++ Z) := by
    rw [form_eq_tail]; exact framed_word hw.letters (form_before f hD hY).1 (after_chars f hD hY hZ).1
  rw [simplify_same hF hw hl]
  unfold splitText
  rw [split_raw hw hl hF (form_bar f hD hY hZ hw.letters), form_tokens (hd.cuts hU hw hu) hu.letter f hD hY hZ, List.filter_eq_self]
  intro t ht
  obtain ⟨h1, h2, h3⟩ := token_kept hw.nonempty hw.noSpace hw.notT (form_isToken f hD hY hZ ht)
  have e1 : t.isEmpty = false := by cases t with
    | nil => exact absurd rfl h1
    | cons => rfl
  have e2 : (mapSkippedTokens [['t']] (d.lang U)).contains (trimSpace t) = false := by
    cases hh : (mapSkippedTokens [['t']] (d.lang U)).contains (trimSpace t) with
    | false => rfl
    | true => rw [List.contains_iff_mem] at hh; exact absurd (skip_t hh) h3
  rw [e1, e2]; rfl

theorem word_reached {U : Uni} (hU : AsciiUni U) {d : LangData} {W w m : List Char} (hd : LangOk d) (hw : WordOk d w) (hu : IsWord U w) (hR : ∀ c ∈ W, RawChar U c) (hWne : W ≠ [])
    (h1 : ReadAs U W w) (h2 : ReadAs U w w) (hm : d.translations.lookup w = some [m]) (f : WordForm) {D Y Z Zo : List Char} {ts : List (List Char)} (hD : IsNumeral D) (hY : IsNumeral Y)
    (hZ : IsTail Z Zo ts) (lD : D.length < 10) (lY : Y.length < 10) (hmne : m ≠ []) (hms : ∀ c ∈ m, isSpace c = false) (hin : m ≠ ['i', 'n']) (hmk : alwaysKept m = false)
    (hb : stripBraces (f.writeOut D m Y ++ Zo) = f.writeOut D m Y ++ Zo) : Reached U (d.lang U) [['t']] (f.write D W Y ++ Z) (f.writeOut D m Y ++ Zo) := by
  have hl : WordLetters U w := fun c hc => (hu.chars c hc).letter
  have hns : ∀ N : List Char, (∀ c ∈ N, dateChar c = true) → N ≠ [] → N ≠ w := by
    rintro N hN hne rfl
    obtain ⟨x, hx⟩ := List.exists_mem_of_ne_nil _ hne
    have h1 := date_not_lett (hN x hx)
    rw [hw.letters x hx] at h1
    cases h1
  have hclean := form_clean hU f hD hY hZ hWne hR
  have hsplit := form_split hU hd hw hu f hD hY hZ
  refine ⟨sanitize_word hU hclean, form_stamp f Z hD hY lD lY hWne hU hR, word_negStamp (hclean.ne hU (by decide) (by decide) (by decide)), ?_, ?_, hb⟩
  · unfold isApplicable
    rw [form_normal h1 f hD hY hZ hw.nonempty hu.chars, form_token hU h2 f hD hY hZ hw.nonempty hu.chars]
    simp only [hsplit]
    rw [Bool.and_eq_true]
    constructor
    · rw [bne_iff_ne]
      intro e
      have hall := List.length_filter_eq_length_iff.mp e
      have hmem : D ∈ f.tokens D w Y ++ ts := by cases f <;> simp [WordForm.tokens]
      have := hall D hmem
      rw [kept_digits hD] at this; cases this
    · rw [List.all_eq_true]
      intro t ht
      have hN : ∀ N, IsNumeral N → isNumberOnly U N = true := fun N hN => List.all_eq_true.mpr fun c hc => uni_digit hU (hN.2 c hc)
      have hsome : ∀ t ts, (d.lang U).translateWord t = some ts → (d.lang U).inDictionary t = true := by
        intro t ts h
        unfold Lang.inDictionary
        rw [h]; rfl
      cases form_isToken f hD hY hZ ht with
      | num hD => rw [hN _ hD]; rfl
      | word =>
        rw [hsome w [m] (by
          unfold Lang.translateWord
          have r1 : (d.lang U).relativeType.lookup w = none := lookup_none (l := d.relativeType) hw.relative
          rw [r1]; exact hm)]
        simp
      | space =>
        rw [hsome [' '] [[' ']] (by
          unfold Lang.translateWord
          have r1 : (d.lang U).relativeType.lookup [' '] = none := lookup_none (l := d.relativeType) fun x hx => (hd.relDigits x hx).2.1
          rw [r1]; exact hd.space)]
        simp
      | dot =>
        rw [hsome ['.'] [['.']] (by
          unfold Lang.translateWord
          have r1 : (d.lang U).relativeType.lookup ['.'] = none := lookup_none (l := d.relativeType) fun x hx => (hd.relDigits x hx).2.2.1
          rw [r1]; exact hd.dot)]
        simp
      | colon =>
        rw [hsome [':'] [[':']] (by
          unfold Lang.translateWord
          have r1 : (d.lang U).relativeType.lookup [':'] = none := lookup_none (l := d.relativeType) fun x hx => (hd.relDigits x hx).2.2.2
          rw [r1]; exact hd.colon)]
        simp
  · unfold translate
    simp only
    rw [form_token hU h1 f hD hY hZ hw.nonempty hu.chars, hsplit]
    have e : (f.tokens D w Y ++ ts).map (translateToken (d.lang U) (mapSkippedTokens [['t']] (d.lang U)) false) = ((f.tokens D w Y ++ ts).map (wordOut w m)).map fun x => [x] := by
      rw [List.map_map]
      exact List.map_congr_left fun t ht => token_translate hd hw hl hm (form_isToken f hD hY hZ ht)
    rw [e, C31_all_combinations _ (by
      intro x hx
      obtain ⟨y, _, rfl⟩ := List.mem_map.mp hx
      simp), combinations_single]
    simp only [Option.map_some, List.map_cons, List.map_nil]
    rw [form_join f hD hY hZ (fun N hN => hns N (numeral_date hN) hN.1) (hns _ (by decide) (by decide)) (hns _ (by decide) (by decide)) (hns _ (by decide) (by decide)) hmne hms hin hmk]

end Verif.Lemmas
