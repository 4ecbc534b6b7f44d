import Verif.Lemmas.NoZone
import Verif.Lemmas.Parser
import Verif.Lemmas.Spaces
import Verif.Model.Whole
import Verif.Spec.Calendar
import Verif.Spec.Whole
/-!
Helper lemmas: `Parse` when the first locale applies, and which texts pass the stages before the individual parsers unchanged.
-/
set_option autoImplicit false
namespace Verif.Lemmas
open Verif.Go Verif.Model Verif.Data Verif.Spec

/-! ## The first locale -/

theorem applicableLoop_first (P : Parts) (cfg : Cfg) (strs : List (List Char)) (l : LocaleInfo) (rest : List LocaleInfo) :
    ∀ (ls : List LocaleInfo) (res : List LocaleInfo) (tr : List Name),
      ∃ r t, applicableLoop P cfg strs ls (l :: (rest ++ res)) tr = (l :: r, t) := by
  intro ls
  induction ls with
  | nil => intro res tr; exact ⟨_, _, rfl⟩
  | cons x ls ih =>
    intro res tr
    unfold applicableLoop
    split
    · exact ih res tr
    · split
      · have := ih (res ++ [x]) (x.name :: tr)
        simpa [List.append_assoc] using this
      · exact ih res tr

/-- If the first locale loaded applies and one of its parsers finds a date, that date is the result. -/
theorem parse_by_first (P : Parts) (now : Time) (s : ParserSt) (c : PCfg) (str : List Char) (formats : List (List Char))
    (htypes : s.types = []) (hv : (c.initiate now).validate = .ok ())
    (hf : (P.formatted (c.initiate now).toInternal str formats).isZero = true)
    (hprev : c.tryPrevious = false ∨ s.used = [])
    (L : List Name) (l : LocaleInfo) (rest : List LocaleInfo)
    (hL : getLocales c.locales (languagesFor P s (c.initiate now) (P.sanitize str)) c.region c.useGivenOrder false = .ok L)
    (hl : localeInfos L = l :: rest)
    (happ : P.applicable (c.initiate now).toInternal l (P.normalize (P.sanitize str)) = true)
    (dt : DateRes)
    (hdt : typeLoop P (localeCfg (c.initiate now) (c.initiate now).toInternal l) l (P.sanitize str) formats defaultTypes = some dt) :
    (parse P now s (some c) str formats).2 = .ok dt := by
  unfold parse
  rw [htypes]
  show (parseWithTypes P { s with types := defaultTypes } (c.initiate now) str formats).2 = _
  unfold parseWithTypes
  rw [hv]
  simp only [hf, Bool.not_true, Bool.false_eq_true, if_false]
  have hp : previousLocale P { s with types := defaultTypes } (c.initiate now) (c.initiate now).toInternal (P.sanitize str) = [] := by
    unfold previousLocale
    rcases hprev with h | h
    · have : (c.initiate now).tryPrevious = false := h
      rw [this]; rfl
    · split
      · show (checkPrevious P _ _ s.used).toList = []
        rw [h]; rfl
      · rfl
  have hany : (dateStrings P (P.sanitize str)).any (P.applicable (c.initiate now).toInternal l) = true := by
    unfold dateStrings
    simp only
    split <;> simp [happ]
  have hg : ∃ r, getApplicableLocales P { s with types := defaultTypes } (c.initiate now) (c.initiate now).toInternal (P.sanitize str) = .ok (l :: r) := by
    unfold getApplicableLocales
    simp only [hp]
    have : getLocales (c.initiate now).locales (languagesFor P { s with types := defaultTypes } (c.initiate now) (P.sanitize str))
        (c.initiate now).region (c.initiate now).useGivenOrder false = .ok L := hL
    rw [this]
    simp only [hl, List.map_nil]
    have e : applicableLoop P (c.initiate now).toInternal (dateStrings P (P.sanitize str)) (l :: rest) [] [] =
        applicableLoop P (c.initiate now).toInternal (dateStrings P (P.sanitize str)) rest [l] [l.name] := by
      conv => lhs; unfold applicableLoop
      simp [hany]
    rw [e]
    obtain ⟨r, t, h⟩ := applicableLoop_first P (c.initiate now).toInternal (dateStrings P (P.sanitize str)) l [] rest [] [l.name]
    simp only [List.append_nil] at h
    rw [h]
    exact ⟨_, rfl⟩
  obtain ⟨r, hr⟩ := hg
  rw [hr]
  simp only
  have hloop : localeLoop P (c.initiate now) (c.initiate now).toInternal defaultTypes (P.sanitize str) formats (l :: r) = some (dt, l) := by
    unfold localeLoop
    rw [hdt]
  rw [hloop]


/-! ## ASCII texts -/

/-- Unicode tables that know ASCII only. -/
def asciiUni : Uni where
  nfkc := id
  lower := toLower
  isDigit := Char.isDigit
  isNumber := Char.isDigit
  isLetter := Char.isAlpha
  isMark := fun _ => false

theorem asciiUni_ok : AsciiUni asciiUni :=
  ⟨fun _ _ => rfl, fun _ _ => rfl, fun _ _ => rfl, fun _ _ => rfl, fun _ _ => rfl, fun _ _ => rfl⟩

/-- The same ASCII character up to case, or two digits. -/
structure CaseRel (x y : Char) : Prop where
  left : x.toNat < 128
  right : y.toNat < 128
  same : (x.isDigit = true ∧ y.isDigit = true) ∨ (x.isDigit = false ∧ y.isDigit = false ∧ toLowerC x = toLowerC y)

/-- The same ASCII character, or two digits of which the second is one the first may stand for. -/
structure TagRel (g : Char → Char → Prop) (x y : Char) : Prop where
  left : x.toNat < 128
  same : (x.isDigit = true ∧ y.isDigit = true ∧ g x y) ∨ (x.isDigit = false ∧ y = x)

theorem TagRel.case {g : Char → Char → Prop} {x y : Char} (h : TagRel g x y) : CaseRel x y := by
  rcases h.same with ⟨h1, h2, _⟩ | ⟨h1, rfl⟩
  · exact ⟨h.left, by have := digit_range h2; omega, Or.inl ⟨h1, h2⟩⟩
  · exact ⟨h.left, h.left, Or.inr ⟨h1, h1, rfl⟩⟩

theorem TagRel.digits (g : Char → Char → Prop) : DigitRel (TagRel g) := by
  intro x y h
  rcases h.same with ⟨h1, h2, _⟩ | ⟨h1, rfl⟩
  · exact Or.inr ⟨h1, h2⟩
  · exact Or.inl ⟨rfl, h1⟩

theorem tag_self {g : Char → Char → Prop} {x : Char} (h : x.toNat < 128) (hd : x.isDigit = false) : TagRel g x x := ⟨h, Or.inr ⟨hd, rfl⟩⟩

theorem tag_word {g : Char → Char → Prop} : ∀ {w : List Char}, (w.all fun c => decide (c.toNat < 128) && !c.isDigit) = true → Rel2 (TagRel g) w w
  | [], _ => .nil
  | c :: w, h => by
    simp only [List.all_cons, Bool.and_eq_true, decide_eq_true_eq, Bool.not_eq_true'] at h
    exact .cons (tag_self h.1.1 h.1.2) (tag_word (by simpa using h.2))

theorem char_of_nat (c : Char) : Char.ofNat c.toNat = c := Char.ofNat_toNat c

/-- Classes of ASCII characters. -/
def caseClass (p : Char → Bool) : Bool :=
  (List.range 128).all fun i => p (Char.ofNat i) == p (toLowerC (Char.ofNat i)) && (!(Char.ofNat i).isDigit || p (Char.ofNat i) == p '0')

theorem CaseRel.cls {p : Char → Bool} (hp : caseClass p = true) {x y : Char} (h : CaseRel x y) : p x = p y := by
  have key : ∀ c : Char, c.toNat < 128 → p c = p (toLowerC c) ∧ (c.isDigit = true → p c = p '0') := by
    intro c hc
    simp only [caseClass, List.all_eq_true, List.mem_range, Bool.and_eq_true, Bool.or_eq_true, Bool.not_eq_true', beq_iff_eq] at hp
    have := hp c.toNat hc
    rw [char_of_nat] at this
    refine ⟨this.1, fun hd => ?_⟩
    rcases this.2 with h | h
    · rw [hd] at h; simp at h
    · exact h
  rcases h.same with ⟨h1, h2⟩ | ⟨_, _, h3⟩
  · rw [(key x h.left).2 h1, (key y h.right).2 h2]
  · rw [(key x h.left).1, (key y h.right).1, h3]

/-- Patterns with such classes only. -/
def caseRx : Rx → Bool
  | .chr p => caseClass p
  | .seq a b => caseRx a && caseRx b
  | .alt a b => caseRx a && caseRx b
  | .opt a => caseRx a
  | .star a => caseRx a
  | .grp _ a => caseRx a
  | _ => true

theorem caseRx_rel : ∀ {r : Rx}, caseRx r = true → RxRel CaseRel r r := by
  intro r
  induction r with
  | eps => intro _; exact .eps
  | chr p => intro h; exact .chr fun x y hxy => hxy.cls h
  | seq a b iha ihb => intro h; simp only [caseRx, Bool.and_eq_true] at h; exact .seq (iha h.1) (ihb h.2)
  | alt a b iha ihb => intro h; simp only [caseRx, Bool.and_eq_true] at h; exact .alt (iha h.1) (ihb h.2)
  | opt a iha => intro h; exact .opt (iha h)
  | star a iha => intro h; exact .star (iha h)
  | grp n a iha => intro h; exact .grp n (iha h)
  | bos => intro _; exact .bos
  | eos => intro _; exact .eos
  | wb => intro _; exact .wb fun x y hxy => hxy.cls (p := isWordC) (by decide +kernel)

theorem CaseRel.uni {U : Uni} (hU : AsciiUni U) : UniRel CaseRel asciiUni U where
  isDigit x y h := by rw [hU.isDigit y h.right]; exact h.cls (p := Char.isDigit) (by decide +kernel)
  isNumber x y h := by rw [hU.isNumber y h.right]; exact h.cls (p := Char.isDigit) (by decide +kernel)
  isLetter x y h := by rw [hU.isLetter y h.right]; exact h.cls (p := Char.isAlpha) (by decide +kernel)
  isMark x y h := by rw [hU.isMark y h.right]; rfl

theorem TagRel.uni {g : Char → Char → Prop} {U : Uni} (hU : AsciiUni U) : UniRel (TagRel g) asciiUni U where
  isDigit x y h := (CaseRel.uni hU).isDigit x y h.case
  isNumber x y h := (CaseRel.uni hU).isNumber x y h.case
  isLetter x y h := (CaseRel.uni hU).isLetter x y h.case
  isMark x y h := (CaseRel.uni hU).isMark x y h.case

/-! ## Tidy texts -/

/-- No white space but single spaces between other characters; `true` at the start and after a space. -/
def tidyFrom : Bool → List Char → Bool
  | sp, [] => !sp
  | sp, c :: s => if isSpace c then c == ' ' && !sp && tidyFrom true s else c != '\u00a0' && tidyFrom false s

def tidy (s : List Char) : Bool := s.isEmpty || tidyFrom true s

theorem tidy_words : ∀ (s : List Char), (tidyFrom false s = true → inWord s = s) ∧ (tidyFrom true s = true → afterSpace s = ' ' :: s) := by
  intro s
  induction s with
  | nil => simp [tidyFrom, inWord]
  | cons c s ih =>
    constructor
    · intro h
      unfold tidyFrom at h
      unfold inWord
      split at h
      · next hc =>
        simp only [Bool.and_eq_true, beq_iff_eq] at h
        rw [if_pos hc, ih.2 h.2, h.1.1]
      · next hc =>
        simp only [Bool.and_eq_true] at h
        rw [if_neg hc, ih.1 h.2]
    · intro h
      unfold tidyFrom at h
      unfold afterSpace
      split at h
      · simp at h
      · next hc =>
        simp only [Bool.and_eq_true] at h
        rw [if_neg hc, ih.1 h.2]

theorem tidy_nbsp : ∀ (s : List Char) (b : Bool), tidyFrom b s = true → ∀ c ∈ s, (c != '\u00a0') = true := by
  intro s
  induction s with
  | nil => simp
  | cons c s ih =>
    intro b h x hx
    unfold tidyFrom at h
    split at h
    · simp only [Bool.and_eq_true, beq_iff_eq] at h
      rcases List.mem_cons.mp hx with rfl | hx
      · rw [h.1.1]; decide
      · exact ih _ h.2 x hx
    · simp only [Bool.and_eq_true] at h
      rcases List.mem_cons.mp hx with rfl | hx
      · exact h.1
      · exact ih _ h.2 x hx

theorem tidy_spaces {s : List Char} (h : tidy s = true) : sanitizeSpaces s = s := by
  unfold tidy at h
  cases s with
  | nil => rfl
  | cons c s =>
    simp only [List.isEmpty_cons, Bool.false_or] at h
    unfold sanitizeSpaces
    rw [List.filter_eq_self.mpr (tidy_nbsp _ _ h)]
    unfold tidyFrom at h
    split at h
    · simp at h
    · next hc =>
      simp only [Bool.and_eq_true] at h
      rw [join_fields_word c s (by simpa using hc), (tidy_words s).1 h.2]

theorem tidy_last : ∀ (s : List Char) (b : Bool) (c : Char), tidyFrom b s = true → s.getLast? = some c → isSpace c = false := by
  intro s
  induction s with
  | nil => intro b c _ h; simp at h
  | cons x s ih =>
    intro b c h hl
    unfold tidyFrom at h
    cases s with
    | nil =>
      simp only [List.getLast?_singleton, Option.some.injEq] at hl
      subst hl
      split at h
      · simp [tidyFrom] at h
      · next hc => simpa using hc
    | cons y s =>
      rw [List.getLast?_cons_cons] at hl
      split at h
      · simp only [Bool.and_eq_true] at h
        exact ih _ c h.2 hl
      · simp only [Bool.and_eq_true] at h
        exact ih _ c h.2 hl

theorem tidy_trim {s : List Char} (h : tidy s = true) : trimSpace s = s := by
  unfold tidy at h
  cases s with
  | nil => rfl
  | cons c s =>
    simp only [List.isEmpty_cons, Bool.false_or] at h
    have hc : isSpace c = false := by
      unfold tidyFrom at h
      split at h
      · simp at h
      · next hc => simpa using hc
    have hl : ∀ x, (c :: s).getLast? = some x → isSpace x = false := fun x hx => tidy_last _ _ x h hx
    unfold trimSpace
    rw [List.dropWhile_cons_of_neg (by simp [hc])]
    rw [← List.head?_reverse] at hl
    cases e : (c :: s).reverse with
    | nil => simp at e
    | cons x r =>
      rw [List.dropWhile_cons_of_neg (by simp [hl x (by rw [e]; rfl)]), ← e, List.reverse_reverse]

theorem tidyFrom_rel {R : Char → Char → Prop} (h1 : ∀ x y, R x y → isSpace x = isSpace y) (h2 : ∀ x y, R x y → (x == ' ') = (y == ' '))
    (h3 : ∀ x y, R x y → (x != '\u00a0') = (y != '\u00a0')) {s t : List Char} (h : Rel2 R s t) : ∀ b, tidyFrom b s = tidyFrom b t := by
  induction h with
  | nil => intro b; rfl
  | cons hxy _ ih =>
    intro b
    unfold tidyFrom
    rw [h1 _ _ hxy, h2 _ _ hxy, h3 _ _ hxy, ih, ih]

theorem tidy_rel {s t : List Char} (h : Rel2 CaseRel s t) : tidy s = tidy t := by
  unfold tidy
  rw [h.isEmpty, tidyFrom_rel (R := CaseRel) (fun x y hxy => hxy.cls (p := isSpace) (by decide +kernel))
    (fun x y hxy => hxy.cls (p := (· == ' ')) (by decide +kernel)) (fun x y hxy => hxy.cls (p := (· != '\u00a0')) (by decide +kernel)) h]

/-! ## `SanitizeDate` -/

/-- What `SanitizeDate` leaves alone. -/
def cleanDate (U : Uni) (s : List Char) : Bool :=
  tidy s && !rxSanitizeSkip.matches s && !(rxSanitizeRussian U).matches s && !(rxSanitizeCroatian U).matches s && !(rxSanitizePeriod U).matches s &&
    !rxOn.matches s && !(s.getLast?.any (· == ':'))

theorem replaceAll_none {r : Rx} {t : List Tmpl} {s : List Char} (h : r.matches s = false) : replaceAllTmpl r t s = s := by
  unfold replaceAllTmpl
  have : r.findAll s = ([], s) := by
    unfold Rx.matches at h
    have h : r.find none s = none := by simpa using h
    unfold Rx.findAll
    show r.findAllFuel (s.length + 1) none s = _
    unfold Rx.findAllFuel
    rw [h]
  rw [this]; rfl

theorem sanitize_clean {U : Uni} {s : List Char} (h : cleanDate U s = true) (ha : ∀ c ∈ s, c.toNat < 128) : sanitizeDate U s = s := by
  simp only [cleanDate, Bool.and_eq_true, Bool.not_eq_true'] at h
  obtain ⟨⟨⟨⟨⟨⟨h0, h1⟩, h2⟩, h3⟩, h4⟩, h5⟩, h6⟩ := h
  unfold sanitizeDate
  simp only [replaceAll_none h1, replaceAll_none h2, replaceAll_none h3, tidy_spaces h0, replaceAll_none h4]
  have e1 : cutOn s = s := by
    unfold cutOn
    have : rxOn.findFirst s = none := by
      unfold Rx.matches at h5; unfold Rx.findFirst; simpa using h5
    rw [this]
  have e2 : trimColon s = s := by
    unfold trimColon
    rw [if_neg]
    intro hh
    rw [hh] at h6; simp at h6
  have e3 : normalizeApostrophe s = s := by
    unfold normalizeApostrophe
    rw [List.map_eq_iff.mpr]
    intro i
    cases e : s[i]? with
    | none => rfl
    | some c =>
      have hc := ha c (List.mem_of_getElem? e)
      simp only [Option.map_some]
      rw [if_neg]
      intro hm
      simp only [List.contains_eq_mem, List.mem_cons, List.not_mem_nil, or_false, decide_eq_true_eq] at hm
      rcases hm with rfl | rfl | rfl | rfl | rfl | rfl | rfl | rfl | rfl <;> revert hc <;> decide
  rw [e1, e2, e3, tidy_trim h0]

theorem clean_rel {U : Uni} (hU : AsciiUni U) {s t : List Char} (h : Rel2 CaseRel s t) : cleanDate asciiUni s = cleanDate U t := by
  have hn : ∀ x y, CaseRel x y → asciiUni.isNumber x = U.isNumber y := (CaseRel.uni hU).isNumber
  have hl : ∀ x y, CaseRel x y → asciiUni.isLetter x = U.isLetter y := (CaseRel.uni hU).isLetter
  have r2 : RxRel CaseRel (rxSanitizeRussian asciiUni) (rxSanitizeRussian U) := by
    refine .seq (.grp 1 (.chr fun x y hxy => ?_)) (.seq (.chr fun x y hxy => ?_) (.seq (.chr fun x y hxy => ?_) .eps))
    · rw [hl _ _ hxy, hn _ _ hxy]
    · exact hxy.cls (p := ['\u0433', '\u0413'].contains) (by decide +kernel)
    · exact hxy.cls (p := (· == '.')) (by decide +kernel)
  have dot : ∀ x y, CaseRel x y → (x == '.') = (y == '.') := fun x y hxy => hxy.cls (p := (· == '.')) (by decide +kernel)
  have sp : ∀ x y, CaseRel x y → isRxSpace x = isRxSpace y := fun x y hxy => hxy.cls (by decide +kernel)
  have r3 : RxRel CaseRel (rxSanitizeCroatian asciiUni) (rxSanitizeCroatian U) := by
    refine .seq (.grp 1 (.seq (.chr hn) (.star (.chr hn)))) (.seq (.chr dot) (.seq (.opt (.chr sp)) (.seq (.grp 2 (.seq (.chr hn) (.star (.chr hn))))
      (.seq (.chr dot) (.seq (.opt (.chr sp)) (.seq (.grp 3 (.seq (.chr hn) (.star (.chr hn)))) (.seq (.chr dot) (.seq (.opt (.grp 4 (.seq (.chr ?_) (.chr ?_)))) .eps))))))))
    · exact fun x y hxy => hxy.cls (p := (· == ' ')) (by decide +kernel)
    · exact fun x y hxy => hxy.cls (p := ['u', 'U'].contains) (by decide +kernel)
  have r4 : RxRel CaseRel (rxSanitizePeriod asciiUni) (rxSanitizePeriod U) := by
    refine .seq (.grp 1 (.chr fun x y hxy => ?_)) (.chr dot)
    rw [hn _ _ hxy, dot _ _ hxy, sp _ _ hxy]
  unfold cleanDate
  rw [tidy_rel h, matches_rel (caseRx_rel (r := rxSanitizeSkip) (by decide +kernel)) h, matches_rel r2 h, matches_rel r3 h, matches_rel r4 h,
    matches_rel (caseRx_rel (r := rxOn) (by decide +kernel)) h]
  congr 2
  have := h.getLast?
  generalize s.getLast? = a at this
  generalize t.getLast? = b at this
  cases this with
  | none => rfl
  | some hxy => exact hxy.cls (p := (· == ':')) (by decide +kernel)

/-! ## Normalising -/

theorem lowerC_ascii {c : Char} (h : c.toNat < 128) : (toLowerC c).toNat < 128 := by
  have : ((List.range 128).all fun i => decide ((toLowerC (Char.ofNat i)).toNat < 128)) = true := by decide +kernel
  simp only [List.all_eq_true, List.mem_range, decide_eq_true_eq] at this
  have := this c.toNat h
  rwa [char_of_nat] at this

theorem lower_ascii {s : List Char} (h : ∀ c ∈ s, c.toNat < 128) : ∀ c ∈ toLower s, c.toNat < 128 := by
  intro c hc
  obtain ⟨x, hx, rfl⟩ := List.mem_map.mp hc
  exact lowerC_ascii (h x hx)

theorem normalizeString_ascii {U : Uni} (hU : AsciiUni U) {s : List Char} (h : ∀ c ∈ s, c.toNat < 128) (ht : tidy (toLower s) = true) :
    U.normalizeString s = toLower s := by
  unfold Uni.normalizeString
  rw [hU.nfkc s h, hU.lower s h, tidy_spaces ht]

theorem digit_range_zero : digitRanges.head? = some (48, 57) := by decide +kernel

theorem digitStep_ascii {U : Uni} (hU : AsciiUni U) {c : Char} (h : c.toNat < 128) {last : Int} (hl : last ≤ 0) :
    (digitStep U.isDigit last c).1 = c ∧ (digitStep U.isDigit last c).2 ≤ 0 := by
  unfold digitStep
  rw [hU.isDigit c h]
  cases hd : c.isDigit with
  | false => exact ⟨rfl, hl⟩
  | true =>
    simp only [Bool.not_true, Bool.false_eq_true, if_false]
    rw [if_neg (by omega)]
    have h2 := digit_range hd
    have h0 := digit_range_zero
    cases e : digitRanges with
    | nil => rw [e] at h0; simp at h0
    | cons dr rest =>
      rw [e] at h0
      simp only [List.head?_cons, Option.some.injEq] at h0
      subst h0
      simp only [tryRanges, applyRange]
      rw [if_pos ⟨h2.1, h2.2⟩]
      simp only
      refine ⟨?_, by decide⟩
      have : 48 + (c.toNat - 48) = c.toNat := by omega
      rw [this, char_of_nat]

theorem normalizeDigits_ascii {U : Uni} (hU : AsciiUni U) : ∀ {s : List Char}, (∀ c ∈ s, c.toNat < 128) → normalizeDigits U.isDigit s = s := by
  have key : ∀ (s : List Char) (last : Int), last ≤ 0 → (∀ c ∈ s, c.toNat < 128) → digitLoop U.isDigit last s = s := by
    intro s
    induction s with
    | nil => intros; rfl
    | cons c s ih =>
      intro last hl h
      have := digitStep_ascii hU (h c (by simp)) hl
      unfold digitLoop
      rw [this.1, ih _ this.2 fun x hx => h x (by simp [hx])]
  intro s h
  exact key s (-1) (by decide) h

theorem normalizeToken_ascii {U : Uni} (hU : AsciiUni U) {s : List Char} (h : ∀ c ∈ s, c.toNat < 128) (ht : tidy (toLower s) = true) :
    normalizeToken U s = toLower s := by
  unfold normalizeToken
  rw [normalizeString_ascii hU h ht, normalizeDigits_ascii hU (lower_ascii h)]

/-! ## Texts that are no amounts of time -/

theorem fieldsAux_rel {R : Char → Char → Prop} (hs : ∀ x y, R x y → isSpace x = isSpace y) {s t : List Char} (h : Rel2 R s t) :
    ∀ {a b : List Char}, Rel2 R a b → Rel2 (Rel2 R) (fieldsAux s a) (fieldsAux t b) := by
  induction h with
  | nil =>
    intro a b hab
    unfold fieldsAux
    rw [hab.isEmpty]
    split
    · exact .nil
    · exact .single hab.reverse
  | cons hxy _ ih =>
    intro a b hab
    unfold fieldsAux
    rw [hs _ _ hxy, hab.isEmpty]
    split
    · split
      · exact ih .nil
      · exact .cons hab.reverse (ih .nil)
    · exact ih (.cons hxy hab)

theorem joinWith_rel {R : Char → Char → Prop} (hsp : R ' ' ' ') : ∀ {s t : List (List Char)}, Rel2 (Rel2 R) s t →
    Rel2 R (joinWith [' '] s) (joinWith [' '] t) := by
  intro s t h
  induction h with
  | nil => exact .nil
  | cons h1 h2 ih =>
    cases h2 with
    | nil => exact h1
    | cons h3 h4 =>
      simp only [joinWith]
      exact (h1.append (.single hsp)).append ih

theorem caseSpace : CaseRel ' ' ' ' := ⟨by decide, by decide, Or.inr ⟨by decide, by decide, rfl⟩⟩

theorem sanitizeSpaces_rel {s t : List Char} (h : Rel2 CaseRel s t) : Rel2 CaseRel (sanitizeSpaces s) (sanitizeSpaces t) := by
  unfold sanitizeSpaces fields
  refine joinWith_rel caseSpace (fieldsAux_rel (fun x y hxy => hxy.cls (p := isSpace) (by decide +kernel)) (h.filter ?_) .nil)
  exact fun x y hxy => hxy.cls (p := fun c => c != '\u00a0') (by decide +kernel)

theorem allUnits_rel {s t : List Char} (h : Rel2 CaseRel s t) : allWordsAreUnits s = allWordsAreUnits t := by
  unfold allWordsAreUnits Rx.split
  have hf := findAll_rel (caseRx_rel (r := rxNonWord) (by decide +kernel)) (sanitizeSpaces_rel h)
  simp only
  refine Rel2.all (R := Rel2 CaseRel) ((hf.1.map fun a b hab => hab.before).append (.single hf.2)) ?_
  intro a b hab
  rw [hab.isEmpty, matches_rel (caseRx_rel (r := rxRelativeSkipWord) (by decide +kernel)) hab]

/-- The text names no amount of time. -/
def noAmount (s : List Char) : Bool := !allWordsAreUnits s || (rxRelativePattern.findAll s).1.isEmpty

theorem noAmount_rel {s t : List Char} (h : Rel2 CaseRel s t) : noAmount s = noAmount t := by
  unfold noAmount
  rw [allUnits_rel h, (findAll_rel (caseRx_rel (r := rxRelativePattern) (by decide +kernel)) h).1.isEmpty]

theorem noAmount_none {s : List Char} (h : noAmount s = true) (big : Int) (cfg : Cfg) (now : Time) : relParseDate big cfg s now = none := by
  unfold relParseDate
  simp only [noAmount, Bool.or_eq_true, Bool.not_eq_true', List.isEmpty_iff] at h
  rcases h with h | h
  · rw [h]; rfl
  · split
    · rfl
    · have : getRelativeDurations s = [] := by
        unfold getRelativeDurations
        rw [h]
        decide +kernel
      rw [this]
      rfl

def noBraces (s : List Char) : Bool := s.all fun c => !(['{', '}', '(', ')', '<', '>', '[', ']'].contains c)

theorem strip_noBraces {s : List Char} (h : noBraces s = true) : stripBraces s = s := by
  unfold stripBraces
  exact List.filter_eq_self.mpr (by simpa [noBraces] using h)

theorem noBraces_rel {s t : List Char} (h : Rel2 CaseRel s t) : noBraces s = noBraces t := by
  unfold noBraces
  exact h.all fun x y hxy => hxy.cls (p := fun c => !(['{', '}', '(', ')', '<', '>', '[', ']'].contains c)) (by decide +kernel)

/-! ## All stages -/

/-- The words and templates of the locale data are ASCII. -/
def LangData.ascii (d : LangData) : Bool :=
  d.knownWords.all (·.all fun c => decide (c.toNat < 128) && !c.isDigit) && d.relativeRegexes.all fun x => x.2.all fun
    | .lit s => s.all fun c => decide (c.toNat < 128) && !c.isDigit
    | .ref _ => true

/-- The token stays as it is or is translated to ASCII words with no digits but the given ones. -/
def asciiWords (fixed : List Char) (L : Lang) (token : List Char) : Bool :=
  ((L.translateWord token).getD []).all (·.all fun c => decide (c.toNat < 128) && (!c.isDigit || fixed.contains c))

/-- A lower case text that passes the stages up to the individual parsers, but for time zones, as `a'`, whatever its digits; the
digits in `fixed` stand for themselves. -/
def reachesWith (fixed : List Char) (d : LangData) (skip : List (List Char)) (a a' : List Char) : Bool :=
  cleanDate asciiUni a && !rxTimestamp.matches a && !rxNegativeTimestamp.matches a &&
  (match simplified asciiUni fixed d.simplifications a with
   | none => false
   | some b =>
     let tokens := tokensOf asciiUni (d.lang asciiUni) skip false b
     applicableTokens asciiUni (d.lang asciiUni) (mapSkippedTokens skip (d.lang asciiUni)) tokens && tokens.all (asciiWords fixed (d.lang asciiUni)) &&
     decide ((createPermutation (tokens.map (translateToken (d.lang asciiUni) (mapSkippedTokens skip (d.lang asciiUni)) false))).map
        (·.map (finishTokens false)) = some [a'])) &&
  noBraces a'

/-- … and that has no time zone. -/
def passesWith (fixed : List Char) (d : LangData) (skip : List (List Char)) (a a' : List Char) : Bool :=
  reachesWith fixed d skip a a' && (a'.all fun c => foldC c == c) && !mayHaveZone a'

def passes (d : LangData) (skip : List (List Char)) (a a' : List Char) : Bool := passesWith [] d skip a a'

theorem tag_fixed {g : Char → Char → Prop} {fixed : List Char} (hg : ∀ c ∈ fixed, g c c) :
    ∀ c : Char, c.toNat < 128 → (c.isDigit = false ∨ c ∈ fixed) → TagRel g c c := by
  intro c h h'
  cases e : c.isDigit with
  | false => exact tag_self h e
  | true =>
    rcases h' with h' | h'
    · rw [h'] at e; cases e
    · exact ⟨h, Or.inl ⟨e, e, hg c h'⟩⟩

theorem tag_words {g : Char → Char → Prop} {fixed : List Char} (hg : ∀ c ∈ fixed, g c c) : ∀ {w : List Char},
    (w.all fun c => decide (c.toNat < 128) && (!c.isDigit || fixed.contains c)) = true → Rel2 (TagRel g) w w
  | [], _ => .nil
  | c :: w, h => by
    simp only [List.all_cons, Bool.and_eq_true, decide_eq_true_eq, Bool.or_eq_true, Bool.not_eq_true', List.contains_iff_mem] at h
    exact .cons (tag_fixed hg c h.1.1 h.1.2) (tag_words hg (by simpa using h.2))

theorem tag_lower {g : Char → Char → Prop} {a s : List Char} (h : Rel2 (TagRel g) a (toLower s)) (ha : ∀ c ∈ s, c.toNat < 128) : Rel2 CaseRel a s := by
  induction s generalizing a with
  | nil => cases h; exact .nil
  | cons c s ih =>
    cases h with
    | @cons x _ r _ h1 h2 =>
      refine .cons ?_ (ih h2 fun y hy => ha y (by simp [hy]))
      have hc := ha c (by simp)
      have hcd : (toLowerC c).isDigit = c.isDigit := by
        have : ((List.range 128).all fun i => (toLowerC (Char.ofNat i)).isDigit == (Char.ofNat i).isDigit) = true := by decide +kernel
        simp only [List.all_eq_true, List.mem_range, beq_iff_eq] at this
        have := this c.toNat hc
        rwa [char_of_nat] at this
      have hcc : toLowerC (toLowerC c) = toLowerC c := by
        have : ((List.range 128).all fun i => toLowerC (toLowerC (Char.ofNat i)) == toLowerC (Char.ofNat i)) = true := by decide +kernel
        simp only [List.all_eq_true, List.mem_range, beq_iff_eq] at this
        have := this c.toNat hc
        rwa [char_of_nat] at this
      refine ⟨h1.left, hc, ?_⟩
      rcases h1.same with ⟨h3, h4, _⟩ | ⟨h3, h4⟩
      · exact Or.inl ⟨h3, by rw [← hcd]; exact h4⟩
      · exact Or.inr ⟨h3, by rw [← hcd]; rw [h4]; exact h3, by rw [← h4, hcc]⟩

/-- What the stages before the individual parsers do with such a text. -/
structure Reached (U : Uni) (L : Lang) (skip : List (List Char)) (s t : List Char) : Prop where
  sanitize : sanitizeDate U s = s
  stamp : rxTimestamp.matches s = false
  negStamp : rxNegativeTimestamp.matches s = false
  applicable : isApplicable U L skip (U.normalizeString s) = true
  translate : translate U L skip s false = some [t]
  braces : stripBraces t = t

/-- … and there is no time zone in it. -/
structure Passed (U : Uni) (tb : List TzEntry) (L : Lang) (skip : List (List Char)) (s t : List Char) : Prop extends Reached U L skip s t where
  zone : popTzOffset tb t = (t, none)

theorem reachesWith_all {U : Uni} (hU : AsciiUni U) {d : LangData} (hd : LangData.uniform d = true)
    (hda : LangData.ascii d = true) {skip : List (List Char)} (hskip : skip.all digitFree = true) {g : Char → Char → Prop}
    {fixed : List Char} (hg : ∀ c ∈ fixed, g c c) {a a' s : List Char}
    (hp : reachesWith fixed d skip a a' = true) (hs : ∀ c ∈ s, c.toNat < 128) (h : Rel2 (TagRel g) a (toLower s)) :
    ∃ t, Rel2 (TagRel g) a' t ∧ Reached U (d.lang U) skip s t := by
  simp only [reachesWith, Bool.and_eq_true, Bool.not_eq_true'] at hp
  obtain ⟨⟨⟨⟨p1, p2⟩, p3⟩, p4⟩, p8⟩ := hp
  split at p4
  · cases p4
  rename_i b hb
  simp only [Bool.and_eq_true, decide_eq_true_eq] at p4
  obtain ⟨⟨p5, p6⟩, p7⟩ := p4
  have hc := tag_lower h hs
  have hR : DigitRel (TagRel g) := TagRel.digits g
  have hV : UniRel (TagRel g) asciiUni U := TagRel.uni hU
  have hclean : cleanDate U s = true := by rw [← clean_rel hU hc]; exact p1
  have htidyA : tidy a = true := by
    have p1 := p1
    simp only [cleanDate, Bool.and_eq_true] at p1
    exact p1.1.1.1.1.1.1
  have hlow : Rel2 CaseRel a (toLower s) := h.mono fun _ _ hxy => hxy.case
  have htidy : tidy (toLower s) = true := by rw [← tidy_rel hlow]; exact htidyA
  have htidyL : tidy (toLower (toLower s)) = true := by
    have : toLower (toLower s) = toLower s := by
      unfold toLower
      rw [List.map_map]
      refine List.map_congr_left fun c hc => ?_
      have : ((List.range 128).all fun i => toLowerC (toLowerC (Char.ofNat i)) == toLowerC (Char.ofNat i)) = true := by decide +kernel
      simp only [List.all_eq_true, List.mem_range, beq_iff_eq] at this
      have := this c.toNat (hs c hc)
      rwa [char_of_nat] at this
    rw [this]; exact htidy
  have hL : LangRel (TagRel g) (d.lang asciiUni) (d.lang U) := by
    simp only [LangData.ascii, Bool.and_eq_true, List.all_eq_true] at hda
    refine langRel hR hV hd (fun w hw => tag_word (by simpa using hda.1 w hw)) ?_
    intro x hx s hs
    have := hda.2 x hx _ hs
    exact tag_word (by simpa using this)
  have hsep : Rel2 (TagRel g) splitSeparator splitSeparator := tag_word (by decide +kernel)
  have hsp : TagRel g ' ' ' ' := tag_self (by decide) (by decide)
  have hsimp : Rel2 (TagRel g) b (simplify (d.lang U) (toLower s)) := simplified_rel hR hV (tag_fixed hg) h hb
  have happ := applicable_tokens hR hV hL hsep hskip hsimp
  rw [p5] at happ
  have htr := translate_tokens hR hV hL hsep hsp false hskip hsimp (by
    intro token ht w hw
    have := List.all_eq_true.mp p6 token ht
    unfold asciiWords at this
    exact tag_words hg (List.all_eq_true.mp this w hw))
  rw [p7] at htr
  cases e : (createPermutation ((tokensOf U (d.lang U) skip false (simplify (d.lang U) (toLower s))).map (translateToken (d.lang U) (mapSkippedTokens skip (d.lang U)) false))).map
      (·.map (finishTokens false)) with
  | none => rw [e] at htr; cases htr
  | some l =>
    rw [e] at htr
    cases htr with
    | some htr =>
      cases htr with
      | @cons _ t _ r h1 h2 =>
        cases h2
        refine ⟨t, h1, ?_⟩
        have h1c : Rel2 CaseRel a' t := h1.mono fun _ _ hxy => hxy.case
        refine ⟨sanitize_clean hclean hs, ?_, ?_, ?_, ?_, ?_⟩
        · rw [← matches_rel (caseRx_rel (r := rxTimestamp) (by decide +kernel)) hc]; exact p2
        · rw [← matches_rel (caseRx_rel (r := rxNegativeTimestamp) (by decide +kernel)) hc]; exact p3
        · rw [normalizeString_ascii hU hs htidy]
          unfold isApplicable
          have e1 : normalizeToken U (toLower s) = toLower s := by
            rw [normalizeToken_ascii hU (lower_ascii hs) htidyL]
            unfold toLower
            rw [List.map_map]
            refine List.map_congr_left fun c hc => ?_
            have : ((List.range 128).all fun i => toLowerC (toLowerC (Char.ofNat i)) == toLowerC (Char.ofNat i)) = true := by decide +kernel
            simp only [List.all_eq_true, List.mem_range, beq_iff_eq] at this
            have := this c.toNat (hs c hc)
            rwa [char_of_nat] at this
          simp only [e1]
          exact happ.symm
        · unfold Model.translate
          simp only [normalizeToken_ascii hU hs htidy]
          exact e
        · exact strip_noBraces (by rw [← noBraces_rel h1c]; exact p8)

theorem passesWith_all {U : Uni} (hU : AsciiUni U) {tb : List TzEntry} (htb : IsTable tb) {d : LangData} (hd : LangData.uniform d = true)
    (hda : LangData.ascii d = true) {skip : List (List Char)} (hskip : skip.all digitFree = true) {g : Char → Char → Prop}
    {fixed : List Char} (hg : ∀ c ∈ fixed, g c c) {a a' s : List Char}
    (hp : passesWith fixed d skip a a' = true) (hs : ∀ c ∈ s, c.toNat < 128) (h : Rel2 (TagRel g) a (toLower s)) :
    ∃ t, Rel2 (TagRel g) a' t ∧ Passed U tb (d.lang U) skip s t := by
  simp only [passesWith, Bool.and_eq_true, Bool.not_eq_true'] at hp
  obtain ⟨t, ht, hr⟩ := reachesWith_all hU hd hda hskip hg hp.1.1 hs h
  exact ⟨t, ht, hr, pop_none_rel (TagRel.digits g) htb ht hp.1.2 hp.2⟩

theorem passes_all {U : Uni} (hU : AsciiUni U) {tb : List TzEntry} (htb : IsTable tb) {d : LangData} (hd : LangData.uniform d = true)
    (hda : LangData.ascii d = true) {skip : List (List Char)} (hskip : skip.all digitFree = true) {g : Char → Char → Prop} {a a' s : List Char}
    (hp : passes d skip a a' = true) (hs : ∀ c ∈ s, c.toNat < 128) (h : Rel2 (TagRel g) a (toLower s)) :
    ∃ t, Rel2 (TagRel g) a' t ∧ Passed U tb (d.lang U) skip s t :=
  passesWith_all hU htb hd hda hskip (fun c hc => by cases hc) hp hs h

end Verif.Lemmas
