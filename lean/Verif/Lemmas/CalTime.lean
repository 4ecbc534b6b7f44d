import Verif.Lemmas.CalWhole
/-! Helper lemmas: Jalali and Hijri dates with a time of day, up to the tokens. -/
set_option autoImplicit false
namespace Verif.Lemmas
open Verif.Go Verif.Model Verif.Spec Verif.Props Verif.Data

/-- The same character, or two digits that are related. -/
def SRel (g : Char → Char → Prop) (x y : Char) : Prop := (x.isDigit = true ∧ y.isDigit = true ∧ g x y) ∨ (x.isDigit = false ∧ y = x)

section
variable {g : Char → Char → Prop}

theorem SRel.digits (g : Char → Char → Prop) : DigitRel (SRel g) := by
  rintro x y (⟨h1, h2, _⟩ | ⟨h1, rfl⟩)
  · exact Or.inr ⟨h1, h2⟩
  · exact Or.inl ⟨rfl, h1⟩

theorem SRel.plain : ∀ {w : List Char}, digitFree w = true → Rel2 (SRel g) w w
  | [], _ => .nil
  | c :: w, h => by
    simp only [digitFree, List.all_cons, Bool.and_eq_true, Bool.not_eq_true'] at h
    exact .cons (Or.inr ⟨h.1, rfl⟩) (SRel.plain (by simpa [digitFree] using h.2))

theorem TagRel.s {x y : Char} (h : TagRel g x y) : SRel g x y := h.same

theorem SRel.tag {s t : List Char} (h : Rel2 (SRel g) s t) : isAscii s = true → Rel2 (TagRel g) s t := by
  induction h with
  | nil => intro _; exact .nil
  | cons h _ ih =>
    intro ha
    simp only [isAscii, List.all_cons, Bool.and_eq_true, decide_eq_true_eq] at ha
    exact .cons ⟨ha.1, h⟩ (ih ha.2)

/-- The classes of a pattern do not tell digits apart. -/
def digitRx : Rx → Bool
  | .eps | .bos | .eos | .wb => true
  | .chr p => "123456789".toList.all fun c => p c == p '0'
  | .seq a b | .alt a b => digitRx a && digitRx b
  | .opt a | .star a | .grp _ a => digitRx a

theorem digit_mem10 {c : Char} (h : c.isDigit = true) : c ∈ "0123456789".toList := by
  have hr := digit_range h
  have : ∀ n : Fin 58, 48 ≤ n.1 → Char.ofNat n.1 ∈ "0123456789".toList := by decide
  have := this ⟨c.toNat, by omega⟩ hr.1
  rwa [Char.ofNat_toNat] at this

theorem digitRx_rel : ∀ {r : Rx}, digitRx r = true → RxRel (SRel g) r r
  | .eps, _ => .eps
  | .bos, _ => .bos
  | .eos, _ => .eos
  | .wb, _ => .wb (isWordC_rel (SRel.digits g))
  | .chr p, h => by
    refine .chr fun x y hxy => ?_
    have key : ∀ c : Char, c.isDigit = true → p c = p '0' := by
      intro c hc
      have hm := digit_mem10 hc
      rw [digitRx, List.all_eq_true] at h
      have hm : c = '0' ∨ c ∈ "123456789".toList := by simpa using hm
      rcases hm with rfl | hm
      · rfl
      · simpa using h c hm
    rcases hxy with ⟨h1, h2, _⟩ | ⟨_, rfl⟩
    · rw [key x h1, key y h2]
    · rfl
  | .seq a b, h => by
    simp only [digitRx, Bool.and_eq_true] at h
    exact .seq (digitRx_rel h.1) (digitRx_rel h.2)
  | .alt a b, h => by
    simp only [digitRx, Bool.and_eq_true] at h
    exact .alt (digitRx_rel h.1) (digitRx_rel h.2)
  | .opt a, h => .opt (digitRx_rel h)
  | .star a, h => .star (digitRx_rel h)
  | .grp n a, h => .grp n (digitRx_rel h)

theorem flatten_rel {R : Char → Char → Prop} {s t : List (List Char)} (h : Rel2 (Rel2 R) s t) : Rel2 R s.flatten t.flatten := by
  induction h with
  | nil => exact .nil
  | cons h _ ih => exact h.append ih

theorem deleteStr_rel {R : Char → Char → Prop} (hR : DigitRel R) {w : List Char} (hw : digitFree w = true) {s t : List Char} (h : Rel2 R s t) :
    Rel2 R (deleteStr w s) (deleteStr w t) := flatten_rel (splitGo_rel hR hw h 0 .nil)

theorem deleteAll_rel {R : Char → Char → Prop} {a b : Rx} (h : RxRel R a b) {s t : List Char} (hs : Rel2 R s t) : Rel2 R (a.deleteAll s) (b.deleteAll t) := by
  have := findAll_rel h hs
  refine Rel2.append (flatten_rel ?_) this.2
  exact this.1.map fun m n hm => hm.before

theorem numbersOnly_rel {r : Rx} (hr : digitRx r = true) {s t : List Char} (hs : Rel2 (SRel g) s t) : Rel2 (SRel g) (numbersOnly r s) (numbersOnly r t) := by
  have := findAll_rel (digitRx_rel (g := g) hr) hs
  refine (this.1.flatMap fun m n hm => hm.before.append (hm.text.map fun x y hxy => ?_)).append this.2
  rcases hxy with ⟨h1, h2, h3⟩ | ⟨h1, rfl⟩
  · rw [if_pos h1, if_pos h2]; exact Or.inl ⟨h1, h2, h3⟩
  · rw [if_neg (by simp [h1])]; exact Or.inr ⟨by decide, rfl⟩

/-! ## The stages of the Jalali parser -/

/-- The stages before `SanitizeDate`. -/
def jalaliStages (s : List Char) : List Char := removeWeekdays (replaceTime (replaceDays (replaceWeekdays (replaceMonths s))))

/-- There is no number written in words. -/
def noDayWord (s : List Char) : Bool := (jalaliDays.flatMap fun x => x.2).all fun p => !containsStr p (rxOrdinal.deleteAll s)

theorem replaceDays_quiet {s : List Char} (h : noDayWord s = true) : replaceDays s = rxOrdinal.deleteAll s := by
  unfold replaceDays
  apply replaceEach_absent
  unfold noDayWord at h
  rw [List.all_eq_true] at h ⊢
  intro x hx
  obtain ⟨y, hy, hx⟩ := List.mem_flatMap.mp hx
  obtain ⟨p, hp, rfl⟩ := List.mem_map.mp hx
  exact h p (List.mem_flatMap.mpr ⟨y, hy, hp⟩)

theorem weekdays_plain_pat : ((jalaliWeekdays.flatMap fun x => x.2.map fun p => (p, [' '] ++ x.1 ++ [' '])).all fun x => digitFree x.1 && digitFree x.2) = true := by
  decide +kernel
theorem remove_plain_pat : ((jalaliWeekdays.map fun x => (x.1, [' '])).all fun x => digitFree x.1 && digitFree x.2) = true := by
  decide +kernel

theorem each_rel {l : List (List Char × List Char)} (hl : (l.all fun x => digitFree x.1 && digitFree x.2) = true) {s t : List Char} (h : Rel2 (SRel g) s t) :
    Rel2 (SRel g) (replaceEach l s) (replaceEach l t) := by
  refine replaceEach_rel (SRel.digits g) (fun x hx => ?_) h
  have := List.all_eq_true.mp hl x hx
  rw [Bool.and_eq_true] at this
  exact ⟨this.1, SRel.plain this.2⟩

theorem noDayWord_rel {s t : List Char} (h : Rel2 (SRel g) s t) : noDayWord s = noDayWord t := by
  have hd := deleteAll_rel (digitRx_rel (g := g) (r := rxOrdinal) (by decide +kernel)) h
  have hp : ((jalaliDays.flatMap fun x => x.2).all digitFree) = true := by decide +kernel
  unfold noDayWord
  rw [Bool.eq_iff_iff, List.all_eq_true, List.all_eq_true]
  have key : ∀ p ∈ jalaliDays.flatMap fun x => x.2, containsStr p (rxOrdinal.deleteAll s) = containsStr p (rxOrdinal.deleteAll t) :=
    fun p hpm => containsStr_rel (SRel.digits g) (List.all_eq_true.mp hp p hpm) hd
  constructor
  · intro h p hpm; rw [← key p hpm]; exact h p hpm
  · intro h p hpm; rw [key p hpm]; exact h p hpm

theorem replaceTime_rel {s t : List Char} (h : Rel2 (SRel g) s t) : Rel2 (SRel g) (replaceTime s) (replaceTime t) := by
  unfold replaceTime
  refine deleteStr_rel (SRel.digits g) (by decide +kernel) (replaceAll_rel (digitRx_rel (by decide +kernel)) ?_ ?_)
  · intro x hx
    rw [List.mem_singleton] at hx
    subst hx
    exact SRel.plain (by decide)
  · exact numbersOnly_rel (by decide +kernel) (numbersOnly_rel (by decide +kernel) (numbersOnly_rel (by decide +kernel) h))

theorem jalaliStages_rel {s t : List Char} (hq : noDayWord (replaceWeekdays (replaceMonths s)) = true) (h : Rel2 (SRel g) s t) :
    Rel2 (SRel g) (jalaliStages s) (jalaliStages t) := by
  have h1 : Rel2 (SRel g) (replaceWeekdays (replaceMonths s)) (replaceWeekdays (replaceMonths t)) :=
    each_rel weekdays_plain_pat (each_rel months_plain_pat h)
  unfold jalaliStages
  rw [replaceDays_quiet hq, replaceDays_quiet (by rw [← noDayWord_rel h1]; exact hq)]
  exact each_rel remove_plain_pat (replaceTime_rel (deleteAll_rel (digitRx_rel (by decide +kernel)) h1))

/-! ## From the text to the tokens -/

theorem calPlain_rel {s t : List Char} (h : Rel2 (TagRel g) s t) : calPlain s = calPlain t := by
  unfold calPlain
  rw [noBraces_rel (h.mono fun _ _ hxy => hxy.case)]
  have hf : Rel2 (fun x y => (x = y ∧ x.isDigit = false) ∨ (x.isDigit = true ∧ y.isDigit = true)) (s.map foldC) (t.map foldC) := by
    refine h.map fun x y hxy => ?_
    rcases hxy.same with ⟨h1, h2, _⟩ | ⟨h1, rfl⟩
    · right; rw [foldC_isDigit h1, foldC_isDigit h2]; exact ⟨h1, h2⟩
    · cases e' : (foldC y).isDigit with
      | true => exact Or.inr ⟨rfl, rfl⟩
      | false => exact Or.inl ⟨rfl, rfl⟩
  rw [mayHaveZone_rel (R := fun x y => (x = y ∧ x.isDigit = false) ∨ (x.isDigit = true ∧ y.isDigit = true)) (fun x y h => h) hf]

/-- The stages turn the one template into the other. -/
def jalaliTo (a c : List Char) : Bool :=
  noDayWord (replaceWeekdays (replaceMonths a)) && isAscii (jalaliStages a) && sanitizeDate asciiUni (jalaliStages a) == c && calPlain c

theorem jalaliTo_text {U : Uni} (hU : PersianUni U) {a c s : List Char} (hp : jalaliTo a c = true)
    (hs : Rel2 (SRel g) a (normalizeDigits U.isDigit (U.normalizeString s))) : Rel2 (TagRel g) c (jalaliText U s) ∧ calPlain (jalaliText U s) = true := by
  simp only [jalaliTo, Bool.and_eq_true, beq_iff_eq] at hp
  obtain ⟨⟨⟨h1, h2⟩, h3⟩, h4⟩ := hp
  have r1 := SRel.tag (jalaliStages_rel h1 hs) h2
  have r2 := sanitizeDate_rel hU.toAsciiUni r1
  rw [h3] at r2
  have h5 := h4
  rw [calPlain_rel r2] at h5
  have h6 := h5
  unfold calPlain at h6
  rw [Bool.and_eq_true] at h6
  have : jalaliText U s = sanitizeDate U (jalaliStages (normalizeDigits U.isDigit (U.normalizeString s))) := by
    unfold jalaliText
    exact strip_noBraces h6.1
  rw [this]
  exact ⟨r2, h5⟩

/-- … of the Hijri parser. -/
def hijriTo (am : Bool) (a c : List Char) : Bool :=
  isAscii (replaceMeridians am a) && sanitizeDate asciiUni (replaceMeridians am a) == c && calPlain c

theorem hijriTo_text {U : Uni} (hU : PersianUni U) {am : Bool} {a c s : List Char} (hp : hijriTo am a c = true)
    (hs : Rel2 (SRel g) a (normalizeDigits U.isDigit (U.normalizeString s))) : Rel2 (TagRel g) c (hijriText U am s) ∧ calPlain (hijriText U am s) = true := by
  simp only [hijriTo, Bool.and_eq_true, beq_iff_eq] at hp
  obtain ⟨⟨h2, h3⟩, h4⟩ := hp
  have hm : Rel2 (SRel g) (replaceMeridians am a) (replaceMeridians am (normalizeDigits U.isDigit (U.normalizeString s))) := by
    unfold replaceMeridians
    exact each_rel (by cases am <;> decide +kernel) hs
  have r2 := sanitizeDate_rel hU.toAsciiUni (SRel.tag hm h2)
  rw [h3] at r2
  have h5 := h4
  rw [calPlain_rel r2] at h5
  have h6 := h5
  unfold calPlain at h6
  rw [Bool.and_eq_true] at h6
  have : hijriText U am s = sanitizeDate U (replaceMeridians am (normalizeDigits U.isDigit (U.normalizeString s))) := by
    unfold hijriText
    exact strip_noBraces h6.1
  rw [this]
  exact ⟨r2, h5⟩

theorem plain_pop {t : List Char} (h : calPlain t = true) {tb : List TzEntry} (ht : IsTable tb) : popTzOffset tb t = (t, none) := by
  unfold calPlain at h
  rw [Bool.and_eq_true, Bool.not_eq_true'] at h
  exact pop_none_fold ht h.2

end

/-! ## Two templates -/

/-- All digits 0. -/
def zero (c : Char) : Char := if c.isDigit then '0' else c

theorem wild_sub {ds : List Char} (hds : ∀ c ∈ ds, c.isDigit = true) {a : List Char} (ha : isAscii a = true) : Rel2 (TagRel (wild ds)) a (a.map (sub ds)) :=
  (tag_sub hds ha).mono fun _ _ h => ⟨h.left, h.same.imp (fun h => ⟨h.1, h.2.1, Or.inr h.2.2⟩) id⟩

theorem wild_zero {ds es : List Char} (hes : ∀ c ∈ es, c.isDigit = true) : ∀ {a : List Char}, isAscii a = true → Rel2 (TagRel (wild ds)) (a.map zero) (a.map (sub es))
  | [], _ => .nil
  | c :: a, ha => by
    simp only [isAscii, List.all_cons, Bool.and_eq_true, decide_eq_true_eq] at ha
    refine .cons ?_ (wild_zero hes ha.2)
    unfold zero
    cases e : c.isDigit with
    | true => exact ⟨by rw [if_pos rfl]; decide, Or.inl ⟨by rw [if_pos rfl]; decide, sub_digit hes e, Or.inl rfl⟩⟩
    | false => rw [sub_other e]; exact tag_self ha.1 e

/-- The templates for a date and a time, and the texts they become. -/
def template (D mid T : List Char) : List Char × List Char := (D ++ mid ++ T.map zero, D.map zero ++ mid ++ T)

theorem template_rel {ds es : List Char} (hds : ∀ c ∈ ds, c.isDigit = true) (hes : ∀ c ∈ es, c.isDigit = true) {D mid T : List Char}
    (hD : isAscii D = true) (hT : isAscii T = true) (hmid : digitFree mid = true) (hma : isAscii mid = true) :
    Rel2 (TagRel (wild ds)) (template D mid T).1 (D.map (sub ds) ++ mid ++ T.map (sub es)) ∧
    Rel2 (TagRel (wild es)) (template D mid T).2 (D.map (sub ds) ++ mid ++ T.map (sub es)) := by
  have hm : ∀ ds, Rel2 (TagRel (wild ds)) mid mid := fun ds => SRel.tag (SRel.plain hmid) hma
  exact ⟨((wild_sub hds hD).append (hm ds)).append (wild_zero hes hT), ((wild_zero hds hD).append (hm es)).append (wild_sub hes hT)⟩

/-- … before normalization: with other words between them and after them. -/
theorem template_words {ds es : List Char} (hds : ∀ c ∈ ds, c.isDigit = true) (hes : ∀ c ∈ es, c.isDigit = true) {D M mid T suf : List Char}
    (hD : isAscii D = true) (hT : isAscii T = true) (hM : digitFree M = true) (hmid : digitFree mid = true) (hsuf : digitFree suf = true) {Y : List Char}
    (hY : isAscii Y = true) :
    Rel2 (SRel (wild ds)) (D ++ M ++ Y ++ mid ++ T.map zero ++ suf) (D.map (sub ds) ++ M ++ Y.map (sub ds) ++ mid ++ T.map (sub es) ++ suf) ∧
    Rel2 (SRel (wild es)) (D.map zero ++ M ++ Y.map zero ++ mid ++ T ++ suf) (D.map (sub ds) ++ M ++ Y.map (sub ds) ++ mid ++ T.map (sub es) ++ suf) := by
  have hs : ∀ {ds a b : List Char}, Rel2 (TagRel (wild ds)) a b → Rel2 (SRel (wild ds)) a b := fun h => h.mono fun _ _ h => h.s
  exact ⟨(((((hs (wild_sub hds hD)).append (SRel.plain hM)).append (hs (wild_sub hds hY))).append (SRel.plain hmid)).append (hs (wild_zero hes hT))).append (SRel.plain hsuf),
    (((((hs (wild_zero hds hD)).append (SRel.plain hM)).append (hs (wild_zero hds hY))).append (SRel.plain hmid)).append (hs (wild_sub hes hT))).append (SRel.plain hsuf)⟩

/-- Two texts that agree with both templates are the same. -/
theorem template_unique {ds es a b t u : List Char} (hc : covers a b = true) (h1 : Rel2 (TagRel (wild ds)) a t) (h2 : Rel2 (TagRel (wild es)) b t)
    (h3 : Rel2 (TagRel (wild ds)) a u) (h4 : Rel2 (TagRel (wild es)) b u) : t = u := by
  rw [of_tag_sub2 hc h1 h2, of_tag_sub2 hc h3 h4]

end Verif.Lemmas
