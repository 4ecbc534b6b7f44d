import Verif.Lemmas.CalParse
import Verif.Lemmas.Tags
import Verif.Lemmas.Fields
import Verif.Lemmas.EnNumeric
import Verif.Props.Digit
/-! Helper lemmas: the texts given to the Jalali and Hijri parsers. -/
set_option autoImplicit false
namespace Verif.Lemmas
open Verif.Go Verif.Model Verif.Spec Verif.Props Verif.Data

/-! ## Replacing what is not there -/

theorem splitGo_absent {w : List Char} : ∀ {s acc : List Char}, containsStr w s = false → splitGo w 0 acc s = [acc.reverse ++ s]
  | [], acc, _ => by simp [splitGo]
  | c :: s, acc, h => by
    simp only [containsStr, Bool.or_eq_false_iff] at h
    simp only [splitGo, h.1, Bool.false_eq_true, if_false]
    rw [splitGo_absent h.2]
    simp

theorem replaceStr_absent {w new s : List Char} (h : containsStr w s = false) : replaceStr w new s = s := by
  simp [replaceStr, splitStr, splitGo_absent h, joinWith]

theorem deleteStr_absent {w s : List Char} (h : containsStr w s = false) : deleteStr w s = s := by
  simp [deleteStr, splitStr, splitGo_absent h]

theorem replaceEach_absent : ∀ {l : List (List Char × List Char)} {s : List Char}, (l.all fun x => !containsStr x.1 s) = true → replaceEach l s = s
  | [], _, _ => rfl
  | x :: l, s, h => by
    simp only [List.all_cons, Bool.and_eq_true, Bool.not_eq_true'] at h
    unfold replaceEach
    rw [List.foldl_cons, replaceStr_absent h.1]
    exact replaceEach_absent h.2

theorem findAll_absent {r : Rx} {s : List Char} (h : r.matches s = false) : r.findAll s = ([], s) := by
  unfold Rx.matches at h
  have h : r.find none s = none := by simpa using h
  unfold Rx.findAll
  show r.findAllFuel (s.length + 1) none s = _
  unfold Rx.findAllFuel
  rw [h]

theorem deleteAll_absent {r : Rx} {s : List Char} (h : r.matches s = false) : r.deleteAll s = s := by
  simp [Rx.deleteAll, findAll_absent h]

theorem numbersOnly_absent {r : Rx} {s : List Char} (h : r.matches s = false) : numbersOnly r s = s := by
  simp [numbersOnly, findAll_absent h]

/-! ## Replacing, with other digits -/

variable {R : Char → Char → Prop}

theorem join_rel {sep : List Char} (hs : Rel2 R sep sep) : ∀ {s t : List (List Char)}, Rel2 (Rel2 R) s t → Rel2 R (joinWith sep s) (joinWith sep t)
  | _, _, .nil => .nil
  | _, _, .cons h .nil => h
  | _, _, .cons h (.cons h1 h2) => (h.append hs).append (join_rel hs (.cons h1 h2))

theorem replaceStr_rel (hR : DigitRel R) {w new : List Char} (hw : digitFree w = true) (hn : Rel2 R new new) {s t : List Char} (h : Rel2 R s t) :
    Rel2 R (replaceStr w new s) (replaceStr w new t) := join_rel hn (splitGo_rel hR hw h 0 .nil)

theorem replaceEach_rel (hR : DigitRel R) : ∀ {l : List (List Char × List Char)}, (∀ x ∈ l, digitFree x.1 = true ∧ Rel2 R x.2 x.2) → ∀ {s t : List Char}, Rel2 R s t →
    Rel2 R (replaceEach l s) (replaceEach l t)
  | [], _, _, _, h => h
  | x :: l, hl, _, _, h => by
    unfold replaceEach
    rw [List.foldl_cons, List.foldl_cons]
    exact replaceEach_rel hR (fun y hy => hl y (by simp [hy])) (replaceStr_rel hR (hl x (by simp)).1 (hl x (by simp)).2 h)

/-- The same character, or two digits of which the second stands for the first. -/
def SubRel (ds : List Char) (x y : Char) : Prop := (x.isDigit = true ∧ y.isDigit = true ∧ y = sub ds x) ∨ (x.isDigit = false ∧ y = x)

theorem SubRel.digits (ds : List Char) : DigitRel (SubRel ds) := by
  rintro x y (⟨h1, h2, _⟩ | ⟨h1, rfl⟩)
  · exact Or.inr ⟨h1, h2⟩
  · exact Or.inl ⟨rfl, h1⟩

theorem subRel_sub {ds : List Char} (h : ∀ c ∈ ds, c.isDigit = true) : ∀ (a : List Char), Rel2 (SubRel ds) a (a.map (sub ds))
  | [] => .nil
  | c :: a => by
    refine .cons ?_ (subRel_sub h a)
    cases hc : c.isDigit with
    | true => exact Or.inl ⟨hc, sub_digit h hc, rfl⟩
    | false => exact Or.inr ⟨hc, sub_other hc⟩

theorem of_subRel {ds : List Char} {a t : List Char} (h : Rel2 (SubRel ds) a t) : t = a.map (sub ds) := by
  induction h with
  | nil => rfl
  | cons h _ ih =>
    rw [List.map_cons, ih]
    congr 1
    rcases h with ⟨_, _, h⟩ | ⟨h, h'⟩
    · exact h
    · rw [h', sub_other h]

theorem subRel_plain {ds : List Char} : ∀ {w : List Char}, digitFree w = true → Rel2 (SubRel ds) w w
  | [], _ => .nil
  | c :: w, h => by
    simp only [digitFree, List.all_cons, Bool.and_eq_true, Bool.not_eq_true'] at h
    exact .cons (Or.inr ⟨h.1, rfl⟩) (subRel_plain (by simpa [digitFree] using h.2))

/-! ## `SanitizeDate`, with other digits -/

theorem trimColon_rel {s t : List Char} (hR : ∀ x y, R x y → (x == ':') = (y == ':')) (h : Rel2 R s t) : Rel2 R (trimColon s) (trimColon t) := by
  have hl := h.getLast?
  have hd : ∀ {s t : List Char}, Rel2 R s t → Rel2 R s.dropLast t.dropLast := by
    intro s t h
    induction h with
    | nil => exact .nil
    | cons h1 h2 ih => cases h2 with
      | nil => exact .nil
      | cons h3 h4 => exact .cons h1 ih
  have e : (s.getLast? = some ':') ↔ (t.getLast? = some ':') := by
    generalize s.getLast? = a at hl
    generalize t.getLast? = b at hl
    cases hl with
    | none => simp
    | some hxy =>
      have := hR _ _ hxy
      simp only [Option.some.injEq]
      rw [Bool.eq_iff_iff] at this
      simpa using this
  unfold trimColon
  by_cases hc : s.getLast? = some ':'
  · rw [if_pos hc, if_pos (e.mp hc)]; exact hd h
  · rw [if_neg hc, if_neg (fun h' => hc (e.mpr h'))]; exact h

theorem RxRel.tag {g : Char → Char → Prop} {a b : Rx} (h : RxRel CaseRel a b) : RxRel (TagRel g) a b := by
  induction h with
  | eps => exact .eps
  | chr h => exact .chr fun x y hxy => h x y hxy.case
  | seq _ _ ha hb => exact .seq ha hb
  | alt _ _ ha hb => exact .alt ha hb
  | opt _ ha => exact .opt ha
  | star _ ha => exact .star ha
  | grp n _ ha => exact .grp n ha
  | bos => exact .bos
  | eos => exact .eos
  | wb h => exact .wb fun x y hxy => h x y hxy.case

/-- `SanitizeDate` does the same to texts with other digits. -/
theorem sanitizeDate_rel {U : Uni} (hU : AsciiUni U) {g : Char → Char → Prop} {s t : List Char} (h : Rel2 (TagRel g) s t) :
    Rel2 (TagRel g) (sanitizeDate asciiUni s) (sanitizeDate U t) := by
  have hn : ∀ x y, CaseRel x y → asciiUni.isNumber x = U.isNumber y := (CaseRel.uni hU).isNumber
  have hl : ∀ x y, CaseRel x y → asciiUni.isLetter x = U.isLetter y := (CaseRel.uni hU).isLetter
  have r2 : RxRel CaseRel (rxSanitizeRussian asciiUni) (rxSanitizeRussian U) := by
    refine .seq (.grp 1 (.chr fun x y hxy => ?_)) (.seq (.chr fun x y hxy => ?_) (.seq (.chr fun x y hxy => ?_) .eps))
    · rw [hl _ _ hxy, hn _ _ hxy]
    · exact hxy.cls (p := ['\u0433', '\u0413'].contains) (by decide +kernel)
    · exact hxy.cls (p := (· == '.')) (by decide +kernel)
  have dot : ∀ x y, CaseRel x y → (x == '.') = (y == '.') := fun x y hxy => hxy.cls (p := (· == '.')) (by decide +kernel)
  have sp : ∀ x y, CaseRel x y → isRxSpace x = isRxSpace y := fun x y hxy => hxy.cls (by decide +kernel)
  have r3 : RxRel CaseRel (rxSanitizeCroatian asciiUni) (rxSanitizeCroatian U) := by
    refine .seq (.grp 1 (.seq (.chr hn) (.star (.chr hn)))) (.seq (.chr dot) (.seq (.opt (.chr sp)) (.seq (.grp 2 (.seq (.chr hn) (.star (.chr hn))))
      (.seq (.chr dot) (.seq (.opt (.chr sp)) (.seq (.grp 3 (.seq (.chr hn) (.star (.chr hn)))) (.seq (.chr dot) (.seq (.opt (.grp 4 (.seq (.chr ?_) (.chr ?_)))) .eps))))))))
    · exact fun x y hxy => hxy.cls (p := (· == ' ')) (by decide +kernel)
    · exact fun x y hxy => hxy.cls (p := ['u', 'U'].contains) (by decide +kernel)
  have r4 : RxRel CaseRel (rxSanitizePeriod asciiUni) (rxSanitizePeriod U) := by
    refine .seq (.grp 1 (.chr fun x y hxy => ?_)) (.chr dot)
    rw [hn _ _ hxy, dot _ _ hxy, sp _ _ hxy]
  have tsp : TagRel g ' ' ' ' := tag_self (by decide) (by decide)
  have tdot : TagRel g '.' '.' := tag_self (by decide) (by decide)
  have hlit : ∀ (t : List Tmpl), (t.all fun x => match x with
      | .lit s => s.all fun c => decide (c.toNat < 128) && !c.isDigit
      | .ref _ => true) = true → tmplPlain (TagRel g) t := by
    intro t ht x hx
    have := List.all_eq_true.mp ht x hx
    cases x with
    | lit s => exact tag_word this
    | ref _ => trivial
  unfold sanitizeDate
  dsimp only
  refine trimSpace_rel (TagRel.digits g) ?_
  have happ : ∀ x y, TagRel g x y → TagRel g (if ['\u2019', '\u02bc', '\u02bb', '\u055a', '\ua78c', '\u2032', '\u2035', '\u02b9', '\uff07'].contains x = true then '\'' else x)
      (if ['\u2019', '\u02bc', '\u02bb', '\u055a', '\ua78c', '\u2032', '\u2035', '\u02b9', '\uff07'].contains y = true then '\'' else y) := by
    intro x y hxy
    rcases hxy.same with ⟨h1, h2, _⟩ | ⟨h1, rfl⟩
    · have e : ∀ c : Char, c.isDigit = true → (['\u2019', '\u02bc', '\u02bb', '\u055a', '\ua78c', '\u2032', '\u2035', '\u02b9', '\uff07'].contains c) = false := by
        intro c hc
        have := digit_range hc
        rw [← Bool.not_eq_true, List.contains_iff_mem]
        intro hm
        simp only [List.mem_cons, List.not_mem_nil, or_false] at hm
        rcases hm with rfl | rfl | rfl | rfl | rfl | rfl | rfl | rfl | rfl <;> revert hc <;> decide
      rw [e x h1, e y h2]; exact hxy
    · by_cases hm : (['\u2019', '\u02bc', '\u02bb', '\u055a', '\ua78c', '\u2032', '\u2035', '\u02b9', '\uff07'].contains y) = true
      · rw [if_pos hm]; exact tag_self (by decide) (by decide)
      · rw [if_neg hm]; exact hxy
  refine Rel2.map (R := TagRel g) ?_ happ
  refine trimColon_rel (fun x y hxy => hxy.case.cls (p := (· == ':')) (by decide +kernel)) ?_
  have step5 : Rel2 (TagRel g) (replaceAllTmpl (rxSanitizePeriod asciiUni) [.ref 1] (sanitizeSpaces (replaceAllTmpl (rxSanitizeCroatian asciiUni) [.ref 1, .lit ['.'], .ref 2, .lit ['.'], .ref 3, .lit [' ']]
      (replaceAllTmpl (rxSanitizeRussian asciiUni) [.ref 1, .lit [' ']] (replaceAllTmpl rxSanitizeSkip [.lit [' ']] s)))))
      (replaceAllTmpl (rxSanitizePeriod U) [.ref 1] (sanitizeSpaces (replaceAllTmpl (rxSanitizeCroatian U) [.ref 1, .lit ['.'], .ref 2, .lit ['.'], .ref 3, .lit [' ']]
      (replaceAllTmpl (rxSanitizeRussian U) [.ref 1, .lit [' ']] (replaceAllTmpl rxSanitizeSkip [.lit [' ']] t))))) := by
    refine replaceAll_rel (RxRel.tag r4) (hlit _ (by decide)) ?_
    have hs : ∀ x y, TagRel g x y → isSpace x = isSpace y := (TagRel.digits g).isSpace
    refine joinWith_rel tsp (fieldsAux_rel hs ?_ .nil)
    refine Rel2.filter ?_ fun x y hxy => hxy.case.cls (p := fun c => c != '\u00a0') (by decide +kernel)
    refine replaceAll_rel (RxRel.tag r3) (hlit _ (by decide)) ?_
    refine replaceAll_rel (RxRel.tag r2) (hlit _ (by decide)) ?_
    exact replaceAll_rel (RxRel.tag (caseRx_rel (r := rxSanitizeSkip) (by decide +kernel))) (hlit _ (by decide)) h
  unfold cutOn
  have hf := find_rel (RxRel.tag (g := g) (caseRx_rel (r := rxOn) (by decide +kernel))) step5 (.none)
  unfold Rx.findFirst
  revert hf
  generalize rxOn.find none _ = m
  generalize rxOn.find none _ = n
  intro hf
  cases hf with
  | none => exact step5
  | some h => exact h.after.rest

end Verif.Lemmas
