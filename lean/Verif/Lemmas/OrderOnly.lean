import Verif.Model.Absolute
import Verif.Spec.Text
import Verif.Lemmas.Names
/-! Helper lemmas: the parser of separated dates uses the letters d, m and y of the date order only. -/
set_option autoImplicit false
namespace Verif.Lemmas
open Verif.Go Verif.Model Verif.Spec

theorem digitDirLoop_fns {e e' : AEnv} (h : e'.fns = e.fns) (s : ASt) (c : Comp) (text : List Char) : ∀ ds, digitDirLoop e' s c text ds = digitDirLoop e s c text ds := by
  intro ds
  induction ds with
  | nil => rfl
  | cons d ds ih =>
    unfold digitDirLoop
    rw [h, ih]

theorem parseDigit_fns {e e' : AEnv} (h : e'.fns = e.fns) (s : ASt) (text : List Char) : ∀ l, parseDigitToken e' s text l = parseDigitToken e s text l := by
  intro l
  induction l with
  | nil => rfl
  | cons x l ih =>
    unfold parseDigitToken
    rw [digitDirLoop_fns h, ih]

theorem letterDirLoop_fns {e e' : AEnv} (h : e'.fns = e.fns) (s : ASt) (c : Comp) (text : List Char) : ∀ ds, letterDirLoop e' s c text ds = letterDirLoop e s c text ds := by
  intro ds
  induction ds with
  | nil => rfl
  | cons d ds ih =>
    unfold letterDirLoop
    rw [h, ih]

theorem parseLetter_fns {e e' : AEnv} (h : e'.fns = e.fns) (s : ASt) (text : List Char) : ∀ l, parseLetterToken e' s text l = parseLetterToken e s text l := by
  intro l
  induction l with
  | nil => rfl
  | cons x l ih =>
    unfold parseLetterToken
    rw [letterDirLoop_fns h, ih]

theorem initLoop_order {e e' : AEnv} (h : e'.fns = e.fns) (hm : e'.monthFirst = e.monthFirst) (ho : numberDirectives e'.cfg.dateOrder = numberDirectives e.cfg.dateOrder)
    (toks : List Tok) (filtered : List FTok) : ∀ (l : List FTok) (i : Nat) (s : ASt), initLoop e' toks filtered i l s = initLoop e toks filtered i l s := by
  intro l
  induction l with
  | nil => intro i s; rfl
  | cons ft l ih =>
    intro i s
    unfold initLoop
    have : initStep e' toks filtered i ft s = initStep e toks filtered i ft s := by
      unfold initStep
      rw [ho, hm]
      simp only [parseDigit_fns h, parseLetter_fns h]
    rw [this]
    split
    · rfl
    · exact ih _ _

theorem absInit_order {e e' : AEnv} (h : e'.fns = e.fns) (hm : e'.monthFirst = e.monthFirst) (ho : numberDirectives e'.cfg.dateOrder = numberDirectives e.cfg.dateOrder)
    (str : List Char) : absInit e' str = absInit e str := by
  unfold absInit
  simp only [initLoop_order h hm ho]

/-- Date orders with the same letters d, m and y give the same result. -/
theorem absolute_order (cfg : Cfg) (o : List Char) (h : numberDirectives o = numberDirectives cfg.dateOrder) (now : Time) (mf : Nat → Bool) (str : List Char) (tz : Option Tz) :
    absoluteParse { cfg with dateOrder := o } now mf str tz = absoluteParse cfg now mf str tz := by
  unfold absoluteParse
  simp only
  rw [absInit_order (e := { fns := gregFns, cfg := cfg, sysNow := now, monthFirst := mf })
      (e' := { fns := gregFns, cfg := { cfg with dateOrder := o }, sysNow := now, monthFirst := mf }) rfl rfl h]
  split
  · rfl
  · rfl

/-! ## The letters of a date order -/

theorem directives_letters (s : List Char) : numberDirectives s = numberDirectives (orderLetters s) := by
  have hidem : ∀ c, toLowerC (toLowerC c) = toLowerC c := toLowerC_idem
  unfold numberDirectives orderLetters
  have e : toLower ((toLower s).filter fun c => c == 'd' || c == 'm' || c == 'y') = (toLower s).filter fun c => c == 'd' || c == 'm' || c == 'y' := by
    unfold toLower
    rw [List.map_congr_left (g := id) ?_, List.map_id]
    intro c hc
    obtain ⟨b, _, rfl⟩ := List.mem_map.mp (List.mem_filter.mp hc).1
    exact hidem b
  rw [e]
  induction toLower s with
  | nil => rfl
  | cons c s ih =>
    rw [List.filter_cons]
    split
    · rw [List.filterMap_cons, List.filterMap_cons, ih]
    · rename_i h
      simp only [Bool.or_eq_true, beq_iff_eq, not_or] at h
      rw [List.filterMap_cons, ih]
      simp [h.1.1, h.1.2, h.2]

/-- The result depends on these letters only. -/
theorem absolute_letters (cfg : Cfg) (o : Order) (h : orderLetters cfg.dateOrder = o.letters) (now : Time) (mf : Nat → Bool) (str : List Char) (tz : Option Tz) :
    absoluteParse { cfg with dateOrder := o.letters } now mf str tz = absoluteParse cfg now mf str tz :=
  absolute_order cfg o.letters (by rw [directives_letters cfg.dateOrder, h]) now mf str tz

theorem letters_lower (o : Order) : toLower o.letters = o.letters := by cases o <;> decide
theorem letters_self {s : List Char} {o : Order} (h : toLower s = o.letters) : orderLetters s = o.letters := by
  unfold orderLetters
  rw [h]
  cases o <;> decide

end Verif.Lemmas
