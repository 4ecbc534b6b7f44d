import Verif.Spec.Preferences
import Verif.Lemmas.ClockText
import Verif.Lemmas.Steps
/-! Helper lemmas: `Init` on strings that end with a time of day. -/
set_option autoImplicit false
namespace Verif.Lemmas
open Verif.Go Verif.Model Verif.Spec

/-- What `captureTime` returns when hours and minutes are not joined by a period. -/
theorem captureTime_result (toks : List Tok) (fl : List FTok) (index : Nat) (ft : FTok) (sk : List Nat)
    (hj : tokTextAt toks (ft.origIdx + 1) ≠ ['.'] ∨
      (∀ next, fl[index + 1]? = some next →
        isHourMinute (ft.tok.text ++ [':'] ++ next.tok.text) = false))
    (micro mer : List Char) (hmicro : captureMicro toks fl index ft.tok.text = micro)
    (hmer : captureMeridian fl (if micro.isEmpty then index + 1 else index + 2) = mer)
    (hsome : ft.tok.text.contains ':' = true ∨ mer ≠ []) :
    captureTime toks fl index ft sk =
      (some (ft.tok.text ++ (if micro.isEmpty then [] else '.' :: micro) ++ (if mer.isEmpty then [] else ' ' :: mer)),
       (if mer.isEmpty then [] else [if micro.isEmpty then index + 1 else index + 2]) ++
         ((if micro.isEmpty then [] else [index + 1]) ++ sk)) := by
  have hjn : joinPeriod toks fl index ft = none := by
    unfold joinPeriod
    cases hn : fl[index + 1]? with
    | none => rfl
    | some next =>
      rcases hj with h | h
      · have : (tokTextAt toks (ft.origIdx + 1) == ['.']) = false := by simpa using h
        simp [this]
      · have := h next hn
        simp only [this]; simp
  unfold captureTime
  simp only [hjn, Option.getD_none, Option.isSome_none, Bool.false_eq_true, if_false]
  rw [hmicro]
  by_cases h1 : micro.isEmpty = true
  · rw [if_pos h1] at hmer
    simp only [h1, if_true]
    rw [hmer]
    by_cases h2 : mer.isEmpty = true
    · have h3 : mer = [] := by simpa using h2
      rcases hsome with h | h
      · simp [h, h3]
        simpa using h
      · exact absurd h3 h
    · have h3 : mer.isEmpty = false := by simpa using h2
      simp [h3]
  · rw [if_neg h1] at hmer
    have h1' : micro.isEmpty = false := by simpa using h1
    simp only [h1', Bool.false_eq_true, if_false]
    rw [hmer]
    by_cases h2 : mer.isEmpty = true
    · have h3 : mer = [] := by simpa using h2
      simp [h3]
    · have h3 : mer.isEmpty = false := by simpa using h2
      simp [h3]

/-! ### The words of a time -/

/-- Digits and colons. -/
def clockWord : Notation → List Char
  | .hour h _ => h
  | .hm h m => h ++ ':' :: m
  | .hmMer h m _ => h ++ ':' :: m
  | .hms h m s => h ++ ':' :: (m ++ ':' :: s)
  | .hmsFrac h m s _ => h ++ ':' :: (m ++ ':' :: s)
  | .hmsMer h m s _ => h ++ ':' :: (m ++ ':' :: s)
  | .hmsFracMer h m s _ _ => h ++ ':' :: (m ++ ':' :: s)

/-- What follows, with what separates it. -/
def restWords : Notation → List (List Char × Wd)
  | .hour _ mer => [([' '], ⟨mer, .letter⟩)]
  | .hm _ _ => []
  | .hmMer _ _ mer => [([' '], ⟨mer, .letter⟩)]
  | .hms _ _ _ => []
  | .hmsFrac _ _ _ f => [(['.'], ⟨f, .digit⟩)]
  | .hmsMer _ _ _ mer => [([' '], ⟨mer, .letter⟩)]
  | .hmsFracMer _ _ _ f mer => [(['.'], ⟨f, .digit⟩), ([' '], ⟨mer, .letter⟩)]

theorem text_phrase (n : Notation) : n.text = phrase ⟨clockWord n, .digit⟩ (restWords n) := by
  cases n <;> simp [Notation.text, clockWord, restWords, phrase]

theorem run_colon {s : List Char} (h : Digits s) : Run .digit s := digits_run h

theorem run_append {t : TokType} {a b : List Char} (ha : Run t a) (hb : Run t b) : Run t (a ++ b) := by
  intro c hc
  rcases List.mem_append.mp hc with h | h
  · exact ha c h
  · exact hb c h

theorem run_cons_colon {b : List Char} (hb : Run .digit b) : Run .digit (':' :: b) := by
  intro c hc
  rcases List.mem_cons.mp hc with h | h
  · rw [h]; decide
  · exact hb c h

theorem mer_run {mer : List Char} {mr : Meridian} (h : IsMeridian mer mr) : Run .letter mer ∧ mer ≠ [] := by
  have hne : mer ≠ [] := by rintro rfl; cases mr <;> simp [IsMeridian, toLower] at h
  have : (toLower mer).all (fun c => isLetterTok c) = true := by
    cases mr <;> (simp only [IsMeridian] at h; rw [h]; decide)
  refine ⟨?_, hne⟩
  exact lower_run rfl this

theorem findMeridian_mer {mer : List Char} {mr : Meridian} (h : IsMeridian mer mr) : findMeridian mer = mer := by
  have hl : mer.length = 2 := by
    have := congrArg List.length (show toLower mer = toLower mer from rfl)
    cases mr <;> (simp only [IsMeridian] at h; have := congrArg List.length h; simpa [toLower] using this)
  match mer, hl with
  | [a, b], _ =>
    cases mr <;>
    · simp only [IsMeridian, toLower, List.map_cons, List.map_nil, List.cons.injEq, and_true] at h
      simp [findMeridian, h.1, h.2]

theorem clockWord_ok (n : Notation) (mr : Meridian) (h : n.Written mr) : (Wd.mk (clockWord n) .digit).OK := by
  cases n with
  | hour hh mer => exact ⟨h.1.1.1, digits_run h.1.1.2, by simp⟩
  | hm hh m =>
    exact ⟨by simp [clockWord], run_append (digits_run h.1.1.2) (run_cons_colon (digits_run h.2.1.2)), by simp⟩
  | hmMer hh m mer =>
    exact ⟨by simp [clockWord], run_append (digits_run h.1.1.2) (run_cons_colon (digits_run h.2.1.1.2)), by simp⟩
  | hms hh m s =>
    exact ⟨by simp [clockWord], run_append (digits_run h.1.1.2) (run_cons_colon (run_append (digits_run h.2.1.1.2)
      (run_cons_colon (digits_run h.2.2.1.2)))), by simp⟩
  | hmsFrac hh m s f =>
    exact ⟨by simp [clockWord], run_append (digits_run h.1.1.2) (run_cons_colon (run_append (digits_run h.2.1.1.2)
      (run_cons_colon (digits_run h.2.2.1.1.2)))), by simp⟩
  | hmsMer hh m s mer =>
    exact ⟨by simp [clockWord], run_append (digits_run h.1.1.2) (run_cons_colon (run_append (digits_run h.2.1.1.2)
      (run_cons_colon (digits_run h.2.2.1.1.2)))), by simp⟩
  | hmsFracMer hh m s f mer =>
    exact ⟨by simp [clockWord], run_append (digits_run h.1.1.2) (run_cons_colon (run_append (digits_run h.2.1.1.2)
      (run_cons_colon (digits_run h.2.2.1.1.2)))), by simp⟩

theorem sepOK_space : SepOK [' '] := ⟨by intro c hc; simp at hc; subst hc; decide, ' ', by simp, by decide⟩
theorem sepOK_dot : SepOK ['.'] := ⟨by intro c hc; simp at hc; subst hc; decide, '.', by simp, by decide⟩

theorem wdOK_mer {mer : List Char} {mr : Meridian} (h : IsMeridian mer mr) : (Wd.mk mer .letter).OK :=
  ⟨(mer_run h).2, (mer_run h).1, by simp⟩

theorem restWords_ok (n : Notation) (mr : Meridian) (h : n.Written mr) : Parts (restWords n) := by
  cases n with
  | hour hh mer => intro p hp; simp [restWords] at hp; subst hp; exact ⟨sepOK_space, wdOK_mer h.2⟩
  | hm hh m => intro p hp; simp [restWords] at hp
  | hmMer hh m mer => intro p hp; simp [restWords] at hp; subst hp; exact ⟨sepOK_space, wdOK_mer h.2.2⟩
  | hms hh m s => intro p hp; simp [restWords] at hp
  | hmsFrac hh m s f => intro p hp; simp [restWords] at hp; subst hp; exact ⟨sepOK_dot, wdOK_digits h.2.2.2⟩
  | hmsMer hh m s mer => intro p hp; simp [restWords] at hp; subst hp; exact ⟨sepOK_space, wdOK_mer h.2.2.2⟩
  | hmsFracMer hh m s f mer =>
    intro p hp; simp [restWords] at hp
    rcases hp with rfl | rfl
    · exact ⟨sepOK_dot, wdOK_digits h.2.2.2.1⟩
    · exact ⟨sepOK_space, wdOK_mer h.2.2.2.2⟩

theorem findMeridian_noletter {s : List Char} (h : Run .digit s) : findMeridian s = [] := by
  induction s with
  | nil => rfl
  | cons a r ih =>
    cases r with
    | nil => rfl
    | cons b r =>
      have ha := h a (by simp)
      have h1 : toLowerC a ≠ 'a' ∧ toLowerC a ≠ 'p' := by
        have hd : isDigitTok a = true := by
          unfold classOf at ha
          split at ha
          · assumption
          · split at ha <;> cases ha
        rw [← isDigitTok_iff] at hd
        rcases hd with hd | rfl
        · have := toLowerC_digit hd
          rw [this]
          constructor <;> (rintro rfl; exact absurd hd (by decide))
        · decide
      rw [findMeridian]
      simp only [beq_eq_false_iff_ne.mpr h1.1, beq_eq_false_iff_ne.mpr h1.2, Bool.or_self, Bool.false_and,
        Bool.false_eq_true, if_false]
      exact ih (fun c hc => h c (by simp [hc]))

theorem findMicro_digits {f : List Char} (h : IsNumeral f) : findMicro f = f.take 6 := by
  unfold findMicro
  have h1 : f.dropWhile (fun c => !c.isDigit) = f := by
    cases f with
    | nil => rfl
    | cons a t => simp [h.2 a (by simp)]
  have h2 : f.takeWhile Char.isDigit = f := by
    have : f.takeWhile Char.isDigit = (f ++ []).takeWhile Char.isDigit := by simp
    rw [this, List.takeWhile_append_of_pos (fun x hx => h.2 x hx)]
    simp
  rw [h1, h2]

/-- An hour and minute has one colon. -/
theorem isHourMinute_count {s : List Char} (h : isHourMinute s = true) : s.count ':' = 1 := by
  have dc : ∀ c : Char, c.isDigit = true → c ≠ ':' := fun c hc => by rintro rfl; exact absurd hc (by decide)
  have d5 : ∀ c : Char, ('0' ≤ c && c ≤ '5') = true → c ≠ ':' := fun c hc => by rintro rfl; exact absurd hc (by decide)
  unfold isHourMinute at h
  split at h
  · rename_i x y z
    simp only [Bool.and_eq_true] at h
    have a := dc _ h.1.1
    have b := d5 y (by simp [h.1.2])
    have c := dc _ h.2
    simp [List.count_cons, a, b, c]
  · rename_i g x y z
    simp only [Bool.and_eq_true, Bool.or_eq_true] at h
    have b := d5 y (by simp [h.1.2])
    have c := dc _ h.2
    have ax : g ≠ ':' ∧ x ≠ ':' := by
      rcases h.1.1 with ⟨h1, h2⟩ | ⟨h1, h2⟩
      · refine ⟨?_, dc _ h2⟩
        rcases h1 with h1 | h1 <;> (simp at h1; rw [h1]; decide)
      · refine ⟨by simp at h1; rw [h1]; decide, ?_⟩
        rintro rfl
        exact absurd h2 (by decide)
    simp [List.count_cons, ax.1, ax.2, b, c]
  · cases h

theorem not_hourMinute {a b : List Char} (h : a.contains ':' = true ∨ b.contains ':' = true) :
    isHourMinute (a ++ [':'] ++ b) = false := by
  cases hh : isHourMinute (a ++ [':'] ++ b) with
  | false => rfl
  | true =>
    have := isHourMinute_count hh
    have e1 : (a ++ [':'] ++ b).count ':' = a.count ':' + 1 + b.count ':' := by
      rw [List.count_append, List.count_append]; rfl
    simp only [List.contains_iff_mem] at h
    rcases h with h | h
    · have := List.count_pos_iff.mpr h; omega
    · have := List.count_pos_iff.mpr h; omega

/-! ### Words before the time -/

/-- Words with separators in front of a phrase. -/
def chain : List (Wd × List Char) → Wd → List (List Char × Wd) → Wd × List (List Char × Wd)
  | [], a, r => (a, r)
  | (w, s) :: p, a, r => (w, (s, (chain p a r).1) :: (chain p a r).2)

def preText : List (Wd × List Char) → List Char → List Char
  | [], t => t
  | (w, s) :: p, t => w.text ++ (s ++ preText p t)

def preToks : List (Wd × List Char) → List Tok
  | [] => []
  | (w, s) :: p => ⟨w.text, w.typ⟩ :: ⟨s, .other⟩ :: preToks p

def preF : Nat → List (Wd × List Char) → List FTok
  | _, [] => []
  | i, (w, _) :: p => ⟨⟨w.text, w.typ⟩, i⟩ :: preF (i + 2) p

theorem phrase_chain (p : List (Wd × List Char)) (a : Wd) (r : List (List Char × Wd)) :
    phrase (chain p a r).1 (chain p a r).2 = preText p (phrase a r) := by
  induction p with
  | nil => rfl
  | cons x p ih => obtain ⟨w, s⟩ := x; simp only [chain, phrase, preText, ih]

theorem mkToks_chain (p : List (Wd × List Char)) (a : Wd) (r : List (List Char × Wd)) :
    mkToks (chain p a r).1 (chain p a r).2 = preToks p ++ mkToks a r := by
  induction p with
  | nil => rfl
  | cons x p ih => obtain ⟨w, s⟩ := x; simp only [chain, mkToks, preToks, ih, List.cons_append]

theorem filterToks_pre (T : List Tok) : ∀ (p : List (Wd × List Char)) (i : Nat), (∀ x ∈ p, x.1.typ ≠ .other) →
    filterToks i (preToks p ++ T) = preF i p ++ filterToks (i + 2 * p.length) T := by
  intro p
  induction p with
  | nil => intro i _; rfl
  | cons x p ih =>
    intro i h
    obtain ⟨w, s⟩ := x
    have hw : w.typ ≠ .other := h (w, s) (by simp)
    simp only [preToks, List.cons_append, filterToks, hw, if_false, if_true, preF, List.cons.injEq, true_and]
    rw [ih (i + 1 + 1) (fun y hy => h y (by simp [hy])), show i + 1 + 1 = i + 2 by omega,
      show i + 2 + 2 * p.length = i + 2 * (p.length + 1) by omega]
    rfl

theorem chain_parts {p : List (Wd × List Char)} {a : Wd} {r : List (List Char × Wd)}
    (hp : ∀ x ∈ p, x.1.OK ∧ SepOK x.2) (ha : a.OK) (hr : Parts r) :
    (chain p a r).1.OK ∧ Parts (chain p a r).2 := by
  induction p with
  | nil => exact ⟨ha, hr⟩
  | cons x p ih =>
    obtain ⟨w, s⟩ := x
    have ih := ih (fun y hy => hp y (by simp [hy]))
    have hx := hp (w, s) (by simp)
    refine ⟨hx.1, ?_⟩
    intro q hq
    simp only [chain, List.mem_cons] at hq
    rcases hq with rfl | hq
    · exact ⟨hx.2, ih.1⟩
    · exact ih.2 q hq

/-- Separators replaced by their tokens. -/
theorem chain_rel (p : List (Wd × List Char)) (a : Wd) (r : List (List Char × Wd)) :
    ∀ r', r'.map (·.2) = (chain p a r).2.map (·.2) → All2 (fun x y => SepRel x.1 y.1) (chain p a r).2 r' →
    ∃ p' rt, p'.map (·.1) = p.map (·.1) ∧ All2 (fun x y => SepRel x.2 y.2) p p' ∧
      rt.map (·.2) = r.map (·.2) ∧ All2 (fun x y => SepRel x.1 y.1) r rt ∧
      chain p' a rt = ((chain p a r).1, r') := by
  induction p with
  | nil => intro r' hm hr; exact ⟨[], r', rfl, .nil, hm, hr, rfl⟩
  | cons x p ih =>
    intro r' hm hr
    obtain ⟨w, s⟩ := x
    simp only [chain] at hm hr
    cases hr with
    | cons h ht =>
      rename_i y r'
      obtain ⟨t, b⟩ := y
      simp only [List.map_cons, List.cons.injEq] at hm
      obtain ⟨hb, hm⟩ := hm
      obtain ⟨p', rt, e1, e2, e3, e4, e5⟩ := ih r' hm ht
      refine ⟨(w, t) :: p', rt, by simp [e1], .cons h e2, e3, e4, ?_⟩
      simp only [chain, e5, hb]

/-- Text of the next word. -/
def nextText : List (Wd × List Char) → List Char → List Char
  | [], t => t
  | (w, _) :: _, _ => w.text

/-- The separator after the first word is a period. -/
def dotNext : List (Wd × List Char) → Prop
  | [] => False
  | (_, s) :: _ => s = ['.']

/-- The words before the time do not belong to a time themselves; `pr` is the separator before. -/
def PreOK : List Char → List (Wd × List Char) → List Char → Prop
  | _, [], _ => True
  | pr, (w, s) :: p, t =>
    (skippedTokens.contains w.text = true ∨
      (skippedTokens.contains w.text = false ∧ w.text.contains ':' = false ∧ findMeridian (nextText p t) = [] ∧
        ('.' ∉ s ∨ isHourMinute (w.text ++ [':'] ++ nextText p t) = false ∨ pr = ['.'] ∨ dotNext p))) ∧ PreOK s p t

theorem PreOK.rel {p p' : List (Wd × List Char)} {t : List Char} (hw : p'.map (·.1) = p.map (·.1))
    (hr : All2 (fun x y => SepRel x.2 y.2) p p') : ∀ {pr pr' : List Char}, (pr = ['.'] → pr' = ['.']) →
    PreOK pr p t → PreOK pr' p' t := by
  induction hr with
  | nil => intro pr pr' _ h; trivial
  | cons hx ht ih =>
    rename_i x y p p'
    intro pr pr' hpr h
    obtain ⟨w, s⟩ := x
    obtain ⟨w', s'⟩ := y
    simp only [List.map_cons, List.cons.injEq] at hw
    obtain ⟨rfl, hw⟩ := hw
    have hn : nextText p' t = nextText p t := by
      cases ht with
      | nil => rfl
      | cons _ _ =>
        simp only [List.map_cons, List.cons.injEq] at hw
        simp only [nextText, hw.1]
    have hdn : dotNext p → dotNext p' := by
      intro hd
      cases ht with
      | nil => exact hd
      | cons hy _ => exact hy.dot hd
    refine ⟨?_, ih hw hx.dot h.2⟩
    rcases h.1 with h1 | ⟨h1, h2, h3, h4⟩
    · exact Or.inl h1
    · refine Or.inr ⟨h1, h2, by rw [hn]; exact h3, ?_⟩
      rcases h4 with h4 | h4 | h4 | h4
      · left
        intro hc
        rcases hx.mem _ hc with h5 | h5
        · exact h4 h5
        · exact absurd h5 (by decide)
      · right; left; rw [hn]; exact h4
      · exact Or.inr (Or.inr (Or.inl (hpr h4)))
      · exact Or.inr (Or.inr (Or.inr (hdn h4)))

/-- One word before the time. -/
def preStep (e : AEnv) (i : Nat) (w : Wd) (s : ASt) : Option ASt :=
  if skippedTokens.contains w.text then some s else valueStep e i ⟨w.text, w.typ⟩ s

def preSteps (e : AEnv) : Nat → List Wd → ASt → Option ASt
  | _, [], s => some s
  | i, w :: r, s => (preStep e i w s).bind (preSteps e (i + 1) r)

theorem preStep_skipped {e : AEnv} {i : Nat} {w : Wd} {s s' : ASt} (h : preStep e i w s = some s') :
    s'.skippedIdx = s.skippedIdx := by
  unfold preStep at h
  split at h
  · cases h; rfl
  · exact valueStep_skipped h

theorem preSteps_skipped {e : AEnv} : ∀ {ws : List Wd} {i : Nat} {s s' : ASt}, preSteps e i ws s = some s' →
    s'.skippedIdx = s.skippedIdx := by
  intro ws
  induction ws with
  | nil => intro i s s' h; cases h; rfl
  | cons w ws ih =>
    intro i s s' h
    rw [preSteps, Option.bind_eq_some_iff] at h
    obtain ⟨s1, h1, h2⟩ := h
    rw [ih h2, preStep_skipped h1]

theorem preF_length : ∀ (p : List (Wd × List Char)) (i : Nat), (preF i p).length = p.length := by
  intro p
  induction p with
  | nil => intro i; rfl
  | cons x p ih => intro i; obtain ⟨w, s⟩ := x; simp [preF, ih]

theorem preToks_length : ∀ (p : List (Wd × List Char)), (preToks p).length = 2 * p.length := by
  intro p
  induction p with
  | nil => rfl
  | cons x p ih => obtain ⟨w, s⟩ := x; simp [preToks, ih]; omega

theorem preF_append : ∀ (p q : List (Wd × List Char)) (i : Nat),
    preF i (p ++ q) = preF i p ++ preF (i + 2 * p.length) q := by
  intro p
  induction p with
  | nil => intro q i; rfl
  | cons x p ih =>
    intro q i; obtain ⟨w, s⟩ := x
    simp only [List.cons_append, preF, ih, List.length_cons]
    rw [show i + 2 + 2 * p.length = i + 2 * (p.length + 1) by omega]

theorem preToks_append : ∀ (p q : List (Wd × List Char)), preToks (p ++ q) = preToks p ++ preToks q := by
  intro p
  induction p with
  | nil => intro q; rfl
  | cons x p ih => intro q; obtain ⟨w, s⟩ := x; simp [preToks, ih]

theorem getElem?_shift {α : Type} (p l : List α) (k j : Nat) (h : p.length = k) : (p ++ l)[k + j]? = l[j]? := by
  rw [List.getElem?_append_right (by omega)]; congr 1; omega

theorem tokTextAt_shift (p l : List Tok) (k j : Nat) (h : p.length = k) :
    tokTextAt (p ++ l) (k + j) = tokTextAt l j := by
  unfold tokTextAt; rw [getElem?_shift p l k j h]

theorem nextText_head (p : List (Wd × List Char)) (FT : List FTok) (t : List Char) (i : Nat)
    (hFT : ∃ f r, FT = f :: r ∧ f.tok.text = t) :
    ∃ f, (preF i p ++ FT)[0]? = some f ∧ f.tok.text = nextText p t := by
  obtain ⟨f, r, rfl, hf⟩ := hFT
  cases p with
  | nil => exact ⟨f, rfl, hf⟩
  | cons x p => obtain ⟨w, s⟩ := x; exact ⟨_, rfl, rfl⟩

/-- The separator after the last word. -/
def lastSep (p : List (Wd × List Char)) : List Char :=
  match p.getLast? with
  | some x => x.2
  | none => []

theorem lastSep_tok (p : List (Wd × List Char)) (T : List Tok) (h : lastSep p = ['.']) :
    2 * p.length ≠ 0 ∧ tokTextAt (preToks p ++ T) (2 * p.length - 1) = ['.'] := by
  unfold lastSep at h
  cases hg : p.getLast? with
  | none => rw [hg] at h; simp at h
  | some x =>
    rw [hg] at h
    obtain ⟨q, rfl⟩ := List.getLast?_eq_some_iff.mp hg
    obtain ⟨w, s⟩ := x
    dsimp only at h
    refine ⟨by simp, ?_⟩
    rw [preToks_append, List.append_assoc]
    have := tokTextAt_shift (preToks q) (preToks [(w, s)] ++ T) (2 * q.length) 1 (preToks_length q)
    simp only [List.length_append, List.length_singleton]
    rw [show 2 * (q.length + 1) - 1 = 2 * q.length + 1 by omega, this]
    exact h

/-- The loop over the words before the time. -/
theorem initLoop_pre (e : AEnv) (T : List Tok) (FT : List FTok) (t : List Char)
    (hFT : ∃ f r, FT = f :: r ∧ f.tok.text = t) :
    ∀ (rest done : List (Wd × List Char)) (s : ASt), s.skippedIdx = [] →
      PreOK (lastSep done) rest t →
      initLoop e (preToks (done ++ rest) ++ T) (preF 0 (done ++ rest) ++ FT) done.length
          (preF (2 * done.length) rest ++ FT) s =
        (match preSteps e done.length (rest.map (·.1)) s with
         | none => .error .error
         | some s' => initLoop e (preToks (done ++ rest) ++ T) (preF 0 (done ++ rest) ++ FT)
            (done ++ rest).length FT s') := by
  intro rest
  induction rest with
  | nil => intro done s hs _; simp [preF, preSteps]
  | cons x rest ih =>
    intro done s hs hok
    obtain ⟨w, sep⟩ := x
    obtain ⟨h1, h2⟩ := hok
    have key : initStep e (preToks (done ++ (w, sep) :: rest) ++ T) (preF 0 (done ++ (w, sep) :: rest) ++ FT)
        done.length ⟨⟨w.text, w.typ⟩, 2 * done.length⟩ s =
        (match preStep e done.length w s with
         | none => .error .error
         | some s' => .ok s') := by
      unfold initStep preStep
      rw [hs, show ([] : List Nat).contains done.length = false from rfl]
      simp only [Bool.false_eq_true, if_false]
      rcases h1 with h1 | ⟨h1, h3, h4, h5⟩
      · rw [h1]; rfl
      · rw [h1]
        simp only [Bool.false_eq_true, if_false]
        have hnext : ∃ f, (preF 0 (done ++ (w, sep) :: rest) ++ FT)[done.length + 1]? = some f ∧
            f.tok.text = nextText rest t := by
          rw [preF_append, List.append_assoc, getElem?_shift _ _ _ 1 (preF_length done 0)]
          simp only [preF, List.cons_append, List.getElem?_cons_succ]
          exact nextText_head rest FT t _ hFT
        obtain ⟨f, hf1, hf2⟩ := hnext
        have hcap := captureTime_none (preToks (done ++ (w, sep) :: rest) ++ T)
          (preF 0 (done ++ (w, sep) :: rest) ++ FT) done.length ⟨⟨w.text, w.typ⟩, 2 * done.length⟩ [] h3 ?_ ?_
        · rw [hcap]
          have hse : ({ s with skippedIdx := [] } : ASt) = s := by rw [← hs]
          simp only [hse, valueStep]
          generalize (if w.typ = TokType.digit then
            parseDigitToken e s w.text (numberDirectives e.cfg.dateOrder)
            else if w.typ = TokType.letter then
              parseLetterToken e s w.text (alphaDirectives (e.monthFirst done.length))
            else some (s, [])) = o
          cases o <;> rfl
        · rcases h5 with h5 | h5 | h5 | h5
          · left
            intro hc
            rw [preToks_append, List.append_assoc] at hc
            have := tokTextAt_shift (preToks done) (preToks ((w, sep) :: rest) ++ T) (2 * done.length) 1 (preToks_length done)
            rw [this] at hc
            have hc' : sep = ['.'] := hc
            rw [hc'] at h5
            exact h5 (by simp)
          · right; left
            intro n hn
            rw [hf1] at hn
            cases hn
            rw [hf2]; exact h5
          · right; right; left
            have := lastSep_tok done (preToks ((w, sep) :: rest) ++ T) h5
            rw [preToks_append, List.append_assoc]
            exact this
          · right; right; right
            cases rest with
            | nil => exact absurd h5 (by simp [dotNext])
            | cons y rest =>
              obtain ⟨w2, sep2⟩ := y
              have h5' : sep2 = ['.'] := h5
              have hg : (preF 0 (done ++ (w, sep) :: (w2, sep2) :: rest) ++ FT)[done.length + 1]? =
                  some ⟨⟨w2.text, w2.typ⟩, 2 * done.length + 2⟩ := by
                rw [preF_append, List.append_assoc, getElem?_shift _ _ _ 1 (preF_length done 0), Nat.zero_add]
                rfl
              intro n hn
              rw [hg] at hn
              cases hn
              refine ⟨?_, ?_⟩
              · obtain ⟨f, r, hFr, _⟩ := hFT
                simp only [List.length_append, preF_length, List.length_cons, hFr]
                omega
              · rw [preToks_append, List.append_assoc]
                have := tokTextAt_shift (preToks done) (preToks ((w, sep) :: (w2, sep2) :: rest) ++ T)
                  (2 * done.length) 3 (preToks_length done)
                show tokTextAt _ (2 * done.length + 3) = _
                rw [this]; exact h5'
        · intro n hn
          rw [hf1] at hn
          cases hn
          rw [hf2]; exact h4
    have e1 : preF (2 * done.length) ((w, sep) :: rest) ++ FT =
        ⟨⟨w.text, w.typ⟩, 2 * done.length⟩ :: (preF (2 * done.length + 2) rest ++ FT) := rfl
    rw [e1, initLoop, key, List.map_cons, preSteps]
    cases hst : preStep e done.length w s with
    | none => rfl
    | some s' =>
      simp only [Option.bind_some]
      have := ih (done ++ [(w, sep)]) s' (by rw [preStep_skipped hst, hs])
        (by unfold lastSep; simp only [List.getLast?_concat]; exact h2)
      simp only [List.append_assoc, List.singleton_append, List.length_append, List.length_singleton] at this
      rw [show 2 * (done.length + 1) = 2 * done.length + 2 by omega] at this
      rw [this]
      simp

/-! ### The time itself -/

/-- No word before the time has a colon. -/
theorem PreOK.noColon {p : List (Wd × List Char)} {t : List Char} : ∀ {pr : List Char}, PreOK pr p t →
    ∀ x ∈ p, x.1.text.contains ':' = false := by
  induction p with
  | nil => intro _ _ x hx; simp at hx
  | cons y p ih =>
    obtain ⟨w, s⟩ := y
    intro pr h x hx
    rcases List.mem_cons.mp hx with rfl | hx
    · rcases h.1 with h1 | ⟨_, h2, _⟩
      · have h1' : w.text ∈ skippedTokens := by simpa [List.contains_iff_mem] using h1
        dsimp only
        have : ∀ l ∈ skippedTokens, l.contains ':' = false := by decide
        exact this _ h1'
      · exact h2
    · exact ih h.2 x hx

theorem findIdx_pre (a : List Char) (T : List Tok) (hT : ∃ r, T = ⟨a, .digit⟩ :: r) (ha : a.contains ':' = true) :
    ∀ p : List (Wd × List Char), (∀ x ∈ p, x.1.text.contains ':' = false) →
    (preToks p ++ T).findIdx? (fun t => t.text == a && t.typ == .digit) = some (2 * p.length) := by
  intro p
  induction p with
  | nil => intro _; obtain ⟨r, rfl⟩ := hT; simp [preToks, List.findIdx?_cons]
  | cons x p ih =>
    intro h
    obtain ⟨w, s⟩ := x
    have hw : w.text ≠ a := by
      intro he
      have := h (w, s) (by simp)
      dsimp only at this
      rw [he, ha] at this
      cases this
    have ih := ih (fun y hy => h y (by simp [hy]))
    have t1 : (fun t : Tok => t.text == a && t.typ == TokType.digit) ⟨w.text, w.typ⟩ = false := by simp [hw]
    have t2 : (fun t : Tok => t.text == a && t.typ == TokType.digit) ⟨s, .other⟩ = false := by simp
    simp only [preToks, List.cons_append, List.findIdx?_cons, t1, t2, ih]
    simp; omega

/-- Skipped tokens do not change the state. -/
theorem initLoop_allSkipped (e : AEnv) (toks : List Tok) (fl : List FTok) : ∀ (r : List FTok) (i : Nat) (s : ASt),
    (∀ j, j < r.length → s.skippedIdx.contains (i + j) = true) → initLoop e toks fl i r s = .ok s := by
  intro r
  induction r with
  | nil => intro i s _; rfl
  | cons f r ih =>
    intro i s h
    have h0 := h 0 (by simp)
    rw [Nat.add_zero] at h0
    rw [initLoop]
    have : initStep e toks fl i f s = .ok s := by unfold initStep; rw [if_pos h0]
    rw [this]
    refine ih (i + 1) s ?_
    intro j hj
    have := h (j + 1) (by simp; omega)
    rw [show i + 1 + j = i + (j + 1) by omega]; exact this

theorem clockWord_notSkipped (n : Notation) (mr : Meridian) (h : n.Written mr) :
    skippedTokens.contains (clockWord n) = false := by
  have ok := clockWord_ok n mr h
  cases hc : skippedTokens.contains (clockWord n) with
  | false => rfl
  | true =>
    have hm : clockWord n ∈ skippedTokens := by simpa [List.contains_iff_mem] using hc
    have : ∀ l ∈ skippedTokens, ∃ c ∈ l, classOf c ≠ .digit := by
      intro l hl
      simp only [skippedTokens, List.mem_cons, List.not_mem_nil, or_false] at hl
      rcases hl with rfl | rfl | rfl | rfl
      · exact ⟨'t', by decide, by decide⟩
      · exact ⟨'y', by decide, by decide⟩
      · exact ⟨'h', by decide, by decide⟩
      · exact ⟨'m', by decide, by decide⟩
    obtain ⟨c, hc1, hc2⟩ := this _ hm
    exact absurd (ok.run c hc1) hc2

theorem sepRel_space {t : List Char} (h : SepRel [' '] t) : t ≠ ['.'] ∧ t.contains '.' = false := by
  have : '.' ∉ t := by
    intro hc
    rcases h.mem _ hc with h1 | h1
    · simp at h1
    · exact absurd h1 (by decide)
  refine ⟨?_, by simpa using this⟩
  rintro rfl
  simp at this

theorem colon_in (h m : List Char) : (h ++ ':' :: m).contains ':' = true := by simp

theorem take6_ne {f : List Char} (h : IsNumeral f) : (f.take 6).isEmpty = false := by
  cases f with
  | nil => exact absurd rfl h.1
  | cons a t => simp

/-- The loop at the time: it is captured and all its words are skipped. -/
theorem initLoop_time (e : AEnv) (n : Notation) (mr : Meridian) (hn : n.Written mr)
    (p : List (Wd × List Char)) (hp : ∀ x ∈ p, x.1.text.contains ':' = false)
    (rt : List (List Char × Wd)) (hrt : rt.map (·.2) = (restWords n).map (·.2))
    (hrel : All2 (fun x y => SepRel x.1 y.1) (restWords n) rt) (s : ASt) (hs : s.skippedIdx = []) :
    ∃ sk, initLoop e (preToks p ++ mkToks ⟨clockWord n, .digit⟩ rt)
        (preF 0 p ++ filterToks (2 * p.length) (mkToks ⟨clockWord n, .digit⟩ rt)) p.length
        (filterToks (2 * p.length) (mkToks ⟨clockWord n, .digit⟩ rt)) s =
      .ok { s with skippedIdx := sk, ctoks := { s.ctoks with time := some ⟨(cut6 n).text, .digit⟩ } } := by
  have hmk : ∃ r, mkToks ⟨clockWord n, .digit⟩ rt = ⟨clockWord n, .digit⟩ :: r := by
    cases rt with
    | nil => exact ⟨_, rfl⟩
    | cons x _ => obtain ⟨_, _⟩ := x; exact ⟨_, rfl⟩
  generalize hT : mkToks ⟨clockWord n, .digit⟩ rt = T at hmk
  generalize hF : filterToks (2 * p.length) T = F
  -- the general step
  have step : ∀ (micro mer : List Char) (FR : List FTok),
      F = ⟨⟨clockWord n, .digit⟩, 2 * p.length⟩ :: FR →
      (tokTextAt T 1 ≠ ['.'] ∨ (clockWord n).contains ':' = true) →
      (match FR[0]? with
        | some next => if (clockWord n).contains ':' && (tokTextAt T 1).contains '.' then findMicro next.tok.text else []
        | none => []) = micro →
      captureMeridian FR (if micro.isEmpty then 0 else 1) = mer →
      ((clockWord n).contains ':' = true ∨ mer ≠ []) →
      FR.length ≤ (if mer.isEmpty then 0 else 1) + (if micro.isEmpty then 0 else 1) →
      clockWord n ++ (if micro.isEmpty then [] else '.' :: micro) ++ (if mer.isEmpty then [] else ' ' :: mer)
        = (cut6 n).text →
      ∃ sk, initLoop e (preToks p ++ T) (preF 0 p ++ F) p.length F s =
        .ok { s with skippedIdx := sk, ctoks := { s.ctoks with time := some ⟨(cut6 n).text, .digit⟩ } } := by
    intro micro mer FR hFR hj hmi hme hso hlen htx
    have hcap := captureTime_result (preToks p ++ T) (preF 0 p ++ F) p.length
      ⟨⟨clockWord n, .digit⟩, 2 * p.length⟩ [] ?_ micro mer ?_ ?_ hso
    · rw [htx] at hcap
      have hstep : initStep e (preToks p ++ T) (preF 0 p ++ F) p.length ⟨⟨clockWord n, .digit⟩, 2 * p.length⟩ s =
          .ok { s with
            skippedIdx := (if mer.isEmpty then [] else [if micro.isEmpty then p.length + 1 else p.length + 2]) ++
              ((if micro.isEmpty then [] else [p.length + 1]) ++ []),
            ctoks := { s.ctoks with time := some ⟨(cut6 n).text, .digit⟩ } } := by
        unfold initStep
        rw [hs, show ([] : List Nat).contains p.length = false from rfl]
        simp only [Bool.false_eq_true, if_false, clockWord_notSkipped n mr hn]
        rw [hcap]
      rw [hFR] at hstep ⊢
      rw [initLoop, hstep]
      refine ⟨_, initLoop_allSkipped _ _ _ _ _ _ ?_⟩
      intro j hj
      dsimp only
      by_cases h1 : micro.isEmpty = true <;> by_cases h2 : mer.isEmpty = true <;>
        simp only [h1, h2, if_true, Bool.false_eq_true, if_false] at hlen ⊢
      · omega
      · have : j = 0 := by omega
        subst this; simp
      · have : j = 0 := by omega
        subst this; simp
      · have : j = 0 ∨ j = 1 := by omega
        rcases this with rfl | rfl <;> simp
    · rcases hj with hj | hj
      · left
        show tokTextAt _ (2 * p.length + 1) ≠ _
        rw [tokTextAt_shift _ _ _ 1 (preToks_length p)]
        exact hj
      · right; intro next _; exact not_hourMinute (Or.inl hj)
    · unfold captureMicro
      rw [getElem?_shift _ _ _ 1 (preF_length p 0), hFR, List.getElem?_cons_succ]
      cases hfr : FR[0]? with
      | none => rw [hfr] at hmi; exact hmi
      | some next =>
        rw [hfr] at hmi
        dsimp only at hmi ⊢
        cases hcc : (clockWord n).contains ':' with
        | false => rw [hcc] at hmi; simpa using hmi
        | true =>
          rw [hcc] at hmi
          rw [findIdx_pre (clockWord n) T hmk hcc p hp]
          have hsh := tokTextAt_shift (preToks p) T (2 * p.length) 1 (preToks_length p)
          simp only [hsh]
          exact hmi
    · rw [← hme]
      unfold captureMeridian
      cases micro.isEmpty with
      | true =>
        simp only [if_true]
        rw [getElem?_shift _ _ _ 1 (preF_length p 0), hFR, List.getElem?_cons_succ]
      | false =>
        simp only [Bool.false_eq_true, if_false]
        rw [getElem?_shift _ _ _ 2 (preF_length p 0), hFR, List.getElem?_cons_succ]
  -- the shapes
  cases n with
  | hm h m =>
    cases hrel
    refine step [] [] [] (by rw [← hF, ← hT]; rfl) (Or.inr (colon_in _ _)) rfl rfl (Or.inl (colon_in _ _)) (by simp) ?_
    simp [clockWord, cut6, Notation.text]
  | hms h m s' =>
    cases hrel
    refine step [] [] [] (by rw [← hF, ← hT]; rfl) (Or.inr (colon_in _ _)) rfl rfl (Or.inl (colon_in _ _)) (by simp) ?_
    simp [clockWord, cut6, Notation.text]
  | hour h mer =>
    cases hrel with
    | cons hr ht =>
      cases ht
      rename_i y
      obtain ⟨t, b⟩ := y
      simp only [restWords, List.map_cons, List.map_nil, List.cons.injEq, and_true] at hrt
      subst hrt
      obtain ⟨q1, q2⟩ := sepRel_space hr
      have hmne : mer ≠ [] := (mer_run hn.2).2
      have hme : mer.isEmpty = false := by cases mer <;> simp_all
      refine step [] mer [⟨⟨mer, .letter⟩, 2 * p.length + 1 + 1⟩] (by rw [← hF, ← hT]; rfl) (Or.inl ?_) ?_ ?_
        (Or.inr hmne) (by simp [hme]) ?_
      · rw [← hT]; exact q1
      · have hcc : (clockWord (.hour h mer)).contains ':' = false := digits_no_colon hn.1.1.2
        simp only [List.getElem?_cons_zero]
        rw [hcc]; rfl
      · exact findMeridian_mer hn.2
      · simp [clockWord, cut6, Notation.text, hme]
  | hmMer h m mer =>
    cases hrel with
    | cons hr ht =>
      cases ht
      rename_i y
      obtain ⟨t, b⟩ := y
      simp only [restWords, List.map_cons, List.map_nil, List.cons.injEq, and_true] at hrt
      subst hrt
      obtain ⟨q1, q2⟩ := sepRel_space hr
      have hmne : mer ≠ [] := (mer_run hn.2.2).2
      have hme : mer.isEmpty = false := by cases mer <;> simp_all
      refine step [] mer [⟨⟨mer, .letter⟩, 2 * p.length + 1 + 1⟩] (by rw [← hF, ← hT]; rfl) (Or.inr (colon_in _ _)) ?_ ?_
        (Or.inr hmne) (by simp [hme]) ?_
      · have : tokTextAt T 1 = t := by rw [← hT]; rfl
        rw [this, q2]; simp
      · exact findMeridian_mer hn.2.2
      · simp [clockWord, cut6, Notation.text, hme]
  | hmsMer h m s' mer =>
    cases hrel with
    | cons hr ht =>
      cases ht
      rename_i y
      obtain ⟨t, b⟩ := y
      simp only [restWords, List.map_cons, List.map_nil, List.cons.injEq, and_true] at hrt
      subst hrt
      obtain ⟨q1, q2⟩ := sepRel_space hr
      have hmne : mer ≠ [] := (mer_run hn.2.2.2).2
      have hme : mer.isEmpty = false := by cases mer <;> simp_all
      refine step [] mer [⟨⟨mer, .letter⟩, 2 * p.length + 1 + 1⟩] (by rw [← hF, ← hT]; rfl) (Or.inr (colon_in _ _)) ?_ ?_
        (Or.inr hmne) (by simp [hme]) ?_
      · have : tokTextAt T 1 = t := by rw [← hT]; rfl
        rw [this, q2]; simp
      · exact findMeridian_mer hn.2.2.2
      · simp [clockWord, cut6, Notation.text, hme]
  | hmsFrac h m s' f =>
    cases hrel with
    | cons hr ht =>
      cases ht
      rename_i y
      obtain ⟨t, b⟩ := y
      simp only [restWords, List.map_cons, List.map_nil, List.cons.injEq, and_true] at hrt
      subst hrt
      have ht := hr.dot rfl
      dsimp only at ht
      have h6 := take6_ne hn.2.2.2
      refine step (f.take 6) [] [⟨⟨f, .digit⟩, 2 * p.length + 1 + 1⟩] (by rw [← hF, ← hT]; rfl) (Or.inr (colon_in _ _)) ?_ ?_
        (Or.inl (colon_in _ _)) (by simp [h6]) ?_
      · have : tokTextAt T 1 = ['.'] := by rw [← hT, ht]; rfl
        rw [this]
        simp only [List.getElem?_cons_zero]
        rw [findMicro_digits hn.2.2.2]; simp [clockWord]
      · simp [h6, captureMeridian]
      · simp [clockWord, cut6, Notation.text, h6]
  | hmsFracMer h m s' f mer =>
    cases hrel with
    | cons hr ht =>
      cases ht with
      | cons hr2 ht =>
        cases ht
        rename_i y y2
        obtain ⟨t, b⟩ := y
        obtain ⟨t2, b2⟩ := y2
        simp only [restWords, List.map_cons, List.map_nil, List.cons.injEq, and_true] at hrt
        obtain ⟨rfl, rfl⟩ := hrt
        have ht := hr.dot rfl
        dsimp only at ht
        have h6 := take6_ne hn.2.2.2.1
        have hmne : mer ≠ [] := (mer_run hn.2.2.2.2).2
        have hme : mer.isEmpty = false := by cases mer <;> simp_all
        refine step (f.take 6) mer [⟨⟨f, .digit⟩, 2 * p.length + 1 + 1⟩, ⟨⟨mer, .letter⟩, 2 * p.length + 1 + 1 + 1 + 1⟩]
          (by rw [← hF, ← hT]; rfl) (Or.inr (colon_in _ _)) ?_ ?_
          (Or.inl (colon_in _ _)) (by simp [h6, hme]) ?_
        · have : tokTextAt T 1 = ['.'] := by rw [← hT, ht]; rfl
          rw [this]
          simp only [List.getElem?_cons_zero]
          rw [findMicro_digits hn.2.2.2.1]; simp [clockWord]
        · simp only [h6, Bool.false_eq_true, if_false, captureMeridian, List.getElem?_cons_succ, List.getElem?_cons_zero]
          exact findMeridian_mer hn.2.2.2.2
        · simp [clockWord, cut6, Notation.text, h6, hme]

/-- `Init` on words followed by a time of day. -/
theorem absInit_time (e : AEnv) (p : List (Wd × List Char)) (n : Notation) (mr : Meridian) (hn : n.Written mr)
    (hp : ∀ x ∈ p, x.1.OK ∧ SepOK x.2) (hpre : PreOK [] p (clockWord n)) (str : List Char)
    (hstr : str = preText p n.text) :
    ∃ sk, absInit e str =
      match preSteps e 0 (p.map (·.1)) {} with
      | none => .error .error
      | some s => .ok (fallbacks { s with skippedIdx := sk,
                                          ctoks := { s.ctoks with time := some ⟨(cut6 n).text, .digit⟩ } }) := by
  have hc := chain_parts hp (clockWord_ok n mr hn) (restWords_ok n mr hn)
  obtain ⟨r', e1, em, ef, ene⟩ := toks_phrase _ hc.1 _ hc.2
  rw [phrase_chain, ← text_phrase, ← hstr] at e1 ene
  obtain ⟨p', rt, g1, g2, g3, g4, g5⟩ := chain_rel p _ _ r' em ef
  have hmk := mkToks_chain p' ⟨clockWord n, .digit⟩ rt
  rw [g5] at hmk
  dsimp only at hmk
  rw [hmk] at e1
  have hpre' : PreOK [] p' (clockWord n) := hpre.rel g1 g2 (by simp)
  have htyp : ∀ x ∈ p', x.1.typ ≠ .other := by
    intro x hx
    have : x.1 ∈ p.map (·.1) := by rw [← g1]; exact List.mem_map_of_mem hx
    obtain ⟨y, hy, hxy⟩ := List.mem_map.mp this
    rw [← hxy]; exact (hp y hy).1.typ
  have hfl := filterToks_pre (mkToks ⟨clockWord n, .digit⟩ rt) p' 0 htyp
  rw [Nat.zero_add] at hfl
  have hFT : ∃ f r, filterToks (2 * p'.length) (mkToks ⟨clockWord n, .digit⟩ rt) = f :: r ∧ f.tok.text = clockWord n := by
    cases rt with
    | nil => exact ⟨_, _, rfl, rfl⟩
    | cons x _ => obtain ⟨_, _⟩ := x; exact ⟨_, _, rfl, rfl⟩
  have L := initLoop_pre e (mkToks ⟨clockWord n, .digit⟩ rt) _ (clockWord n) hFT p' [] {} rfl hpre'
  simp only [List.nil_append, List.length_nil, Nat.mul_zero] at L
  unfold absInit
  simp only [ene, e1, Bool.false_eq_true, if_false, hfl]
  rw [L, g1]
  cases hps : preSteps e 0 (p.map (·.1)) {} with
  | none => exact ⟨[], rfl⟩
  | some s =>
    have hsk : s.skippedIdx = [] := preSteps_skipped hps
    obtain ⟨sk, hsk2⟩ := initLoop_time e n mr hn p' hpre'.noColon rt g3 g4 s hsk
    refine ⟨sk, ?_⟩
    dsimp only
    rw [hsk2]

end Verif.Lemmas
