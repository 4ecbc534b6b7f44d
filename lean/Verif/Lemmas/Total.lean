import Verif.Props.Weekday
import Verif.Lemmas.Invariant
import Verif.Model.Calendars
/-! Helper lemmas: the calendar parsers end without a panic, for every string. -/
set_option autoImplicit false
namespace Verif.Lemmas
open Verif.Go Verif.Model Verif.Spec

/-- A weekday token was read as a weekday name. -/
def WdRead (f : Fns) (s : ASt) : Prop :=
  ∀ t, s.ctoks.weekday = some t → ∃ d ∈ [Dir.wMonday, Dir.wMon], f.partValue .weekday t.text d ≠ none

theorem WdRead.congr {f : Fns} {s s' : ASt} (h : WdRead f s) (e : s'.ctoks.weekday = s.ctoks.weekday) : WdRead f s' := by
  intro t ht
  rw [e] at ht
  exact h t ht

theorem digit_wd (e : AEnv) (s : ASt) (text : List Char) : ∀ (cs : List (Comp × List Dir)) (p : ASt × List (Comp × Int)),
    (∀ x ∈ cs, x.1 ≠ Comp.weekday) → parseDigitToken e s text cs = some p → p.1.ctoks.weekday = s.ctoks.weekday := by
  intro cs
  induction cs with
  | nil => intro p _ h; simp [parseDigitToken] at h
  | cons c cs ih =>
    intro p hc h
    rw [parseDigitToken] at h
    split at h
    · exact ih p (fun x hx => hc x (by simp [hx])) h
    · split at h
      · rename_i x hx
        simp only [Option.some.injEq] at h
        subst h
        obtain ⟨d, v, un, _, _, _, e1⟩ := digitDirLoop_shape _ _ _ _ _ _ hx
        have := hc c (by simp)
        rw [e1]
        cases hcc : c.1 <;> simp_all [CToks.set]
      · exact ih p (fun x hx => hc x (by simp [hx])) h

theorem letterLoop_wd (e : AEnv) (s : ASt) (c : Comp) (text : List Char) :
    ∀ (ds : List Dir) (p : ASt × List (Comp × Int)), letterDirLoop e s c text ds = some p →
      p.1.ctoks.weekday = s.ctoks.weekday ∨
      (c = .weekday ∧ p.1.ctoks.weekday = some ⟨text, .letter⟩ ∧ ∃ d ∈ ds, e.fns.partValue .weekday text d ≠ none) := by
  intro ds
  induction ds with
  | nil => intro p h; simp [letterDirLoop] at h
  | cons d ds ih =>
    intro p h
    have again : letterDirLoop e s c text ds = some p → p.1.ctoks.weekday = s.ctoks.weekday ∨
        (c = .weekday ∧ p.1.ctoks.weekday = some ⟨text, .letter⟩ ∧ ∃ d' ∈ d :: ds, e.fns.partValue .weekday text d' ≠ none) := by
      intro h
      rcases ih p h with h | ⟨h1, h2, d', h3, h4⟩
      · exact Or.inl h
      · exact Or.inr ⟨h1, h2, d', by simp [h3], h4⟩
    rw [letterDirLoop] at h
    split at h
    · exact again h
    · rename_i v hv
      split at h
      · simp only [Option.some.injEq] at h
        rw [← h]
        cases c with
        | weekday => exact Or.inr ⟨rfl, rfl, d, by simp, by rw [hv]; simp⟩
        | _ => exact Or.inl rfl
      · split at h
        · split at h
          · exact again h
          · simp only [Option.some.injEq] at h
            rw [← h]
            exact Or.inl rfl
        · exact again h

theorem letter_wd (e : AEnv) (s : ASt) (text : List Char) : ∀ (cs : List (Comp × List Dir)) (p : ASt × List (Comp × Int)),
    (∀ x ∈ cs, x.1 = Comp.weekday → x.2 = [Dir.wMonday, Dir.wMon]) → parseLetterToken e s text cs = some p →
    p.1.ctoks.weekday = s.ctoks.weekday ∨
      (p.1.ctoks.weekday = some ⟨text, .letter⟩ ∧ ∃ d ∈ [Dir.wMonday, Dir.wMon], e.fns.partValue .weekday text d ≠ none) := by
  intro cs
  induction cs with
  | nil => intro p _ h; simp [parseLetterToken] at h
  | cons c cs ih =>
    intro p hc h
    rw [parseLetterToken] at h
    split at h
    · exact ih p (fun x hx => hc x (by simp [hx])) h
    · split at h
      · rename_i x hx
        simp only [Option.some.injEq] at h
        subst h
        rcases letterLoop_wd _ _ _ _ _ _ hx with h | ⟨h1, h2, h3⟩
        · exact Or.inl h
        · rw [hc c (by simp) h1] at h3
          exact Or.inr ⟨h2, h3⟩
      · exact ih p (fun x hx => hc x (by simp [hx])) h

theorem saveResults_ctoks (len : Nat) : ∀ (r : List (Comp × Int)) (s : ASt), (saveResults s len r).ctoks = s.ctoks := by
  intro r
  induction r with
  | nil => intro s; rfl
  | cons x r ih =>
    intro s
    unfold saveResults
    rw [ih]
    dsimp only
    split <;> rfl

theorem numberDirectives_wd (o : List Char) : ∀ x ∈ numberDirectives o, x.1 ≠ Comp.weekday := by
  intro x hx
  unfold numberDirectives at hx
  rw [List.mem_filterMap] at hx
  obtain ⟨c, _, hc⟩ := hx
  split at hc
  · cases hc; simp
  · split at hc
    · cases hc; simp
    · split at hc
      · cases hc; simp
      · cases hc

theorem alphaDirectives_wd (b : Bool) : ∀ x ∈ alphaDirectives b, x.1 = Comp.weekday → x.2 = [Dir.wMonday, Dir.wMon] := by
  intro x hx h
  unfold alphaDirectives at hx
  cases b <;> simp only [if_true, Bool.false_eq_true, if_false, List.mem_cons, List.not_mem_nil, or_false] at hx <;>
    rcases hx with rfl | rfl <;> first | rfl | cases h

/-- One token: no fault other than an error, and the weekday token stays good. -/
theorem initStep_wd {e : AEnv} {toks : List Tok} {fl : List FTok} {i : Nat} {ft : FTok} {s : ASt} (h : WdRead e.fns s) :
    (∃ s', initStep e toks fl i ft s = .ok s' ∧ WdRead e.fns s') ∨ initStep e toks fl i ft s = .error .error := by
  unfold initStep
  split
  · exact Or.inl ⟨_, rfl, h⟩
  · split
    · exact Or.inl ⟨_, rfl, h⟩
    · split
      · exact Or.inl ⟨_, rfl, h.congr rfl⟩
      · rename_i sk hcap
        dsimp only
        split
        · exact Or.inr rfl
        · rename_i s3 results hr
          refine Or.inl ⟨_, rfl, ?_⟩
          intro t ht
          rw [saveResults_ctoks] at ht
          split at hr
          · have := digit_wd _ _ _ _ _ (numberDirectives_wd _) hr
            dsimp only at this
            rw [this] at ht
            exact h t ht
          · split at hr
            · rcases letter_wd _ _ _ _ _ (alphaDirectives_wd _) hr with h1 | ⟨h1, h2⟩
              · dsimp only at h1
                rw [h1] at ht
                exact h t ht
              · dsimp only at h1
                rw [h1] at ht
                cases ht
                exact h2
            · cases hr
              exact h t ht

theorem initLoop_wd {e : AEnv} {toks : List Tok} {fl : List FTok} : ∀ (r : List FTok) (i : Nat) (s : ASt), WdRead e.fns s →
    (∃ s', initLoop e toks fl i r s = .ok s' ∧ WdRead e.fns s') ∨ initLoop e toks fl i r s = .error .error := by
  intro r
  induction r with
  | nil => intro i s h; exact Or.inl ⟨s, rfl, h⟩
  | cons ft r ih =>
    intro i s h
    rw [initLoop]
    rcases initStep_wd (toks := toks) (fl := fl) (i := i) (ft := ft) h with ⟨s', h1, h2⟩ | h1
    · rw [h1]; exact ih _ _ h2
    · rw [h1]; exact Or.inr rfl

theorem fallback1_wd (s : ASt) (c : Comp) (hc : c ≠ .weekday) : (fallback1 s c).ctoks.weekday = s.ctoks.weekday := by
  unfold fallback1
  split
  · rfl
  · have gen : ∀ (l : List Tok) (s : ASt), (l.foldl (fun s ut =>
          if ut.typ = .digit then
            { s with ctoks := s.ctoks.set c ut,
                     vals := s.vals.set c (if ut.text.all Char.isDigit then natOfDigits ut.text else 0) }
          else s) s).ctoks.weekday = s.ctoks.weekday := by
      intro l
      induction l with
      | nil => intro s; rfl
      | cons u l ih =>
        intro s
        rw [List.foldl_cons, ih]
        split
        · cases c <;> simp_all [CToks.set]
        · rfl
    exact gen s.unset s

theorem absInit_wd (e : AEnv) (str : List Char) :
    (∃ s, absInit e str = .ok s ∧ WdRead e.fns s) ∨ absInit e str = .error .error := by
  unfold absInit
  dsimp only
  split
  · exact Or.inr rfl
  · rcases initLoop_wd (e := e) (toks := trimToks (tokenize (sanitizeSpaces str)))
      (fl := filterToks 0 (trimToks (tokenize (sanitizeSpaces str)))) (filterToks 0 (trimToks (tokenize (sanitizeSpaces str)))) 0 {}
      (by intro t ht; cases ht) with ⟨s, h1, h2⟩ | h1
    · rw [h1]
      refine Or.inl ⟨_, rfl, h2.congr ?_⟩
      unfold fallbacks
      rw [fallback1_wd _ _ (by decide), fallback1_wd _ _ (by decide), fallback1_wd _ _ (by decide)]
    · rw [h1]; exact Or.inr rfl

/-- A calendar whose weekday tokens can be handled. -/
structure SafeFns (f : Fns) : Prop where
  wd : ∀ t, ∀ d ∈ [Dir.wMonday, Dir.wMon], f.partValue .weekday t d ≠ none → ∃ w, IsWeekdayName t w
  create : ∀ cfg Y M D H m s ns l, (∃ t, f.create cfg Y M D H m s ns l = .ok t) ∨ f.create cfg Y M D H m s ns l = .error .error

theorem frame_total {e : AEnv} (hf : SafeFns e.fns) {s : ASt} (h : WdRead e.fns s) (tz : Option Tz) (dt : Time) :
    ∃ t, correctForTimeFrame e.cfg e.now s tz dt = .ok t := by
  have key : ∃ t, frameWeekday e.cfg s dt = .ok t := by
    unfold frameWeekday
    split
    · rename_i tw htw
      split
      · obtain ⟨d, hd, hv⟩ := h tw htw
        obtain ⟨w, hw⟩ := hf.wd tw.text d hd hv
        have hlt : dt.weekday.toNat < 7 := by
          have : 0 ≤ dt.weekday ∧ dt.weekday < 7 := by unfold Time.weekday weekdayOfDays; omega
          omega
        obtain ⟨k, hk, _⟩ := Props.weekdayShift_spec e.cfg.dateSource _ hlt tw.text w hw
        rw [hk]
        exact ⟨_, rfl⟩
      · exact ⟨_, rfl⟩
    · exact ⟨_, rfl⟩
  obtain ⟨t, ht⟩ := key
  exact ⟨_, by unfold correctForTimeFrame; rw [ht]⟩

theorem absParse_wd {e : AEnv} (hf : SafeFns e.fns) {s : ASt} (h : WdRead e.fns s) (tz : Option Tz) :
    (∃ r, absParse e s tz = .ok r) ∨ absParse e s tz = .error .error := by
  have tail : ∀ pt : Option (Time × Period), (∃ r : DateRes, (
      let np := e.fns.nowParts e.now
      let Y := orNow s.vals.year np.1
      let M := orNow s.vals.month np.2.1
      let D := orNow s.vals.day np.2.2
      let clock : Int × Int × Int × Int := match pt with
        | some (t, _) => (t.hour, t.minute, t.second, t.nsec)
        | none => (0, 0, 0, 0)
      match e.fns.create e.cfg Y M D clock.1 clock.2.1 clock.2.2.1 clock.2.2.2 e.now.loc with
      | .error f => Except.error f
      | .ok dt =>
        match correctForTimeFrame e.cfg e.now s tz dt with
        | .error f => .error f
        | .ok dt =>
          let dt := correctForDay e s (correctForMonth e s dt)
          let period := match pt with
            | some (_, p) => if e.cfg.timeAsPeriod then (getPeriod s).min p else getPeriod s
            | none => getPeriod s
          (.ok { period := period, time := dt } : Except Fault DateRes)) = .ok r) ∨ (
      let np := e.fns.nowParts e.now
      let Y := orNow s.vals.year np.1
      let M := orNow s.vals.month np.2.1
      let D := orNow s.vals.day np.2.2
      let clock : Int × Int × Int × Int := match pt with
        | some (t, _) => (t.hour, t.minute, t.second, t.nsec)
        | none => (0, 0, 0, 0)
      match e.fns.create e.cfg Y M D clock.1 clock.2.1 clock.2.2.1 clock.2.2.2 e.now.loc with
      | .error f => Except.error f
      | .ok dt =>
        match correctForTimeFrame e.cfg e.now s tz dt with
        | .error f => .error f
        | .ok dt =>
          let dt := correctForDay e s (correctForMonth e s dt)
          let period := match pt with
            | some (_, p) => if e.cfg.timeAsPeriod then (getPeriod s).min p else getPeriod s
            | none => getPeriod s
          (.ok { period := period, time := dt } : Except Fault DateRes)) = .error .error := by
    intro pt
    dsimp only
    generalize (match pt with
        | some (t, _) => (t.hour, t.minute, t.second, t.nsec)
        | none => ((0, 0, 0, 0) : Int × Int × Int × Int)) = clock
    rcases hf.create e.cfg (orNow s.vals.year (e.fns.nowParts e.now).1) (orNow s.vals.month (e.fns.nowParts e.now).2.1)
      (orNow s.vals.day (e.fns.nowParts e.now).2.2) clock.1 clock.2.1 clock.2.2.1 clock.2.2.2 e.now.loc with ⟨t, ht⟩ | ht
    · rw [ht]
      obtain ⟨t', h'⟩ := frame_total hf h tz t
      dsimp only
      rw [h']
      exact Or.inl ⟨_, rfl⟩
    · rw [ht]; exact Or.inr rfl
  unfold absParse
  split
  · exact Or.inr rfl
  · cases htime : s.ctoks.time with
    | none => exact tail none
    | some tk =>
      cases hp : parseTime tk.text with
      | none => right; dsimp only; rw [hp]
      | some r => dsimp only; rw [hp]; exact tail (some r)

/-- A shared parser for a safe calendar only ever fails with an error. -/
theorem abs_total {e : AEnv} (hf : SafeFns e.fns) (str : List Char) (tz : Option Tz) {r : Except Fault DateRes}
    (hr : r = match absInit e str with
      | .error f => .error f
      | .ok s => absParse e s tz) : (∃ x, r = .ok x) ∨ r = .error .error := by
  subst hr
  rcases absInit_wd e str with ⟨s, h1, h2⟩ | h1
  · rw [h1]; exact absParse_wd hf h2 tz
  · rw [h1]; exact Or.inr rfl

theorem lowerAscii_eq (c : Char) : lowerAscii c = toLowerC c := rfl

theorem matchName_some : ∀ (n v r : List Char), matchName n v = some r → ∃ w, v = w ++ r ∧ toLower w = toLower n := by
  intro n
  induction n with
  | nil => intro v r h; cases h; exact ⟨[], rfl, rfl⟩
  | cons p ps ih =>
    intro v r h
    cases v with
    | nil => simp [matchName] at h
    | cons c cs =>
      unfold matchName at h
      split at h
      · rename_i hc
        obtain ⟨w, h1, h2⟩ := ih cs r h
        refine ⟨c :: w, by rw [h1]; rfl, ?_⟩
        simp only [beq_iff_eq, lowerAscii_eq] at hc
        simp only [toLower, List.map_cons, hc] at h2 ⊢
        rw [h2]
      · cases h

theorem lookup_some : ∀ (ns : List (List Char)) (v r : List Char) (i : Int), Go.lookup ns v = some (i, r) →
    ∃ n ∈ ns, ∃ w, v = w ++ r ∧ toLower w = toLower n := by
  intro ns
  induction ns with
  | nil => intro v r i h; simp [Go.lookup] at h
  | cons n ns ih =>
    intro v r i h
    unfold Go.lookup at h
    split at h
    · rename_i r' hm
      cases h
      obtain ⟨w, h1, h2⟩ := matchName_some _ _ _ hm
      exact ⟨n, by simp, w, h1, h2⟩
    · cases hl : Go.lookup ns v with
      | none => rw [hl] at h; simp at h
      | some p =>
        rw [hl] at h
        simp only [Option.map_some, Option.some.injEq, Prod.mk.injEq] at h
        obtain ⟨n', h1, w, h2, h3⟩ := ih v p.2 p.1 hl
        exact ⟨n', by simp [h1], w, by rw [← h.2]; exact h2, h3⟩

theorem greg_wd (t : List Char) (d : Dir) (hd : d ∈ [Dir.wMonday, Dir.wMon]) (h : gregPartValue .weekday t d ≠ none) :
    ∃ w, IsWeekdayName t w := by
  have names : ∀ n ∈ longDayNames ++ shortDayNames, ∃ w, (toLower n, w) ∈ weekdays := by
    have : ∀ n ∈ longDayNames ++ shortDayNames, ∃ p ∈ weekdays, toLower n = p.1 := by decide +kernel
    intro n hn
    obtain ⟨p, hp, e⟩ := this n hn
    exact ⟨p.2, by rw [e]; exact hp⟩
  have key : ∀ (ns : List (List Char)), (∀ n ∈ ns, n ∈ longDayNames ++ shortDayNames) → ∀ (c : Chunk) (st : PState),
      (∀ v s, parseChunk c [] v s = (Go.lookup ns v).map fun p => (p.2, s)) → parseChunks [c] (toLower t) st ≠ none → ∃ w, IsWeekdayName t w := by
    intro ns hns c st hc hp
    unfold parseChunks at hp
    rw [hc] at hp
    cases hl : Go.lookup ns (toLower t) with
    | none => rw [hl] at hp; simp at hp
    | some p =>
      rw [hl] at hp
      simp only [Option.map_some, parseChunks] at hp
      split at hp
      · rename_i he
        have : p.2 = [] := List.isEmpty_iff.mp he
        obtain ⟨n, h1, w, h2, h3⟩ := lookup_some _ _ p.2 p.1 hl
        obtain ⟨wd, hw⟩ := names n (hns n h1)
        refine ⟨wd, ?_⟩
        unfold IsWeekdayName
        rw [this, List.append_nil] at h2
        rw [← h3, ← h2, toLower_idem] at hw
        exact hw
      · exact absurd rfl hp
  unfold gregPartValue at h
  have hne : timeParse d.layout (toLower t) ≠ none := by
    intro he; rw [he] at h; exact h rfl
  unfold timeParse timeParseIn parseWith at hne
  simp only [List.mem_cons, List.not_mem_nil, or_false] at hd
  rcases hd with rfl | rfl
  · rw [show layoutChunks Dir.wMonday.layout = [.wdayLong] by decide] at hne
    exact key longDayNames (fun n hn => by simp [hn]) .wdayLong {} (fun v s => rfl) (by intro he; rw [he] at hne; simp at hne)
  · rw [show layoutChunks Dir.wMon.layout = [.wday3] by decide] at hne
    exact key shortDayNames (fun n hn => by simp [hn]) .wday3 {} (fun v s => rfl) (by intro he; rw [he] at hne; simp at hne)

theorem greg_safe : SafeFns gregFns :=
  ⟨fun t d hd h => greg_wd t d hd h, fun cfg Y M D H m s ns l => Or.inl ⟨_, rfl⟩⟩

/-- The Gregorian parser only ever fails with an error. -/
theorem absoluteParse_total (cfg : Cfg) (now : Time) (mf : Nat → Bool) (str : List Char) (tz : Option Tz) :
    (∃ r, absoluteParse cfg now mf str tz = .ok r) ∨ absoluteParse cfg now mf str tz = .error .error :=
  abs_total (e := { fns := gregFns, cfg := cfg, sysNow := now, monthFirst := mf }) greg_safe str tz rfl

theorem cal_safe_wd (isDigit : Char → Bool) (two : Int → Int) (month : List Char → Option Int) (t : List Char) (d : Dir) :
    calPartValue isDigit two month .weekday t d = none := by
  unfold calPartValue; rfl

end Verif.Lemmas
