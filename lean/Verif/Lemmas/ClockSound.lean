import Verif.Lemmas.Sound
import Verif.Spec.ClockWords
import Verif.Props.TimeOfDay
/-! # Times of day come from the text -/
set_option autoImplicit false
namespace Verif.Lemmas
open Verif.Go Verif.Model Verif.Spec Verif.Props

/-! ## The clock is kept -/

/-- Times with a given clock in a location. -/
def Clocked (l : Loc) (H M S ns : Int) (t : Time) : Prop := t.loc = l ∧ ShowsClock t H M S ns

theorem clocked_goDate {l : Loc} (hl : l.IsFixed) {H M S ns : Int} (hc : IsClock H M S ns) (y m d : Int) : Clocked l H M S ns (goDate y m d H M S ns l) := by
  have F := goDate_fields (l := l) (y := y) (m := m) (d := d) hc (hl.noJump _)
  exact ⟨goDate_loc .., F.2.1, F.2.2.1, F.2.2.2.1, F.2.2.2.2⟩

theorem Clocked.again {l : Loc} (hl : l.IsFixed) {H M S ns : Int} (hc : IsClock H M S ns) {t : Time} (h : Clocked l H M S ns t) (y m d : Int) :
    Clocked l H M S ns (goDate y m d t.hour t.minute t.second t.nsec t.loc) := by
  obtain ⟨h0, h1, h2, h3, h4⟩ := h
  rw [h0, h1, h2, h3, h4]
  exact clocked_goDate hl hc y m d

theorem Clocked.addDate {l : Loc} (hl : l.IsFixed) {H M S ns : Int} (hc : IsClock H M S ns) {t : Time} (h : Clocked l H M S ns t) (y m d : Int) :
    Clocked l H M S ns (t.addDate y m d) := h.again hl hc _ _ _

theorem clocked_frame {cfg : Cfg} {now : Time} {s : ASt} {tz : Option Tz} {l : Loc} (hl : l.IsFixed) {H M S ns : Int} (hc : IsClock H M S ns)
    {t t' : Time} (h : Clocked l H M S ns t) (he : correctForTimeFrame cfg now s tz t = .ok t') : Clocked l H M S ns t' := by
  unfold correctForTimeFrame at he
  split at he
  · cases he
  · rename_i t1 h1
    cases he
    have c1 : Clocked l H M S ns t1 := by
      unfold frameWeekday at h1
      split at h1
      · split at h1
        · split at h1
          · cases h1; exact h.addDate hl hc _ _ _
          · cases h1
        · cases h1; exact h
      · cases h1; exact h
    have c2 : Clocked l H M S ns (frameMonth cfg now s t1) := by
      unfold frameMonth
      split
      · exact c1.again hl hc _ _ _
      · exact c1
    have c3 : Clocked l H M S ns (frameYear2 cfg now s (frameMonth cfg now s t1)) := by
      generalize frameMonth cfg now s t1 = t2 at c2
      unfold frameYear2
      repeat' split
      all_goals first | exact c2 | exact c2.addDate hl hc _ _ _
    generalize frameYear2 cfg now s (frameMonth cfg now s t1) = t3 at c3
    clear h1 c1 c2
    unfold frameTime
    split
    · dsimp only
      generalize (now.before (t3.add (-(frameOffset cfg tz t3 * 1000000000)))) = b1
      generalize (now.after (t3.add (-(frameOffset cfg tz t3 * 1000000000)))) = b2
      have c4 : Clocked l H M S ns (if cfg.dateSource = .past ∧ b1 = true then t3.addDate 0 0 (-1) else t3) := by
        split
        · exact c3.addDate hl hc _ _ _
        · exact c3
      generalize (if cfg.dateSource = .past ∧ b1 = true then t3.addDate 0 0 (-1) else t3) = t4 at c4 ⊢
      split
      · exact c4.addDate hl hc _ _ _
      · exact c4
    · exact c3

theorem clocked_correct {e : AEnv} {s : ASt} {l : Loc} (hl : l.IsFixed) {H M S ns : Int} (hc : IsClock H M S ns) {t : Time} (h : Clocked l H M S ns t) :
    Clocked l H M S ns (correctForDay e s (correctForMonth e s t)) := by
  have c1 : Clocked l H M S ns (correctForMonth e s t) := by
    unfold correctForMonth applyMonthFromConfig
    repeat' split
    all_goals first | exact h | exact h.again hl hc _ _ _
  generalize correctForMonth e s t = t1 at c1
  unfold correctForDay applyDayFromConfig
  dsimp only
  split
  · exact c1
  · exact c1.again hl hc _ _ _

/-! ## What `ParseTime` accepts -/

theorem getnum_inv {v r : List Char} {x : Int} (h : getnum false v = some (x, r)) : ∃ d, v = d ++ r ∧ IsShort d ∧ number d = x := by
  unfold getnum at h
  split at h
  · cases h
  · rename_i c cs
    split at h
    · cases h
    · rename_i hc
      have hc' : c.isDigit = true := by simpa using hc
      split at h
      · rename_i d ds
        split at h
        · rename_i hd
          cases h
          refine ⟨[c, d], rfl, ⟨⟨by simp, ?_⟩, by simp⟩, ?_⟩
          · intro y hy; simp at hy; rcases hy with rfl | rfl <;> assumption
          · rw [number_eq]; simp [natOfDigits]
        · simp at h
          obtain ⟨rfl, rfl⟩ := h
          refine ⟨[c], rfl, ⟨⟨by simp, ?_⟩, by simp⟩, ?_⟩
          · intro y hy; simp at hy; rw [hy]; exact hc'
          · rw [number_eq]; simp [natOfDigits]
      · simp at h
        obtain ⟨rfl, rfl⟩ := h
        refine ⟨[c], rfl, ⟨⟨by simp, ?_⟩, by simp⟩, ?_⟩
        · intro y hy; simp at hy; rw [hy]; exact hc'
        · rw [number_eq]; simp [natOfDigits]

theorem frac_inv {v ds r : List Char} (h : fracPrefix v = some (ds, r)) (hc : ',' ∉ v) : v = '.' :: (ds ++ r) ∧ IsNumeral ds := by
  unfold fracPrefix at h
  split at h
  · rename_i p d q
    split at h
    · rename_i hp
      simp only [Bool.and_eq_true, Bool.or_eq_true, beq_iff_eq] at hp
      cases h
      have hp' : p = '.' := by
        rcases hp.1 with h | h
        · exact h
        · exact absurd (by simp [h]) hc
      subst hp'
      refine ⟨by simp [List.takeWhile_append_dropWhile], by simp, ?_⟩
      intro c hc'
      simp only [List.mem_cons] at hc'
      rcases hc' with rfl | hc'
      · exact hp.2
      · exact List.all_eq_true.mp (List.all_takeWhile (l := q) (p := Char.isDigit)) c hc'
    · cases h
  · cases h

/-- Hour and minute. -/
theorem hm_inv {b : Bool} {rest : List Chunk} {u : List Char} {st : PState}
    (h : parseChunks ((if b then .hour15 else .hour3) :: .lit ':' :: .min4 :: rest) u {} = some st) :
    ∃ hh m u', u = hh ++ ':' :: (m ++ u') ∧ IsShort hh ∧ IsShort m ∧ (if b then number hh < 24 else number hh ≤ 12) ∧ number m < 60 ∧
      parseChunks rest u' { hour := number hh, min := number m } = some st := by
  have hour : ∃ hh u1, u = hh ++ u1 ∧ IsShort hh ∧ (if b then number hh < 24 else number hh ≤ 12) ∧
      parseChunks (.lit ':' :: .min4 :: rest) u1 { hour := number hh } = some st := by
    cases b with
    | true =>
      simp only [if_true, parseChunks, parseChunk] at h
      cases hg : getnum false u with
      | none => simp [hg] at h
      | some p =>
        obtain ⟨x, r⟩ := p
        obtain ⟨d, e1, e2, e3⟩ := getnum_inv hg
        rw [hg] at h
        by_cases hx : x < 0 ∨ 24 ≤ x
        · simp [hx] at h
        · simp only [Option.bind_some, hx, if_false] at h
          refine ⟨d, r, e1, e2, by simp; omega, ?_⟩
          rw [e3]; exact h
    | false =>
      simp only [Bool.false_eq_true, if_false, parseChunks, parseChunk] at h
      cases hg : getnum false u with
      | none => simp [hg] at h
      | some p =>
        obtain ⟨x, r⟩ := p
        obtain ⟨d, e1, e2, e3⟩ := getnum_inv hg
        rw [hg] at h
        by_cases hx : x < 0 ∨ 12 < x
        · simp [hx] at h
        · simp only [Option.bind_some, hx, if_false] at h
          refine ⟨d, r, e1, e2, by simp; omega, ?_⟩
          rw [e3]; exact h
  obtain ⟨hh, u1, e1, e2, e3, h⟩ := hour
  cases u1 with
  | nil => simp [parseChunks, parseChunk] at h
  | cons c u2 =>
    rw [parseChunks, parseChunk] at h
    by_cases hc : c = ':'
    · subst hc
      simp only [beq_self_eq_true, if_true] at h
      rw [parseChunks, parseChunk] at h
      cases hg : getnum false u2 with
      | none => simp [hg] at h
      | some p =>
        obtain ⟨x, r⟩ := p
        obtain ⟨d, f1, f2, f3⟩ := getnum_inv hg
        rw [hg] at h
        by_cases hx : x < 0 ∨ 60 ≤ x
        · simp [hx] at h
        · simp only [Option.bind_some, hx, if_false] at h
          refine ⟨hh, d, r, by rw [e1, f1], e2, f2, e3, by omega, ?_⟩
          rw [f3]; exact h
    · simp [hc] at h

/-- Seconds, with a fraction. -/
theorem sec_inv {fr : Bool} {tail : List Chunk} (ht : nextIsFrac (nextStd tail) = false) {u : List Char} {s st : PState} (hc : ',' ∉ u)
    (h : parseChunks (.lit ':' :: .sec5 :: (if fr then .frac9 '.' 6 :: tail else tail)) u s = some st) (hs : s.nsec = 0) :
    ∃ sec u', IsShort sec ∧ number sec < 60 ∧
      ((u = ':' :: (sec ++ u') ∧ parseChunks tail u' { s with sec := number sec } = some st) ∨
       ∃ f, IsNumeral f ∧ u = ':' :: (sec ++ '.' :: (f ++ u')) ∧
        parseChunks tail u' { s with sec := number sec, nsec := nanosOfDigits f } = some st) := by
  cases u with
  | nil => simp [parseChunks, parseChunk] at h
  | cons c u1 =>
    rw [parseChunks, parseChunk] at h
    by_cases hcc : c = ':'
    · subst hcc
      simp only [beq_self_eq_true, if_true] at h
      rw [parseChunks, parseChunk] at h
      cases hg : getnum false u1 with
      | none => simp [hg] at h
      | some p =>
        obtain ⟨x, r⟩ := p
        obtain ⟨d, f1, f2, f3⟩ := getnum_inv hg
        have hcr : ',' ∉ r := fun hm => hc (by rw [f1]; simp [hm])
        rw [hg] at h
        simp only [Option.bind_some, parseChunk.secTail] at h
        by_cases hx : x < 0 ∨ 60 ≤ x
        · simp [hx] at h
        · simp only [hx, if_false] at h
          cases hf : fracPrefix r with
          | none =>
            simp only [hf] at h
            refine ⟨d, r, f2, by omega, Or.inl ⟨by rw [f1], ?_⟩⟩
            rw [f3]
            cases fr with
            | true => simp only [if_true, parseChunks, parseChunk, hf] at h; exact h
            | false => exact h
          | some q =>
            obtain ⟨ds, r'⟩ := q
            obtain ⟨g1, g2⟩ := frac_inv hf hcr
            simp only [hf] at h
            refine ⟨d, r', f2, by omega, Or.inr ⟨ds, g2, by rw [f1, g1], ?_⟩⟩
            rw [f3]
            cases fr with
            | true => simp only [if_true, nextStd, nextIsFrac, parseChunks, parseChunk, hf] at h; exact h
            | false => simp only [Bool.false_eq_true, if_false, ht] at h; exact h
    · simp [hcc] at h

/-- The meridian. -/
theorem mer_inv {u : List Char} {s st : PState} (hc : u.count ' ' ≤ 1) (h : parseChunks [.spaces 1, .pm] u s = some st) :
    ∃ mr, u = ' ' :: upperMer mr ∧ st = withMer mr s := by
  cases u with
  | nil => simp [parseChunks, parseChunk] at h
  | cons c u1 =>
    rw [parseChunks, parseChunk] at h
    by_cases hcc : c = ' '
    · subst hcc
      simp only [beq_self_eq_true, if_true] at h
      have hns : ' ' ∉ u1 := by
        intro hm
        have := List.count_pos_iff.mpr hm
        simp at hc; omega
      have e : List.dropWhile (· == ' ') (' ' :: u1) = u1 := by
        cases u1 with
        | nil => rfl
        | cons x r =>
          have : x ≠ ' ' := fun hx => hns (by simp [hx])
          have hb : (x == ' ') = false := by simpa using this
          simp [List.dropWhile, hb]
      rw [e, parseChunks, parseChunk] at h
      have fin : ∀ {s' : PState}, parseChunks [] (u1.drop 2) s' = some st → u1.drop 2 = [] ∧ st = s' := by
        intro s' h
        rw [parseChunks] at h
        split at h
        · rename_i he
          exact ⟨List.isEmpty_iff.mp he, (Option.some.inj h).symm⟩
        · cases h
      by_cases hp : u1.take 2 = ['P', 'M']
      · simp only [hp, beq_self_eq_true, if_true] at h
        obtain ⟨e1, e2⟩ := fin h
        refine ⟨.pm, ?_, e2⟩
        rw [← List.take_append_drop 2 u1, e1, hp]; rfl
      · by_cases ha : u1.take 2 = ['A', 'M']
        · rw [ha] at h
          simp only [show ((['A', 'M'] : List Char) == ['P', 'M']) = false by decide, Bool.false_eq_true, if_false, beq_self_eq_true, if_true] at h
          obtain ⟨e1, e2⟩ := fin h
          refine ⟨.am, ?_, e2⟩
          rw [← List.take_append_drop 2 u1, e1, ha]; rfl
        · simp [hp, ha] at h
    · simp [hcc] at h

theorem upperMer_meridian (mr : Meridian) : IsMeridian (upperMer mr) mr := by cases mr <;> decide

theorem end_inv {u : List Char} {s st : PState} (h : parseChunks [] u s = some st) : u = [] ∧ st = s := by
  rw [parseChunks] at h
  split at h
  · rename_i he; exact ⟨List.isEmpty_iff.mp he, (Option.some.inj h).symm⟩
  · cases h

theorem format_reads {u : List Char} (hcm : ',' ∉ u) (hsp : u.count ' ' ≤ 1) {f : List Chunk} {p : Period} {t : Time}
    (hf : (f, p) ∈ timeFormats.map (fun p => (layoutChunks p.1, p.2))) (h : parseWith f u Loc.utc = some t) :
    ReadsClock u { hour := t.hour, minute := t.minute, second := t.second, nano := t.nsec, period := p } := by
  have key : ∀ (st : PState) (c : Clock), finishParse st Loc.utc = some t → clockOf ((finishParse st Loc.utc).map fun t => (t, p)) = some c →
      c = { hour := t.hour, minute := t.minute, second := t.second, nano := t.nsec, period := p } := by
    intro st c h1 h2
    rw [h1] at h2
    exact (Option.some.inj h2).symm
  unfold parseWith at h
  cases hst : parseChunks f u {} with
  | none => rw [hst] at h; cases h
  | some st =>
    rw [hst] at h
    have hfin : finishParse st Loc.utc = some t := h
    rw [timeFormats_chunks] at hf
    -- the clock of a state with a meridian or none
    have fin : ∀ (H M S ns : Int), 0 ≤ H ∧ H < 24 → 0 ≤ M ∧ M < 60 → 0 ≤ S ∧ S < 60 → 0 ≤ ns ∧ ns < 1000000000 →
        (st = { hour := H, min := M, sec := S, nsec := ns } →
          ({ hour := H, minute := M, second := S, nano := ns, period := p } : Clock) = { hour := t.hour, minute := t.minute, second := t.second, nano := t.nsec, period := p }) ∧
        ∀ mr, st = withMer mr { hour := H, min := M, sec := S, nsec := ns } →
          ({ hour := hour24 mr H, minute := M, second := S, nano := ns, period := p } : Clock) = { hour := t.hour, minute := t.minute, second := t.second, nano := t.nsec, period := p } := by
      intro H M S ns a b c d
      constructor
      · rintro rfl
        refine key _ _ hfin ?_
        rw [finish_clock _ ⟨rfl, rfl, rfl, rfl, rfl⟩ rfl rfl a b c d]
        simp
      · intro mr hmr
        refine key _ _ hfin ?_
        rw [finish_clock st (by rw [hmr]; cases mr <;> exact ⟨rfl, rfl, rfl, rfl, rfl⟩) (by rw [hmr]; cases mr <;> rfl) (by rw [hmr]; cases mr <;> rfl)
          (by rw [hmr]; cases mr <;> exact a) (by rw [hmr]; cases mr <;> exact b) (by rw [hmr]; cases mr <;> exact c) (by rw [hmr]; cases mr <;> exact d), hmr]
        cases mr with
        | am => simp [withMer, hour24]
        | pm => by_cases hH : H < 12 <;> simp [withMer, hour24, hH]
    have z60 : (0 : Int) ≤ 0 ∧ (0 : Int) < 60 := by omega
    have zns : (0 : Int) ≤ 0 ∧ (0 : Int) < 1000000000 := by omega
    -- hour and minute, nothing more
    have nn : ∀ {d : List Char}, IsShort d → 0 ≤ number d := fun h => number_nonneg h.1
    -- hour, minute, second
    have c_hms : ∀ (fr : Bool), p = .second → f = .hour15 :: .lit ':' :: .min4 :: .lit ':' :: .sec5 :: (if fr then .frac9 '.' 6 :: [] else []) →
        ReadsClock u { hour := t.hour, minute := t.minute, second := t.second, nano := t.nsec, period := p } := by
      intro fr hp hf
      rw [hf] at hst
      obtain ⟨hh, m, u', e1, e2, e3, e4, e5, hst⟩ := hm_inv (b := true) hst
      obtain ⟨sec, u'', g1, g2, g3⟩ := sec_inv (tail := []) rfl (fun hm => hcm (by rw [e1]; simp [hm])) hst rfl
      simp only [if_true] at e4
      rcases g3 with ⟨g3, g4⟩ | ⟨fx, g0, g3, g4⟩
      · obtain ⟨hu, g5⟩ := end_inv g4
        subst hu
        refine ⟨.hms hh m sec, .am, ⟨e2, e3, g1⟩, by rw [e1, g3]; simp [Notation.text], ?_⟩
        rw [← (fin (number hh) (number m) (number sec) 0 ⟨nn e2, e4⟩ ⟨nn e3, e5⟩ ⟨nn g1, g2⟩ zns).1 g5, hp]
        simp [Notation.meaning, e4, e5, g2]
      · obtain ⟨hu, g5⟩ := end_inv g4
        subst hu
        refine ⟨.hmsFrac hh m sec fx, .am, ⟨e2, e3, g1, g0⟩, by rw [e1, g3]; simp [Notation.text], ?_⟩
        rw [← (fin (number hh) (number m) (number sec) (nanosOfDigits fx) ⟨nn e2, e4⟩ ⟨nn e3, e5⟩ ⟨nn g1, g2⟩ (nanos_range g0)).1 g5, hp]
        simp [Notation.meaning, e4, e5, g2, nanos_eq]
    have c_hmsMer : ∀ (fr : Bool), p = .second → f = .hour3 :: .lit ':' :: .min4 :: .lit ':' :: .sec5 :: (if fr then .frac9 '.' 6 :: [.spaces 1, .pm] else [.spaces 1, .pm]) →
        ReadsClock u { hour := t.hour, minute := t.minute, second := t.second, nano := t.nsec, period := p } := by
      intro fr hp hf
      rw [hf] at hst
      obtain ⟨hh, m, u', e1, e2, e3, e4, e5, hst⟩ := hm_inv (b := false) hst
      obtain ⟨sec, u'', g1, g2, g3⟩ := sec_inv (tail := [.spaces 1, .pm]) rfl (fun hm => hcm (by rw [e1]; simp [hm])) hst rfl
      simp only [Bool.false_eq_true, if_false] at e4
      rcases g3 with ⟨g3, g4⟩ | ⟨fx, g0, g3, g4⟩
      · obtain ⟨mr, hu, g5⟩ := mer_inv (by
          refine Nat.le_trans ?_ hsp
          rw [e1, g3]
          simp only [List.count_append, List.count_cons]
          omega) g4
        refine ⟨.hmsMer hh m sec (upperMer mr), mr, ⟨e2, e3, g1, upperMer_meridian mr⟩, by rw [e1, g3, hu]; simp [Notation.text], ?_⟩
        rw [← (fin (number hh) (number m) (number sec) 0 ⟨nn e2, by omega⟩ ⟨nn e3, e5⟩ ⟨nn g1, g2⟩ zns).2 mr g5, hp]
        simp [Notation.meaning, e4, e5, g2]
      · obtain ⟨mr, hu, g5⟩ := mer_inv (by
          refine Nat.le_trans ?_ hsp
          rw [e1, g3]
          simp only [List.count_append, List.count_cons]
          omega) g4
        refine ⟨.hmsFracMer hh m sec fx (upperMer mr), mr, ⟨e2, e3, g1, g0, upperMer_meridian mr⟩, by rw [e1, g3, hu]; simp [Notation.text], ?_⟩
        rw [← (fin (number hh) (number m) (number sec) (nanosOfDigits fx) ⟨nn e2, by omega⟩ ⟨nn e3, e5⟩ ⟨nn g1, g2⟩ (nanos_range g0)).2 mr g5, hp]
        simp [Notation.meaning, e4, e5, g2, nanos_eq]
    have c_hmMer : ∀ (b : Bool), p = .minute → f = (if b then .hour15 else .hour3) :: .lit ':' :: .min4 :: [.spaces 1, .pm] →
        ReadsClock u { hour := t.hour, minute := t.minute, second := t.second, nano := t.nsec, period := p } := by
      intro b hp hf
      rw [hf] at hst
      obtain ⟨hh, m, u', e1, e2, e3, e4, e5, hst⟩ := hm_inv hst
      obtain ⟨mr, hu, g5⟩ := mer_inv (by
          refine Nat.le_trans ?_ hsp
          rw [e1]
          simp only [List.count_append, List.count_cons]
          omega) hst
      have e4' : number hh < 24 := by cases b <;> simp at e4 <;> omega
      refine ⟨.hmMer hh m (upperMer mr), mr, ⟨e2, e3, upperMer_meridian mr⟩, by rw [e1, hu]; simp [Notation.text], ?_⟩
      rw [← (fin (number hh) (number m) 0 0 ⟨nn e2, e4'⟩ ⟨nn e3, e5⟩ z60 zns).2 mr g5, hp]
      simp [Notation.meaning, e4', e5]
    simp only [List.mem_cons, Prod.mk.injEq, List.not_mem_nil, or_false] at hf
    rcases hf with ⟨hf, hp⟩ | ⟨hf, hp⟩ | ⟨hf, hp⟩ | ⟨hf, hp⟩ | ⟨hf, hp⟩ | ⟨hf, hp⟩ | ⟨hf, hp⟩ | ⟨hf, hp⟩
    · exact c_hms false hp hf
    · exact c_hmsMer false hp hf
    · rw [hf] at hst
      obtain ⟨hh, m, u', e1, e2, e3, e4, e5, hst⟩ := hm_inv (b := true) hst
      obtain ⟨rfl, g4⟩ := end_inv hst
      simp only [if_true] at e4
      refine ⟨.hm hh m, .am, ⟨e2, e3⟩, by rw [e1]; simp [Notation.text], ?_⟩
      rw [← (fin (number hh) (number m) 0 0 ⟨nn e2, e4⟩ ⟨nn e3, e5⟩ z60 zns).1 g4, hp]
      simp [Notation.meaning, e4, e5]
    · exact c_hmMer false hp hf
    · rw [hf] at hst
      simp only [parseChunks, parseChunk] at hst
      cases hg : getnum false u with
      | none => simp [hg] at hst
      | some q =>
        obtain ⟨x, r⟩ := q
        obtain ⟨d, e1, e2, e3⟩ := getnum_inv hg
        rw [hg] at hst
        by_cases hx : x < 0 ∨ 12 < x
        · simp [hx] at hst
        · simp only [Option.bind_some, hx, if_false] at hst
          have hst' : parseChunks [.spaces 1, .pm] r { hour := x } = some st := by simpa only [parseChunks, parseChunk] using hst
          obtain ⟨mr, hu, g5⟩ := mer_inv (by
            refine Nat.le_trans ?_ hsp
            rw [e1]
            simp only [List.count_append]
            omega) hst'
          refine ⟨.hour d (upperMer mr), mr, ⟨e2, upperMer_meridian mr⟩, by rw [e1, hu]; simp [Notation.text], ?_⟩
          rw [← (fin x 0 0 0 (by omega) z60 z60 zns).2 mr g5, hp]
          simp only [Notation.meaning, e3]
          rw [if_pos (by omega)]
    · exact c_hms true hp hf
    · exact c_hmsMer true hp hf
    · exact c_hmMer true hp hf

/-- `ParseTime` accepts only times of day, and reads them as what they mean. -/
theorem parseTime_reads {v : List Char} (hcm : ',' ∉ v) (hsp : v.count ' ' ≤ 1) (htr : trimSpace v = v) {t : Time} {p : Period} (h : parseTime v = some (t, p)) :
    ReadsClock (toUpper v) { hour := t.hour, minute := t.minute, second := t.second, nano := t.nsec, period := p } := by
  unfold parseTime at h
  rw [htr, parseTimeLoop_chunks] at h
  have up : ∀ {c : Char}, toUpperC c = ',' ∨ toUpperC c = ' ' → c = toUpperC c := by
    intro c hc
    unfold toUpperC at hc ⊢
    split
    · rename_i hl
      rw [if_pos hl] at hc
      exfalso
      have h1 : 97 ≤ c.toNat := hl.1
      have h2 : c.toNat ≤ 122 := hl.2
      have gen : ∀ n : Fin 26, Char.ofNat (97 + n.val - 32) ≠ ',' ∧ Char.ofNat (97 + n.val - 32) ≠ ' ' := by decide
      have := gen ⟨c.toNat - 97, by omega⟩
      simp only [show 97 + (c.toNat - 97) = c.toNat by omega] at this
      rcases hc with hc | hc
      · exact this.1 hc
      · exact this.2 hc
    · rfl
  have hcm' : ',' ∉ toUpper v := by
    intro hm
    obtain ⟨c, hc, e⟩ := List.mem_map.mp hm
    have := up (Or.inl e)
    rw [e] at this
    exact hcm (this ▸ hc)
  have hsp' : (toUpper v).count ' ' ≤ 1 := by
    refine Nat.le_trans ?_ hsp
    clear hsp hcm htr h hcm'
    induction v with
    | nil => simp [toUpper]
    | cons c v ih =>
      have : toUpper (c :: v) = toUpperC c :: toUpper v := rfl
      rw [this, List.count_cons, List.count_cons]
      by_cases hc : toUpperC c = ' '
      · have := up (Or.inr hc)
        rw [hc] at this
        subst this
        rw [up_space]
        omega
      · have : (toUpperC c == ' ') = false := by simpa using hc
        rw [this]
        simp only [Bool.false_eq_true, if_false]
        omega
  have gen : ∀ l : List (List Chunk × Period), loopC (toUpper v) l = some (t, p) → ∃ f, (f, p) ∈ l ∧ parseWith f (toUpper v) Loc.utc = some t := by
    intro l
    induction l with
    | nil => intro h; cases h
    | cons x r ih =>
      intro h
      obtain ⟨f, q⟩ := x
      rw [loopC] at h
      split at h
      · rename_i t' ht
        cases h
        exact ⟨f, by simp, ht⟩
      · obtain ⟨g, h1, h2⟩ := ih h
        exact ⟨g, by simp [h1], h2⟩
  obtain ⟨f, hf, hw⟩ := gen _ h
  exact format_reads hcm' hsp' hf hw

/-! ## Where the time comes from -/

theorem findMeridian_inv : ∀ (w : List Char), findMeridian w ≠ [] → findMeridian w <:+: w ∧ ∃ mr, IsMeridian (findMeridian w) mr
  | [], h => absurd rfl h
  | [_], h => absurd rfl h
  | a :: b :: r, h => by
    unfold findMeridian at h ⊢
    split
    · rename_i hc
      simp only [Bool.and_eq_true, Bool.or_eq_true, beq_iff_eq] at hc
      refine ⟨⟨[], r, rfl⟩, ?_⟩
      rcases hc.1 with ha | ha
      · exact ⟨.am, by simp [IsMeridian, toLower, ha, hc.2]⟩
      · exact ⟨.pm, by simp [IsMeridian, toLower, ha, hc.2]⟩
    · rename_i hc
      rw [if_neg hc] at h
      obtain ⟨h1, h2⟩ := findMeridian_inv (b :: r) h
      exact ⟨h1.trans ⟨[a], [], by simp⟩, h2⟩

theorem findMicro_inv (w : List Char) : findMicro w <:+: w ∧ ∀ c ∈ findMicro w, c.isDigit = true := by
  unfold findMicro
  refine ⟨?_, fun c hc => List.all_eq_true.mp (List.all_takeWhile (p := Char.isDigit)) c (List.mem_of_mem_take hc)⟩
  exact ((List.take_prefix _ _).isInfix.trans (List.takeWhile_prefix _).isInfix).trans (List.dropWhile_suffix _).isInfix

theorem joinPeriod_inv {toks : List Tok} {fl : List FTok} {i : Nat} {ft : FTok} {x : List Char} (h : joinPeriod toks fl i ft = some x) :
    ∃ next, fl[i + 1]? = some next ∧ x = ft.tok.text ++ ':' :: next.tok.text ∧ ∃ t ∈ toks, t.text = ['.'] := by
  unfold joinPeriod at h
  dsimp only at h
  generalize (if ft.origIdx = 0 then false else tokTextAt toks (ft.origIdx - 1) == ['.']) = q at h
  cases hf : fl[i + 1]? with
  | none => rw [hf] at h; cases h
  | some n =>
    rw [hf] at h
    dsimp only at h
    split at h
    · rename_i hb
      simp only [Bool.and_eq_true, beq_iff_eq] at hb
      split at h
      · split at h
        · simp only [Option.some.injEq] at h
          refine ⟨n, rfl, by rw [← h]; simp, ?_⟩
          have := hb.1
          unfold tokTextAt at this
          cases ht : toks[ft.origIdx + 1]? with
          | none => rw [ht] at this; simp at this
          | some t => rw [ht] at this; exact ⟨t, List.mem_of_getElem? ht, this⟩
        · exact absurd h (by simp)
      · exact absurd h (by simp)
    · exact absurd h (by simp)

theorem word_at {str : List Char} {i : Nat} {ft : FTok} (h : (filterToks 0 (trimToks (tokenize (sanitizeSpaces str))))[i]? = some ft) :
    (wordList str)[i]? = some ft.tok.text := by
  rw [← wordsOf_text]
  unfold wordsOf
  rw [List.getElem?_map, List.getElem?_map, h]; rfl

/-- The tokens of the text. -/
abbrev toksOf (str : List Char) : List Tok := trimToks (tokenize (sanitizeSpaces str))
/-- … and those that are words. -/
abbrev filtOf (str : List Char) : List FTok := filterToks 0 (toksOf str)

theorem meridian_at {str : List Char} {k : Nat} {m : List Char} (e : captureMeridian (filtOf str) k = m) (h : m ≠ []) :
    ∃ w mr, (wordList str)[k]? = some w ∧ m <:+: w ∧ IsMeridian m mr := by
  unfold captureMeridian at e
  split at e
  · rename_i x hm
    rw [← e] at h
    obtain ⟨h1, mr, h2⟩ := findMeridian_inv _ h
    rw [e] at h1 h2
    exact ⟨_, mr, word_at hm, h1, h2⟩
  · exact absurd e.symm h

theorem micro_at {str : List Char} {i : Nat} {text m : List Char} (e : captureMicro (toksOf str) (filtOf str) i text = m) (h : m ≠ []) :
    ∃ w, (wordList str)[i + 1]? = some w ∧ m <:+: w ∧ (∀ c ∈ m, c.isDigit = true) ∧ ':' ∈ text := by
  unfold captureMicro at e
  split at e
  · rename_i next hn
    dsimp only at e
    cases hcc : text.contains ':' with
    | false =>
      simp only [hcc, Bool.false_and, Bool.false_eq_true, if_false] at e
      exact absurd e.symm h
    | true =>
      rw [hcc, Bool.true_and] at e
      generalize (List.contains _ '.') = b at e
      cases b with
      | false => simp only [Bool.false_eq_true, if_false] at e; exact absurd e.symm h
      | true =>
        simp only [if_true] at e
        rw [← e]
        exact ⟨_, word_at hn, (findMicro_inv _).1, (findMicro_inv _).2, by simpa using hcc⟩
  · exact absurd e.symm h

theorem clock_core {str : List Char} {i k : Nat} {base micro mer t : List Char}
    (hb : ((wordList str)[i]? = some base ∧ k = i + 1) ∨
      (∃ h m sep, (wordList str)[i]? = some h ∧ (wordList str)[i + 1]? = some m ∧ sep ∈ runs (sanitizeSpaces str) ∧ trimSpace sep = ['.'] ∧
        base = h ++ ':' :: m ∧ k = i + 2))
    (h1 : micro ≠ [] → ∃ w, (wordList str)[i + 1]? = some w ∧ micro <:+: w ∧ (∀ c ∈ micro, c.isDigit = true) ∧ ':' ∈ base)
    (h2 : mer ≠ [] → ∃ w mr, (wordList str)[if micro.isEmpty then k else k + 1]? = some w ∧ mer <:+: w ∧ IsMeridian mer mr)
    (hc : (base.contains ':' || !mer.isEmpty || !micro.isEmpty) = true)
    (ht : t = base ++ (if micro.isEmpty then [] else '.' :: micro) ++ (if mer.isEmpty then [] else ' ' :: mer)) : ClockAt str i t := by
  refine ⟨base, _, _, k, ht, hb, ?_, ?_⟩
  · cases micro with
    | nil =>
      left
      refine ⟨rfl, ?_⟩
      cases mer with
      | nil => exact Or.inl rfl
      | cons a r =>
        obtain ⟨w, mr, e1, e2, e3⟩ := h2 (by simp)
        exact Or.inr ⟨w, _, mr, e1, e2, e3, rfl⟩
    | cons x y =>
      right
      obtain ⟨w, e1, e2, e3, e4⟩ := h1 (by simp)
      refine ⟨w, _, e1, by simp, e2, e3, e4, rfl, ?_⟩
      cases mer with
      | nil => exact Or.inl rfl
      | cons a r =>
        obtain ⟨w, mr, e1, e2, e3⟩ := h2 (by simp)
        exact Or.inr ⟨w, _, mr, e1, e2, e3, rfl⟩
  · cases mer with
    | cons a r => right; simp
    | nil =>
      left
      cases micro with
      | nil => simpa using hc
      | cons x y => exact (h1 (by simp)).choose_spec.2.2.2

theorem captureTime_at {str : List Char} {i : Nat} {ft : FTok} {sk sk' : List Nat} {t : List Char} (hft : (filtOf str)[i]? = some ft)
    (h : captureTime (toksOf str) (filtOf str) i ft sk = (some t, sk')) : ClockAt str i t := by
  have sepOf : (∃ t ∈ toksOf str, t.text = ['.']) → ∃ sep, sep ∈ runs (sanitizeSpaces str) ∧ trimSpace sep = ['.'] := by
    rintro ⟨t, ht, e⟩
    obtain ⟨t0, h3, h4⟩ := List.mem_map.mp ht
    have good := tokenize_good_aux (sanitizeSpaces str).length (sanitizeSpaces str) (Nat.le_refl _)
    have hr := runs_good _ good.1
    rw [good.2] at hr
    refine ⟨t0.text, by rw [hr]; exact List.mem_map_of_mem h3, ?_⟩
    rw [← e, ← h4]
  obtain ⟨base, k, hb, hcore⟩ : ∃ (base : List Char) (k : Nat), (((wordList str)[i]? = some base ∧ k = i + 1) ∨
      (∃ h m sep, (wordList str)[i]? = some h ∧ (wordList str)[i + 1]? = some m ∧ sep ∈ runs (sanitizeSpaces str) ∧ trimSpace sep = ['.'] ∧
        base = h ++ ':' :: m ∧ k = i + 2)) ∧ (joinPeriod (toksOf str) (filtOf str) i ft).getD ft.tok.text = base ∧
        (if (joinPeriod (toksOf str) (filtOf str) i ft).isSome then i + 2 else i + 1) = k := by
    cases hj : joinPeriod (toksOf str) (filtOf str) i ft with
    | none => exact ⟨_, _, Or.inl ⟨word_at hft, rfl⟩, rfl, rfl⟩
    | some x =>
      obtain ⟨next, hn, e, hs⟩ := joinPeriod_inv hj
      obtain ⟨sep, s1, s2⟩ := sepOf hs
      exact ⟨x, i + 2, Or.inr ⟨_, _, sep, word_at hft, word_at hn, s1, s2, e, rfl⟩, rfl, rfl⟩
  unfold captureTime at h
  dsimp only at h
  rw [hcore.1, hcore.2] at h
  cases hmi : captureMicro (toksOf str) (filtOf str) i base with
  | nil =>
    rw [hmi] at h
    simp only [List.isEmpty_nil, if_true] at h
    cases hme : captureMeridian (filtOf str) k with
    | nil =>
      rw [hme] at h
      simp only [List.isEmpty_nil, Bool.not_true, Bool.false_and, Bool.and_false, Bool.false_eq_true, if_false] at h
      split at h
      · rename_i hc
        simp only [Prod.mk.injEq, Option.some.injEq] at h
        exact clock_core (micro := []) (mer := []) hb (fun h => absurd rfl h) (fun h => absurd rfl h) hc (by simp [h.1])
      · cases h
    | cons a r =>
      rw [hme] at h
      simp at h
      exact clock_core (micro := []) (mer := a :: r) hb (fun h => absurd rfl h) (fun h => by simpa using meridian_at hme h) (by simp) (by simp [h.1])
  | cons x y =>
    rw [hmi] at h
    have sp := micro_at hmi
    cases hme : captureMeridian (filtOf str) (k + 1) with
    | nil =>
      simp [hme] at h
      exact clock_core (micro := x :: y) (mer := []) hb sp (fun h => absurd rfl h) (by simp) (by simp [h.1])
    | cons a r =>
      simp [hme] at h
      exact clock_core (micro := x :: y) (mer := a :: r) hb sp (fun h => by simpa using meridian_at hme h) (by simp) (by simp [← h.1])

/-- The time that is found is made of words of the text. -/
theorem initLoop_clockAt {e : AEnv} {str : List Char} : ∀ (r : List FTok) (i : Nat) (s s' : ASt), (∀ k (ft : FTok), r[k]? = some ft → (filtOf str)[i + k]? = some ft) →
    (∀ tk, s.ctoks.time = some tk → ∃ j, ClockAt str j tk.text) → initLoop e (toksOf str) (filtOf str) i r s = .ok s' →
    ∀ tk, s'.ctoks.time = some tk → ∃ j, ClockAt str j tk.text := by
  intro r
  induction r with
  | nil => intro i s s' _ h hs; cases hs; exact h
  | cons ft r ih =>
    intro i s s' hF h hs
    rw [initLoop] at hs
    split at hs
    · cases hs
    · rename_i s2 h2
      refine ih (i + 1) s2 s' (fun k x hx => by have := hF (k + 1) x hx; rwa [show i + 1 + k = i + (k + 1) by omega]) ?_ hs
      unfold initStep at h2
      split at h2
      · cases h2; exact h
      · split at h2
        · cases h2; exact h
        · split at h2
          · rename_i strTime sk hcap
            cases h2
            intro tk htk
            simp only [Option.some.injEq] at htk
            subst htk
            exact ⟨i, captureTime_at (hF 0 ft rfl) hcap⟩
          · rename_i sk hcap
            dsimp only at h2
            have h' : ∀ tk, ({ s with skippedIdx := sk } : ASt).ctoks.time = some tk → ∃ j, ClockAt str j tk.text := h
            generalize ({ s with skippedIdx := sk } : ASt) = s3 at h2 h'
            split at h2
            · cases h2
            · rename_i s4 results hr
              cases h2
              have sv : ∀ (l : List (Comp × Int)) (x : ASt) (n : Nat), (saveResults x n l).ctoks.time = x.ctoks.time := by
                intro l
                induction l with
                | nil => intro x n; rfl
                | cons a l ih => intro x n; obtain ⟨c, v⟩ := a; rw [saveResults, ih]; dsimp only; split <;> rfl
              rw [sv]
              have : s4.ctoks.time = s3.ctoks.time := by
                have st : ∀ (c : CToks) (k : Comp) (x : Tok), (c.set k x).time = c.time := by intro c k x; cases k <;> rfl
                split at hr
                · obtain ⟨c, ds, d, v, un, hm, hdm, hsk, hv, e2, e1, hun⟩ := parseDigitToken_sound _ _ _ _ _ hr
                  dsimp only at e1
                  rw [e1]; simp [setAndReturn, st]
                · split at hr
                  · obtain ⟨c, ds, d, v, hm, hdm, hv, hsh⟩ := parseLetterToken_sound _ _ _ _ _ hr
                    rcases hsh with ⟨h0, e2, e1⟩ | ⟨rfl, h0, e2, ao, hao, e1⟩
                    · dsimp only at e1; rw [e1]; simp [setAndReturn, st]
                    · dsimp only at e1; rw [e1]; simp [st]
                  · simp only [Option.some.injEq, Prod.mk.injEq] at hr
                    rw [← hr.1]
              rw [this]
              exact h'

theorem fallback1_keeps_time (x : ASt) (c : Comp) : (fallback1 x c).ctoks.time = x.ctoks.time := by
  unfold fallback1
  split
  · rfl
  · have gen : ∀ (l : List Tok) (y : ASt), (l.foldl (fun s ut =>
        if ut.typ = .digit then
          { s with ctoks := s.ctoks.set c ut, vals := s.vals.set c (if ut.text.all Char.isDigit then natOfDigits ut.text else 0) }
        else s) y).ctoks.time = y.ctoks.time := by
      intro l
      induction l with
      | nil => intro y; rfl
      | cons a l ih => intro y; rw [List.foldl_cons, ih]; split <;> first | rfl | (cases c <;> rfl)
    exact gen _ _

theorem absInit_clockAt {e : AEnv} {str : List Char} {s : ASt} (hi : absInit e str = .ok s) {tk : Tok} (ht : s.ctoks.time = some tk) : ∃ j, ClockAt str j tk.text := by
  unfold absInit at hi
  dsimp only at hi
  split at hi
  · cases hi
  · split at hi
    · cases hi
    · rename_i s1 h1
      cases hi
      unfold fallbacks at ht
      rw [fallback1_keeps_time, fallback1_keeps_time, fallback1_keeps_time] at ht
      exact initLoop_clockAt _ 0 {} s1 (fun k ft hk => by rw [Nat.zero_add]; exact hk) (fun tk h => by cases h) h1 tk ht

/-! ## When there is no time -/

theorem captureTime_skip {toks : List Tok} {fl : List FTok} {i : Nat} {ft : FTok} {sk sk' : List Nat}
    (h : captureTime toks fl i ft sk = (none, sk')) : sk' = sk := by
  cases hj : joinPeriod toks fl i ft with
  | some x =>
    exfalso
    obtain ⟨next, _, e, _⟩ := joinPeriod_inv hj
    unfold captureTime at h
    dsimp only at h
    rw [hj, Option.getD_some, show x.contains ':' = true by rw [e]; simp, Bool.true_or, Bool.true_or, if_pos rfl] at h
    revert h
    generalize (captureMicro toks fl i _).isEmpty = a
    generalize (captureMeridian fl _).isEmpty = b
    cases a <;> cases b <;> intro h <;> cases h
  | none =>
    unfold captureTime at h
    dsimp only at h
    rw [hj] at h
    simp only [Option.isSome_none, Bool.false_eq_true, if_false] at h
    repeat' split at h
    all_goals first | exact (Prod.mk.inj h).2.symm | cases (Prod.mk.inj h).1

/-- What a step that finds no time keeps. -/
theorem initStep_keep {e : AEnv} {toks : List Tok} {fl : List FTok} {i : Nat} {ft : FTok} {s s' : ASt} (h : initStep e toks fl i ft s = .ok s') :
    (s.ctoks.time.isSome = true → s'.ctoks.time.isSome = true) ∧
    (s'.ctoks.time = none → s.skippedIdx = [] → s'.skippedIdx = [] ∧ ':' ∉ ft.tok.text) := by
  unfold initStep at h
  split at h
  · rename_i hc
    cases h
    refine ⟨id, fun _ h0 => ?_⟩
    rw [h0] at hc; simp at hc
  · split at h
    · rename_i hc
      cases h
      refine ⟨id, fun _ h0 => ⟨h0, ?_⟩⟩
      have all : (skippedTokens.all fun w => !w.contains ':') = true := by decide +kernel
      have := List.all_eq_true.mp all ft.tok.text (by simpa using hc)
      simpa using this
    · split at h
      · cases h
        exact ⟨fun _ => rfl, fun h => by cases h⟩
      · rename_i sk hcap
        have hsk := captureTime_skip hcap
        have hcol := captureTime_colon hcap
        subst hsk
        dsimp only at h
        split at h
        · cases h
        · rename_i s4 results hr
          cases h
          have sv : ∀ (l : List (Comp × Int)) (x : ASt) (n : Nat), (saveResults x n l).ctoks.time = x.ctoks.time ∧ (saveResults x n l).skippedIdx = x.skippedIdx := by
            intro l
            induction l with
            | nil => intro x n; exact ⟨rfl, rfl⟩
            | cons a l ih => intro x n; obtain ⟨c, v⟩ := a; rw [saveResults, (ih _ _).1, (ih _ _).2]; dsimp only; split <;> exact ⟨rfl, rfl⟩
          rw [(sv _ _ _).1, (sv _ _ _).2]
          have : s4.ctoks.time = s.ctoks.time ∧ s4.skippedIdx = s.skippedIdx := by
            have st : ∀ (c : CToks) (k : Comp) (x : Tok), (c.set k x).time = c.time := by intro c k x; cases k <;> rfl
            split at hr
            · obtain ⟨c, ds, d, v, un, hm, hdm, hsk, hv, e2, e1, hun⟩ := parseDigitToken_sound _ _ _ _ _ hr
              dsimp only at e1
              rw [e1]; simp [setAndReturn, st]
            · split at hr
              · obtain ⟨c, ds, d, v, hm, hdm, hv, hsh⟩ := parseLetterToken_sound _ _ _ _ _ hr
                rcases hsh with ⟨h0, e2, e1⟩ | ⟨rfl, h0, e2, ao, hao, e1⟩
                · dsimp only at e1; rw [e1]; simp [setAndReturn, st]
                · dsimp only at e1; rw [e1]; simp [st]
              · simp only [Option.some.injEq, Prod.mk.injEq] at hr
                rw [← hr.1]; exact ⟨rfl, rfl⟩
          rw [this.1, this.2]
          exact ⟨id, fun _ h0 => ⟨h0, by simpa using hcol⟩⟩

theorem initLoop_keep {e : AEnv} {toks : List Tok} {fl : List FTok} : ∀ (r : List FTok) (i : Nat) (s s' : ASt), initLoop e toks fl i r s = .ok s' →
    (s.ctoks.time.isSome = true → s'.ctoks.time.isSome = true) ∧ (s'.ctoks.time = none → s.skippedIdx = [] → ∀ ft ∈ r, ':' ∉ ft.tok.text) := by
  intro r
  induction r with
  | nil => intro i s s' h; cases h; exact ⟨id, fun _ _ => by simp⟩
  | cons ft r ih =>
    intro i s s' hs
    rw [initLoop] at hs
    split at hs
    · cases hs
    · rename_i s2 h2
      obtain ⟨a1, a2⟩ := initStep_keep h2
      obtain ⟨b1, b2⟩ := ih (i + 1) s2 s' hs
      refine ⟨fun h => b1 (a1 h), fun hn h0 => ?_⟩
      have hn2 : s2.ctoks.time = none := by
        cases h : s2.ctoks.time with
        | none => rfl
        | some x => have := b1 (by rw [h]; rfl); rw [hn] at this; cases this
      obtain ⟨c1, c2⟩ := a2 hn2 h0
      intro x hx
      simp only [List.mem_cons] at hx
      rcases hx with rfl | hx
      · exact c2
      · exact b2 hn c1 x hx

/-- Without a time, no word has a colon. -/
theorem absInit_notime {e : AEnv} {str : List Char} {s : ASt} (hi : absInit e str = .ok s) (ht : s.ctoks.time = none) : ∀ w ∈ wordList str, ':' ∉ w := by
  unfold absInit at hi
  dsimp only at hi
  split at hi
  · cases hi
  · split at hi
    · cases hi
    · rename_i s1 h1
      cases hi
      unfold fallbacks at ht
      rw [fallback1_keeps_time, fallback1_keeps_time, fallback1_keeps_time] at ht
      have := (initLoop_keep _ _ _ _ h1).2 ht rfl
      intro w hw
      rw [← wordsOf_text] at hw
      obtain ⟨t, ht, rfl⟩ := List.mem_map.mp hw
      obtain ⟨ft, hft, rfl⟩ := List.mem_map.mp ht
      exact this ft hft

/-! ## The characters of a time -/

theorem word_chars {str w : List Char} {i : Nat} (h : (wordList str)[i]? = some w) : w ≠ [] ∧ ∀ c ∈ w, isSpace c = false ∧ c ≠ ',' ∧ c ≠ '.' := by
  rw [← wordsOf_text] at h
  obtain ⟨t, ht, rfl⟩ := List.mem_map.mp (List.mem_of_getElem? h)
  unfold wordsOf at ht
  obtain ⟨ft, hft, rfl⟩ := List.mem_map.mp ht
  have h2 := mem_filterToks _ _ ft hft
  obtain ⟨t0, h3, h4⟩ := List.mem_map.mp h2.1
  have h5 := goodToks_run _ (tokenize_good_aux _ (sanitizeSpaces str) (Nat.le_refl _)).1 t0 h3
  have h6 : t0.typ = ft.tok.typ := by rw [← h4]
  have h7 : ft.tok.text = t0.text := by rw [← h4]; exact trim_token h5.2 (by rw [h6]; exact h2.2)
  rw [h7]
  refine ⟨h5.1, fun c hc => ?_⟩
  have hcl : classOf c ≠ .other := by rw [h5.2 c hc, h6]; exact h2.2
  refine ⟨?_, ?_, ?_⟩
  · cases hs : isSpace c with
    | false => rfl
    | true => exact absurd (space_class hs) hcl
  · rintro rfl; exact hcl (by decide)
  · rintro rfl; exact hcl (by decide)

theorem clockAt_chars {str t : List Char} {i : Nat} (h : ClockAt str i t) : ',' ∉ t ∧ t.count ' ' ≤ 1 ∧ trimSpace t = t := by
  obtain ⟨base, frac, mer, k, rfl, hb, hfm, _⟩ := h
  have cb : base ≠ [] ∧ ∀ c ∈ base, isSpace c = false ∧ c ≠ ',' := by
    rcases hb with ⟨h1, _⟩ | ⟨h, m, sep, h1, h2, _, _, rfl, _⟩
    · have := word_chars h1; exact ⟨this.1, fun c hc => ⟨(this.2 c hc).1, (this.2 c hc).2.1⟩⟩
    · have a := word_chars h1
      have b := word_chars h2
      refine ⟨by simp, fun c hc => ?_⟩
      simp only [List.mem_append, List.mem_cons] at hc
      rcases hc with hc | rfl | hc
      · exact ⟨(a.2 c hc).1, (a.2 c hc).2.1⟩
      · decide
      · exact ⟨(b.2 c hc).1, (b.2 c hc).2.1⟩
  have cm : mer = [] ∨ ∃ ap, mer = ' ' :: ap ∧ ap ≠ [] ∧ ∀ c ∈ ap, isSpace c = false ∧ c ≠ ',' := by
    have go : ∀ (j : Nat), (mer = [] ∨ ∃ w ap mr, (wordList str)[j]? = some w ∧ ap <:+: w ∧ IsMeridian ap mr ∧ mer = ' ' :: ap) →
        mer = [] ∨ ∃ ap, mer = ' ' :: ap ∧ ap ≠ [] ∧ ∀ c ∈ ap, isSpace c = false ∧ c ≠ ',' := by
      rintro j (h | ⟨w, ap, mr, h1, h2, h3, rfl⟩)
      · exact Or.inl h
      · refine Or.inr ⟨ap, rfl, ?_, fun c hc => ?_⟩
        · rintro rfl; cases mr <;> simp [IsMeridian, toLower] at h3
        · have := (word_chars h1).2 c (h2.subset hc)
          exact ⟨this.1, this.2.1⟩
    rcases hfm with ⟨_, h⟩ | ⟨w, f, _, _, _, _, _, _, h⟩
    · exact go _ h
    · exact go _ h
  have cf : ∀ c ∈ frac, isSpace c = false ∧ c ≠ ',' := by
    rcases hfm with ⟨rfl, _⟩ | ⟨w, f, h1, _, h2, _, _, rfl, _⟩
    · simp
    · intro c hc
      simp only [List.mem_cons] at hc
      rcases hc with rfl | hc
      · decide
      · have := (word_chars h1).2 c (h2.subset hc)
        exact ⟨this.1, this.2.1⟩
  have count0 : ∀ (l : List Char), (∀ c ∈ l, isSpace c = false ∧ c ≠ ',') → l.count ' ' = 0 := by
    intro l hl
    rw [List.count_eq_zero]
    intro hm
    have := (hl _ hm).1
    simp [isSpace] at this
  have hd : ∀ c ∈ (base ++ frac ++ mer).head?, isSpace c = false := by
    cases hb' : base with
    | nil => exact absurd hb' cb.1
    | cons a r => intro c hc; simp at hc; rw [← hc]; exact (cb.2 a (by simp [hb'])).1
  have hl : ∀ c ∈ (base ++ frac ++ mer).getLast?, isSpace c = false := by
    intro c hc
    rcases cm with rfl | ⟨ap, rfl, hne, hap⟩
    · rw [List.append_nil] at hc
      have := List.mem_of_getLast? hc
      simp only [List.mem_append] at this
      rcases this with h | h
      · exact (cb.2 c h).1
      · exact (cf c h).1
    · have : (base ++ frac ++ ' ' :: ap).getLast? = ap.getLast? := by
        rw [show base ++ frac ++ ' ' :: ap = (base ++ frac ++ [' ']) ++ ap by simp, List.getLast?_append]
        cases hs : ap.getLast? with
        | none => simp at hs; exact absurd hs hne
        | some a => simp
      rw [this] at hc
      exact (hap c (List.mem_of_getLast? hc)).1
  refine ⟨?_, ?_, trimSpace_ends _ hd hl⟩
  · intro hm
    simp only [List.mem_append] at hm
    rcases hm with (hm | hm) | hm
    · exact (cb.2 _ hm).2 rfl
    · exact (cf _ hm).2 rfl
    · rcases cm with rfl | ⟨ap, rfl, _, hap⟩
      · simp at hm
      · simp only [List.mem_cons] at hm
        rcases hm with hm | hm
        · cases hm
        · exact (hap _ hm).2 rfl
  · rw [List.count_append, List.count_append, count0 _ cb.2, count0 _ cf]
    rcases cm with rfl | ⟨ap, rfl, _, hap⟩
    · simp
    · rw [List.count_cons, count0 _ hap]; simp

end Verif.Lemmas
