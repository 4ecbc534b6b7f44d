import Verif.Lemmas.Format
import Verif.Model.Formatted
/-! Helper lemmas: the elements of a layout, and what the formatted parser makes of what they say. -/
set_option autoImplicit false
namespace Verif.Lemmas
open Verif.Go Verif.Model Verif.Spec

theorem zoneTail_n (r : List Char) : (zoneTail r).2.1 = 1 ∨ (zoneTail r).2.1 = 2 ∨ (zoneTail r).2.1 = 3 := by
  unfold zoneTail
  split <;> simp

theorem layoutChunksF_ok : ∀ (n : Nat) (s : List Char), ∀ c ∈ layoutChunksF n s, EltOK c
  | 0, s => by intro c hc; simp [layoutChunksF] at hc
  | n + 1, s => by
    have ih := layoutChunksF_ok n
    unfold layoutChunksF
    split
    case h_1 => intro c hc; simp at hc
    case h_28 =>
      rename_i c r _ _ _ _ _ _ _ _ _ _ _ _ _ _ _ _ _ _ _ h3 h4 _ _ _ _ _
      have h3 : c ≠ '3' := fun h => h3 h
      have h4 : c ≠ '4' := fun h => h4 h
      have runpos : ∀ ch : Char, r.head? = some ch → 1 ≤ runLen ch r := by
        intro ch hch
        cases r with
        | nil => simp at hch
        | cons a b => simp at hch; subst hch; simp [runLen]
      split
      · rename_i hc
        simp only [Bool.and_eq_true, Bool.or_eq_true, beq_iff_eq] at hc
        have hsp : c ≠ ' ' := by rcases hc.1 with h | h <;> rw [h] <;> decide
        have hk : 1 ≤ runLen (r.headD '0') r := by
          rcases hc.2 with h | h <;> (cases r with | nil => simp at h | cons a b => simp [runLen])
        simp only
        split
        · intro x hx
          rcases List.mem_cons.mp hx with h | h
          · subst h; exact ⟨h3, h4, hsp⟩
          · exact ih _ x h
        · split <;>
          · intro x hx
            rcases List.mem_cons.mp hx with h | h
            · subst h; exact ⟨hc.1, hk⟩
            · exact ih _ x h
      · split
        · rename_i hc
          intro x hx
          rcases List.mem_cons.mp hx with h | h
          · subst h
            have : c = ' ' := by simpa using hc
            subst this
            show 1 ≤ runLen ' ' (' ' :: r)
            simp [runLen]
          · exact ih _ x h
        · rename_i hc
          intro x hx
          rcases List.mem_cons.mp hx with h | h
          · subst h; exact ⟨h3, h4, by simpa using hc⟩
          · exact ih _ x h
    case h_3 =>
      split <;>
      · intro x hx
        rcases List.mem_cons.mp hx with h | h
        · subst h; simp [EltOK]
        · exact ih _ x h
    case h_5 =>
      split <;>
      · intro x hx
        rcases List.mem_cons.mp hx with h | h
        · subst h; simp [EltOK]
        · exact ih _ x h
    case h_18 =>
      intro x hx
      rcases List.mem_cons.mp hx with h | h
      · subst h; simp [EltOK]
      · rcases List.mem_cons.mp h with h | h
        · subst h; simp [EltOK]
        · exact ih _ x h
    all_goals
      intro x hx
      rcases List.mem_cons.mp hx with h | h
      · subst h; first | exact zoneTail_n _ | simp [EltOK]
      · exact ih _ x h

theorem layoutChunks_ok (s : List Char) : ∀ c ∈ layoutChunks s, EltOK c := layoutChunksF_ok _ _

/-! ## What the elements of a layout say together -/

theorem run_year (t : Time) (cs : List Chunk) (st : PState) :
    (cs.foldl (setElt t) st).year = if cs.any isYearElt then t.year else st.year := by
  induction cs generalizing st with
  | nil => rfl
  | cons c cs ih =>
    rw [List.foldl_cons, ih, List.any_cons]
    cases c <;> simp only [isYearElt, setElt, Bool.true_or, Bool.false_or, if_true] <;> (repeat' split) <;> simp_all

theorem run_month (t : Time) (cs : List Chunk) (st : PState) :
    (cs.foldl (setElt t) st).month = if cs.any isMonthElt then t.month else st.month := by
  induction cs generalizing st with
  | nil => rfl
  | cons c cs ih =>
    rw [List.foldl_cons, ih, List.any_cons]
    cases c <;> simp only [isMonthElt, setElt, Bool.true_or, Bool.false_or, if_true] <;> (repeat' split) <;> simp_all

theorem run_day (t : Time) (cs : List Chunk) (st : PState) :
    (cs.foldl (setElt t) st).day = if cs.any isDayElt then t.day else st.day := by
  induction cs generalizing st with
  | nil => rfl
  | cons c cs ih =>
    rw [List.foldl_cons, ih, List.any_cons]
    cases c <;> simp only [isDayElt, setElt, Bool.true_or, Bool.false_or, if_true] <;> (repeat' split) <;> simp_all

theorem run_yday (t : Time) (cs : List Chunk) (st : PState) :
    (cs.foldl (setElt t) st).yday = if cs.any isYearDayElt then t.yearDay else st.yday := by
  induction cs generalizing st with
  | nil => rfl
  | cons c cs ih =>
    rw [List.foldl_cons, ih, List.any_cons]
    cases c <;> simp only [isYearDayElt, setElt, Bool.true_or, Bool.false_or, if_true] <;> (repeat' split) <;> simp_all

theorem run_min (t : Time) (cs : List Chunk) (st : PState) :
    (cs.foldl (setElt t) st).min = if cs.any isMinuteElt then t.minute else st.min := by
  induction cs generalizing st with
  | nil => rfl
  | cons c cs ih =>
    rw [List.foldl_cons, ih, List.any_cons]
    cases c <;> simp only [isMinuteElt, setElt, Bool.true_or, Bool.false_or, if_true] <;> (repeat' split) <;> simp_all

theorem run_sec (t : Time) (cs : List Chunk) (st : PState) :
    (cs.foldl (setElt t) st).sec = if cs.any isSecondElt then t.second else st.sec := by
  induction cs generalizing st with
  | nil => rfl
  | cons c cs ih =>
    rw [List.foldl_cons, ih, List.any_cons]
    cases c <;> simp only [isSecondElt, setElt, Bool.true_or, Bool.false_or, if_true] <;> (repeat' split) <;> simp_all

theorem run_pm (t : Time) (cs : List Chunk) (st : PState) :
    (cs.foldl (setElt t) st).pmSet = (st.pmSet || (cs.any isMeridianElt && decide (12 ≤ t.hour))) := by
  induction cs generalizing st with
  | nil => simp
  | cons c cs ih =>
    rw [List.foldl_cons, ih, List.any_cons]
    by_cases h12 : 12 ≤ t.hour
    · cases c <;> simp only [isMeridianElt, setElt, Bool.true_or, Bool.false_or, if_true] <;> (repeat' split) <;> simp_all
    · cases c <;> simp only [isMeridianElt, setElt, Bool.true_or, Bool.false_or, if_true, h12, decide_false, Bool.and_false, Bool.or_false] <;> (repeat' split) <;> first | contradiction | rfl

theorem run_am (t : Time) (cs : List Chunk) (st : PState) :
    (cs.foldl (setElt t) st).amSet = (st.amSet || (cs.any isMeridianElt && !decide (12 ≤ t.hour))) := by
  induction cs generalizing st with
  | nil => simp
  | cons c cs ih =>
    rw [List.foldl_cons, ih, List.any_cons]
    cases c <;> simp only [isMeridianElt, setElt, Bool.true_or, Bool.false_or, if_true] <;> (repeat' split) <;> simp_all

/-- The hour is unset, or that of a 24-hour clock, or that of a 12-hour clock. -/
theorem run_hour (t : Time) (cs : List Chunk) (st : PState) :
    (cs.any isHour24Elt = false ∧ cs.any isHour12Elt = false ∧ (cs.foldl (setElt t) st).hour = st.hour) ∨
    (cs.any isHour24Elt = true ∧ (cs.foldl (setElt t) st).hour = t.hour) ∨
    (cs.any isHour12Elt = true ∧ (cs.foldl (setElt t) st).hour = if t.hour % 12 = 0 then 12 else t.hour % 12) := by
  induction cs generalizing st with
  | nil => exact Or.inl ⟨rfl, rfl, rfl⟩
  | cons c cs ih =>
    rw [List.foldl_cons, List.any_cons, List.any_cons]
    rcases ih (setElt t st c) with ⟨h1, h2, h3⟩ | ⟨h1, h2⟩ | ⟨h1, h2⟩
    · rw [h1, h2, h3]
      cases c <;> simp only [isHour24Elt, isHour12Elt, setElt, Bool.or_false] <;> (repeat' split) <;> simp_all
    · exact Or.inr (Or.inl ⟨by simp [h1], h2⟩)
    · exact Or.inr (Or.inr ⟨by simp [h1], h2⟩)

theorem run_nsec (t : Time) (hwf : t.WF) {n : Nat} (hn : n ≤ 9) (cs : List Chunk) (st : PState)
    (h : ∀ sep k, Chunk.frac9 sep k ∈ cs ∨ Chunk.frac0 sep k ∈ cs → k = n) (hst : st.nsec = 0 ∨ st.nsec = truncNs n t.nsec) :
    (cs.foldl (setElt t) st).nsec = if cs.any isFracElt then truncNs n t.nsec else st.nsec := by
  induction cs generalizing st with
  | nil => rfl
  | cons c cs ih =>
    have hmin : min n 9 = n := by omega
    have hsub : ∀ sep k, Chunk.frac9 sep k ∈ cs ∨ Chunk.frac0 sep k ∈ cs → k = n := by
      intro sep k hk
      exact h sep k (by rcases hk with hk | hk <;> simp [hk])
    have hk : (setElt t st c).nsec = 0 ∨ (setElt t st c).nsec = truncNs n t.nsec := by
      cases c with
      | frac9 sep k =>
        have := h sep k (by simp); subst this
        simp only [setElt]; split
        · exact hst
        · right; rw [hmin]
      | frac0 sep k => have := h sep k (by simp); subst this; right; rfl
      | pm => simp only [setElt]; split <;> exact hst
      | pmLower => simp only [setElt]; split <;> exact hst
      | zone a b c => simp only [setElt]; split <;> exact hst
      | tzName => simp only [setElt]; split <;> exact hst
      | _ => exact hst
    rw [List.foldl_cons, ih _ hsub hk, List.any_cons]
    cases c with
    | frac9 sep k =>
      have := h sep k (by simp); subst this
      simp only [isFracElt, Bool.true_or, if_true, setElt]
      split
      · rfl
      · split
        · rename_i h1 h2
          have := dropZeros_empty hn hwf.1 hwf.2 h2
          rw [this] at hst ⊢
          rcases hst with h | h <;> exact h
        · rw [hmin]
    | frac0 sep k =>
      have := h sep k (by simp); subst this
      simp only [isFracElt, Bool.true_or, if_true, setElt]
      split <;> rfl
    | pm => simp only [isFracElt, setElt, Bool.false_or]; (repeat' split) <;> rfl
    | pmLower => simp only [isFracElt, setElt, Bool.false_or]; (repeat' split) <;> rfl
    | zone a b c => simp only [isFracElt, setElt, Bool.false_or]; (repeat' split) <;> rfl
    | tzName => simp only [isFracElt, setElt, Bool.false_or]; (repeat' split) <;> rfl
    | _ => simp only [isFracElt, setElt, Bool.false_or]

/-- The zone is unset or as written. -/
theorem run_zone (t : Time) (cs : List Chunk) (st : PState) (h0 : st.zoneOff = -1 ∨ st.zoneOff = t.loc.off t.sec) :
    ((cs.foldl (setElt t) st).zoneOff = -1 ∨ (cs.foldl (setElt t) st).zoneOff = t.loc.off t.sec) ∧
    ((cs.foldl (setElt t) st).isUTC = true → st.isUTC = true ∨ (cs.any isZoneElt = true ∧ t.loc.off t.sec = 0) ∨
      (cs.any isZoneNameElt = true ∧ t.loc.abbr t.sec = ['U', 'T', 'C'])) ∧
    (cs.any isZoneElt = false → (cs.foldl (setElt t) st).zoneOff = st.zoneOff) ∧
    (cs.any isZoneElt = true → (cs.foldl (setElt t) st).isUTC = true ∨ (cs.foldl (setElt t) st).zoneOff = t.loc.off t.sec) ∧
    (st.isUTC = true → (cs.foldl (setElt t) st).isUTC = true) ∧
    (st.zoneOff = t.loc.off t.sec → (cs.foldl (setElt t) st).zoneOff = t.loc.off t.sec) := by
  induction cs generalizing st with
  | nil => exact ⟨h0, fun h => Or.inl h, fun _ => rfl, (fun h => by simp at h), id, id⟩
  | cons c cs ih =>
    rw [List.foldl_cons, List.any_cons, List.any_cons]
    cases c with
    | zone iso colon k =>
      simp only [setElt, isZoneElt, isZoneNameElt, Bool.true_or, Bool.false_or]
      split
      · rename_i h
        obtain ⟨i1, i2, i3, i4, i5, i6⟩ := ih { st with isUTC := true } h0
        exact ⟨i1, fun hh => by rcases i2 hh with a | a | a <;> simp_all, by simp, fun _ => Or.inl (i5 rfl), fun _ => i5 rfl, i6⟩
      · obtain ⟨i1, i2, i3, i4, i5, i6⟩ := ih { st with zoneOff := t.loc.off t.sec } (Or.inr rfl)
        exact ⟨i1, fun hh => by rcases i2 hh with a | a | a <;> simp_all, by simp, fun _ => Or.inr (i6 rfl), i5, fun _ => i6 rfl⟩
    | tzName =>
      simp only [setElt, isZoneElt, isZoneNameElt, Bool.true_or, Bool.false_or]
      split
      · rename_i h
        obtain ⟨i1, i2, i3, i4, i5, i6⟩ := ih { st with isUTC := true } h0
        exact ⟨i1, fun hh => by rcases i2 hh with a | a | a <;> simp_all, i3, i4, fun _ => i5 rfl, i6⟩
      · obtain ⟨i1, i2, i3, i4, i5, i6⟩ := ih { st with zoneName := t.loc.abbr t.sec } h0
        exact ⟨i1, fun hh => by rcases i2 hh with a | a | a <;> simp_all, i3, i4, i5, i6⟩
    | pm => simp only [setElt, isZoneElt, isZoneNameElt, Bool.false_or]; split <;> exact ih _ h0
    | pmLower => simp only [setElt, isZoneElt, isZoneNameElt, Bool.false_or]; split <;> exact ih _ h0
    | frac9 sep k => simp only [setElt, isZoneElt, isZoneNameElt, Bool.false_or]; split <;> exact ih _ h0
    | _ => exact ih _ h0

theorem run_zoneName (t : Time) (cs : List Chunk) (st : PState) :
    (cs.foldl (setElt t) st).zoneName =
      if cs.any isZoneNameElt = true ∧ t.loc.abbr t.sec ≠ ['U', 'T', 'C'] then t.loc.abbr t.sec else st.zoneName := by
  induction cs generalizing st with
  | nil => simp
  | cons c cs ih =>
    rw [List.foldl_cons, ih, List.any_cons]
    cases c <;> simp only [isZoneNameElt, setElt, Bool.true_or, Bool.false_or, if_true] <;> (repeat' split) <;> simp_all

theorem run_utc_name (t : Time) (cs : List Chunk) (st : PState) (h : cs.any isZoneNameElt = true) (hu : t.loc.abbr t.sec = ['U', 'T', 'C']) :
    (cs.foldl (setElt t) st).isUTC = true := by
  have keep : ∀ (cs : List Chunk) (st : PState), st.isUTC = true → (cs.foldl (setElt t) st).isUTC = true := by
    intro cs
    induction cs with
    | nil => exact fun _ h => h
    | cons c cs ih =>
      intro st hst
      rw [List.foldl_cons]
      apply ih
      cases c <;> simp only [setElt] <;> (repeat' split) <;> first | exact hst | rfl
  induction cs generalizing st with
  | nil => simp at h
  | cons c cs ih =>
    rw [List.foldl_cons]
    rw [List.any_cons, Bool.or_eq_true] at h
    rcases h with h | h
    · cases c <;> simp [isZoneNameElt] at h
      exact keep _ _ (by simp [setElt, hu])
    · exact ih _ h


/-! ## The end of `parse` -/

/-- `ofYearDay` for a leap year or another year. -/
theorem ofYearDay_leap : ∀ (m : Fin 12) (d : Fin 31), (d.val : Int) + 1 ≤ daysIn 4 (m.val + 1) →
    ofYearDay 4 (daysBeforeMonth 4 (m.val + 1) + (d.val + 1)) = some ((m.val : Int) + 1, (d.val : Int) + 1) := by decide +kernel
theorem ofYearDay_common : ∀ (m : Fin 12) (d : Fin 31), (d.val : Int) + 1 ≤ daysIn 1 (m.val + 1) →
    ofYearDay 1 (daysBeforeMonth 1 (m.val + 1) + (d.val + 1)) = some ((m.val : Int) + 1, (d.val : Int) + 1) := by decide +kernel

theorem ofYearDay_yearDay (t : Time) : ofYearDay t.year t.yearDay = some (t.month, t.day) := by
  obtain ⟨h1, h2, h3, h4⟩ := t.year_month_day_valid
  unfold Time.yearDay
  generalize t.year = y at *
  generalize t.month = m at *
  generalize t.day = d at *
  have h31 := daysIn_le y m
  have swap : ∀ y' : Int, isLeap y = isLeap y' → daysIn y = daysIn y' ∧ daysBeforeMonth y = daysBeforeMonth y' ∧
      ofYearDay y = ofYearDay y' := by
    intro y' h
    have e1 : daysIn y = daysIn y' := by funext k; unfold daysIn; rw [h]
    refine ⟨e1, ?_, ?_⟩
    · funext k; unfold daysBeforeMonth; rw [h]
    · funext k; unfold ofYearDay; rw [e1]
  have hm : ((m - 1).toNat : Int) + 1 = m := by omega
  have hd : ((d - 1).toNat : Int) + 1 = d := by omega
  cases hy : isLeap y with
  | true =>
    obtain ⟨e1, e2, e3⟩ := swap 4 (by rw [hy]; decide)
    have := ofYearDay_leap ⟨(m - 1).toNat, by omega⟩ ⟨(d - 1).toNat, by omega⟩
    simp only [hm, hd] at this
    rw [e2, e3]
    exact this (by rw [← e1]; exact h4)
  | false =>
    obtain ⟨e1, e2, e3⟩ := swap 1 (by rw [hy]; decide)
    have := ofYearDay_common ⟨(m - 1).toNat, by omega⟩ ⟨(d - 1).toNat, by omega⟩
    simp only [hm, hd] at this
    rw [e2, e3]
    exact this (by rw [← e1]; exact h4)

/-- The state after reading a text written by a layout. -/
abbrev readState (t : Time) (cs : List Chunk) : PState := cs.foldl (setElt t) {}

/-- Month and day, complete or not. -/
theorem finishDay_read (t : Time) (cs : List Chunk) (hy : cs.any isYearDayElt = true → cs.any isYearElt = true) :
    finishDay (readState t cs) = some
      (if cs.any isMonthElt = true ∨ cs.any isYearDayElt = true then t.month else 1,
       if cs.any isDayElt = true ∨ cs.any isYearDayElt = true then t.day else 1) := by
  obtain ⟨h1, h2, h3, h4⟩ := t.year_month_day_valid
  have hyd := yearDay_range t
  unfold finishDay
  rw [run_yday, run_month, run_day, run_year]
  by_cases hyy : cs.any isYearDayElt = true
  · rw [if_pos hyy, if_pos (by omega), if_pos (hy hyy), ofYearDay_yearDay]
    simp only [hyy, or_true, if_true]
    rw [if_neg]
    rintro (⟨a, b⟩ | ⟨a, b⟩)
    · split at b
      · exact b rfl
      · rename_i hh; rw [if_neg hh] at a; revert a; decide
    · split at b
      · exact b rfl
      · rename_i hh; rw [if_neg hh] at a; revert a; decide
  · rw [if_neg hyy]
    simp only [hyy, or_false]
    rw [if_neg (by show ¬ ((0:Int) ≤ -1); decide)]
    congr 2
    · by_cases hm : cs.any isMonthElt = true
      · simp only [hm, if_true]; rw [if_neg (by omega)]; simp
      · simp only [hm, if_false]; rfl
    · by_cases hd : cs.any isDayElt = true
      · simp only [hd, if_true]; rw [if_neg (by omega)]; simp
      · simp only [hd, if_false]; rfl

/-- The hour. -/
theorem hour_read (t : Time) (hwf : t.WF) (cs : List Chunk) {n : Nat} {H M S ns : Int} (hc : SaysClock t cs n H M S ns) :
    (if (readState t cs).pmSet && decide ((readState t cs).hour < 12) then (readState t cs).hour + 12
      else if (readState t cs).amSet && (readState t cs).hour == 12 then 0 else (readState t cs).hour) = H := by
  obtain ⟨c1, c2, _⟩ := t.clockOK hwf
  have hpm := run_pm t cs {}
  have ham := run_am t cs {}
  have hh := run_hour t cs {}
  change (readState t cs).pmSet = (false || _) at hpm
  change (readState t cs).amSet = (false || _) at ham
  change _ ∧ _ ∧ (readState t cs).hour = 0 ∨ _ at hh
  rw [Bool.false_or] at hpm ham
  rw [hpm, ham]
  generalize (readState t cs).hour = h at *
  clear hpm ham
  rcases hc.hour with ⟨k1, k2, k3⟩ | ⟨k1, k2, k3, k4⟩
  · subst k3
    cases hm : cs.any isMeridianElt with
    | true =>
      simp only [Bool.true_and]
      by_cases h12 : 12 ≤ t.hour
      · simp only [h12, decide_true, Bool.true_and, Bool.not_true, Bool.false_and, Bool.false_eq_true, if_false]
        rcases hh with ⟨a, b, e⟩ | ⟨a, e⟩ | ⟨a, e⟩
        · simp [a, b] at k1
        · rw [e]; simp; omega
        · rw [e]; split <;> simp <;> omega
      · simp only [h12, decide_false, Bool.false_and, Bool.not_false, Bool.true_and, Bool.false_eq_true, if_false]
        rcases hh with ⟨a, b, e⟩ | ⟨a, e⟩ | ⟨a, e⟩
        · simp [a, b] at k1
        · rw [e]; simp; omega
        · rw [e]; split <;> simp <;> omega
    | false =>
      simp only [Bool.false_and, Bool.false_eq_true, if_false]
      rcases hh with ⟨a, b, e⟩ | ⟨a, e⟩ | ⟨a, e⟩
      · simp [a, b] at k1
      · exact e
      · rw [hm] at k2; exact absurd (k2 a) (by decide)
  · rw [k3]
    rcases hh with ⟨a, b, e⟩ | ⟨a, e⟩ | ⟨a, e⟩
    · rw [e, k4]; simp
    · rw [k1] at a; cases a
    · rw [k2] at a; cases a

theorem saysClock_ok {t : Time} (hwf : t.WF) {cs : List Chunk} {n : Nat} {H M S ns : Int} (hc : SaysClock t cs n H M S ns) :
    IsClock H M S ns := by
  obtain ⟨c1, c2, c3, c4, c5, c6, c7, c8⟩ := t.clockOK hwf
  have hH : 0 ≤ H ∧ H < 24 := by rcases hc.hour with ⟨_, _, h⟩ | ⟨_, _, _, h⟩ <;> omega
  have hM : 0 ≤ M ∧ M < 60 := by rw [hc.minute]; split <;> omega
  have hS : 0 ≤ S ∧ S < 60 := by rw [hc.second]; split <;> omega
  have hN : 0 ≤ ns ∧ ns < 1000000000 := by
    rw [hc.nano]; split
    · have hp : (0:Int) < 10 ^ (9 - n) := Int.pow_pos (by omega)
      have a := Int.ediv_mul_le t.nsec (b := 10 ^ (9 - n)) (by omega)
      have b : 0 ≤ t.nsec / 10 ^ (9 - n) := Int.ediv_nonneg c7 (by omega)
      have := Int.mul_nonneg b (Int.le_of_lt hp)
      omega
    · omega
  exact ⟨hH.1, hH.2, hM.1, hM.2, hS.1, hS.2, hN.1, hN.2⟩

theorem read_clock {t : Time} (hwf : t.WF) {cs : List Chunk} {n : Nat} {H M S ns : Int} (hc : SaysClock t cs n H M S ns) :
    (readState t cs).min = M ∧ (readState t cs).sec = S ∧ (readState t cs).nsec = ns := by
  refine ⟨?_, ?_, ?_⟩
  · rw [run_min, hc.minute]
  · rw [run_sec, hc.second]
  · rw [run_nsec t hwf hc.digits cs {} hc.frac (Or.inl rfl), hc.nano]; rfl

/-- The three ways a text is placed in a zone. -/
theorem finish_read (t : Time) (cs : List Chunk) (hwf : t.WF) {n : Nat} {H M S ns : Int} (hc : SaysClock t cs n H M S ns)
    (hy : cs.any isYearDayElt = true → cs.any isYearElt = true) {Y m d : Int}
    (hY : Y = if cs.any isYearElt then t.year else 0)
    (hm : m = if cs.any isMonthElt = true ∨ cs.any isYearDayElt = true then t.month else 1)
    (hd : d = if cs.any isDayElt = true ∨ cs.any isYearDayElt = true then t.day else 1) (hdate : IsDate Y m d) (l : Loc) :
    finishParse (readState t cs) l =
      (if (readState t cs).isUTC then some (goDate Y m d H M S ns Loc.utc)
       else if (readState t cs).zoneOff ≠ -1 then
        some { goDate Y m d H M S ns Loc.utc with
          sec := (goDate Y m d H M S ns Loc.utc).sec - (readState t cs).zoneOff
          loc := if l.off ((goDate Y m d H M S ns Loc.utc).sec - (readState t cs).zoneOff) = (readState t cs).zoneOff ∧
              ((readState t cs).zoneName = [] ∨ l.abbr ((goDate Y m d H M S ns Loc.utc).sec - (readState t cs).zoneOff) = (readState t cs).zoneName)
            then l else Loc.fixed (String.ofList (readState t cs).zoneName) (readState t cs).zoneOff }
       else if (readState t cs).zoneName ≠ [] then
        match l.lookupName (readState t cs).zoneName (goDate Y m d H M S ns Loc.utc).sec with
        | some offset => some { goDate Y m d H M S ns Loc.utc with sec := (goDate Y m d H M S ns Loc.utc).sec - offset, loc := l }
        | none => some { goDate Y m d H M S ns Loc.utc with
            loc := Loc.fixed (String.ofList (readState t cs).zoneName)
              (if (readState t cs).zoneName.length > 3 ∧ (readState t cs).zoneName.take 3 = ['G', 'M', 'T'] then
                (atoi ((readState t cs).zoneName.drop 3)).getD 0 * 3600 else 0) }
       else some (goDate Y m d H M S ns l)) := by
  unfold finishParse
  have h1 := hour_read t hwf cs hc
  obtain ⟨h2, h3, h4⟩ := read_clock hwf hc
  have h5 : (readState t cs).year = Y := by rw [hY, run_year]
  rw [finishDay_read t cs hy, ← hm, ← hd]
  simp only [h1, h2, h3, h4, h5]
  rw [if_neg (by have := hdate.2.2; rw [daysIn_eq]; omega)]
  rfl

end Verif.Lemmas
