import Verif.Lemmas.ClockText
import Verif.Props.Calendar
/-! # C37: times of day -/
set_option autoImplicit false
namespace Verif.Props
open Verif.Go Verif.Model Verif.Lemmas Verif.Spec

theorem timeFormats_chunks : timeFormats.map (fun p => (layoutChunks p.1, p.2)) =
    [([.hour15, .lit ':', .min4, .lit ':', .sec5], .second),
     ([.hour3, .lit ':', .min4, .lit ':', .sec5, .spaces 1, .pm], .second),
     ([.hour15, .lit ':', .min4], .minute),
     ([.hour3, .lit ':', .min4, .spaces 1, .pm], .minute),
     ([.hour3, .spaces 1, .pm], .hour),
     ([.hour15, .lit ':', .min4, .lit ':', .sec5, .frac9 '.' 6], .second),
     ([.hour3, .lit ':', .min4, .lit ':', .sec5, .frac9 '.' 6, .spaces 1, .pm], .second),
     ([.hour15, .lit ':', .min4, .spaces 1, .pm], .minute)] := by decide +kernel

/-- The loop over formats that are already split. -/
def loopC (v : List Char) : List (List Chunk × Period) → Option (Time × Period)
  | [] => none
  | (f, p) :: r =>
    match parseWith f v Loc.utc with
    | some t => some (t, p)
    | none => loopC v r

theorem parseTimeLoop_chunks (v : List Char) : ∀ l : List (List Char × Period),
    parseTimeLoop v l = loopC v (l.map (fun p => (layoutChunks p.1, p.2))) := by
  intro l
  induction l with
  | nil => rfl
  | cons x r ih =>
    obtain ⟨f, p⟩ := x
    rw [parseTimeLoop, List.map_cons, loopC, ih]
    rfl

/-- The parts of a time in a `time.Time` as `ParseTime` returns it. -/
def clockOf (r : Option (Time × Period)) : Option Clock :=
  r.map fun x => { hour := x.1.hour, minute := x.1.minute, second := x.1.second, nano := x.1.nsec, period := x.2 }

/-- End of `time.Parse` for a time of day. -/
theorem finish_clock (st : PState) (h1 : st.year = 0 ∧ st.yday = -1 ∧ st.zoneOff = -1 ∧ st.isUTC = false ∧ st.zoneName = []) (h2 : st.month = -1) (h3 : st.day = -1)
    (hh : 0 ≤ st.hour ∧ st.hour < 24) (hm : 0 ≤ st.min ∧ st.min < 60) (hs : 0 ≤ st.sec ∧ st.sec < 60)
    (hn : 0 ≤ st.nsec ∧ st.nsec < 1000000000) (p : Period) :
    clockOf ((finishParse st Loc.utc).map (fun t => (t, p))) =
      some { hour := if st.pmSet && st.hour < 12 then st.hour + 12 else if st.amSet && st.hour == 12 then 0 else st.hour,
             minute := st.min, second := st.sec, nano := st.nsec, period := p } := by
  rw [finishParse_plain h1.2.1 h1.2.2.1 h1.2.2.2]
  dsimp only
  rw [h1.1, h2, h3]
  generalize hH : (if (st.pmSet && decide (st.hour < 12)) = true then st.hour + 12
    else if (st.amSet && st.hour == 12) = true then 0 else st.hour) = H
  have hHr : 0 ≤ H ∧ H < 24 := by
    rw [← hH]
    split
    · rename_i h; simp at h; omega
    · split <;> omega
  simp only [show ((-1 : Int) < 0) = True by simp, if_true, daysIn_jan]
  rw [if_neg (by omega)]
  have F := goDate_fields (l := Loc.utc) (y := 0) (m := 1) (d := 1) (H := H) (M := st.min) (S := st.sec) (ns := st.nsec)
    ⟨hHr.1, hHr.2, hm.1, hm.2, hs.1, hs.2, hn.1, hn.2⟩ (noJump_utc _)
  simp [clockOf, F.2.1, F.2.2.1, F.2.2.2.1, F.2.2.2.2]

theorem nanos_eq (f : List Char) : nanosOfDigits f = nanos f := by
  unfold nanosOfDigits nanos
  rw [number_eq]

theorem nanos_range {f : List Char} (h : IsNumeral f) : 0 ≤ nanosOfDigits f ∧ nanosOfDigits f < 1000000000 := by
  unfold nanosOfDigits
  have hd : Digits (f.take 9) := fun c hc => h.2 c (List.mem_of_mem_take hc)
  have r := natOfDigits_range hd
  have hl : (f.take 9).length ≤ 9 := by simp; omega
  dsimp only
  generalize natOfDigits (f.take 9) = n at *
  generalize (f.take 9).length = k at *
  have hp : (0 : Int) < 10 ^ (9 - k) := Int.pow_pos (by omega)
  constructor
  · exact Int.mul_nonneg r.1 (Int.le_of_lt hp)
  · have h1 : n * 10 ^ (9 - k) < 10 ^ k * 10 ^ (9 - k) := Int.mul_lt_mul_of_pos_right r.2 hp
    rw [← Int.pow_add, show k + (9 - k) = 9 by omega] at h1
    exact h1

/-- Upper case of the meridian letters. -/
def upperMer : Meridian → List Char
  | .am => ['A', 'M'] | .pm => ['P', 'M']

theorem toUpper_mer {t : List Char} {mr : Meridian} (h : IsMeridian t mr) : toUpper t = upperMer mr := by
  have key : ∀ (x : Char), ∀ y ∈ ['a', 'm', 'p'], toLowerC x = y → toUpperC x = toUpperC y := by
    intro x y hy hx
    unfold toLowerC at hx
    split at hx
    · rename_i hc
      have h1 : 65 ≤ x.toNat := hc.1
      have h2 : x.toNat ≤ 90 := hc.2
      have gen : ∀ n : Fin 26, ∀ y ∈ ['a', 'm', 'p'], Char.ofNat (65 + n.val + 32) = y →
          toUpperC (Char.ofNat (65 + n.val)) = toUpperC y := by decide
      have := gen ⟨x.toNat - 65, by omega⟩ y hy
      simp only [show 65 + (x.toNat - 65) = x.toNat by omega, Char.ofNat_toNat] at this
      exact this hx
    · rw [hx]
  have two : ∀ (a b : Char), b ∈ ['a', 'm', 'p'] → a ∈ ['a', 'm', 'p'] → toLower t = [a, b] → toUpper t = [toUpperC a, toUpperC b] := by
    intro a b hb ha ht
    cases t with
    | nil => simp [toLower] at ht
    | cons x r =>
      cases r with
      | nil => simp [toLower] at ht
      | cons y r =>
        cases r with
        | nil =>
          simp [toLower] at ht
          simp [toUpper, key x a ha ht.1, key y b hb ht.2]
        | cons z r => simp [toLower] at ht
  cases mr with
  | am => exact two 'a' 'm' (by simp) (by simp) h
  | pm => exact two 'p' 'm' (by simp) (by simp) h

theorem toUpperC_digit {c : Char} (h : c.isDigit = true) : toUpperC c = c := by
  have ⟨_, h2⟩ := isDigit_le h
  unfold toUpperC
  rw [if_neg]
  rintro ⟨h3, _⟩
  exact absurd (Char.le_trans h3 h2) (by decide)

theorem toUpper_num {s : List Char} (h : IsNumeral s) : toUpper s = s := by
  unfold toUpper
  have : s.map toUpperC = s.map id := List.map_congr_left (fun c hc => toUpperC_digit (h.2 c hc))
  rw [this, List.map_id]

/-- Text with no space at either end is not trimmed. -/
theorem trimSpace_ends (s : List Char) (h1 : ∀ c ∈ s.head?, isSpace c = false)
    (h2 : ∀ c ∈ s.getLast?, isSpace c = false) : trimSpace s = s := by
  unfold trimSpace
  have e1 : s.dropWhile isSpace = s := by
    cases s with
    | nil => rfl
    | cons a r => simp [h1 a (by simp)]
  rw [e1]
  have e2 : s.reverse.dropWhile isSpace = s.reverse := by
    cases hr : s.reverse with
    | nil => rfl
    | cons a r =>
      have : a ∈ s.getLast? := by
        rw [← List.head?_reverse, hr]; simp
      simp [h2 a this]
  rw [e2, List.reverse_reverse]

theorem digit_notspace {c : Char} (h : c.isDigit = true) : isSpace c = false :=
  digits_not_space (s := [c]) (by intro x hx; simp at hx; rw [hx]; exact h) c (by simp)

theorem head_numeral {s r : List Char} (h : IsNumeral s) : ∀ c ∈ (s ++ r).head?, isSpace c = false := by
  cases s with
  | nil => exact absurd rfl h.1
  | cons a t => intro c hc; simp at hc; rw [← hc]; exact digit_notspace (h.2 a (by simp))

theorem last_numeral {s : List Char} (h : IsNumeral s) (r : List Char) : ∀ c ∈ (r ++ s).getLast?, isSpace c = false := by
  intro c hc
  have : (r ++ s).getLast? = s.getLast? := by
    rw [List.getLast?_append]; cases hs : s.getLast? with
    | none => simp at hs; exact absurd hs h.1
    | some a => simp
  rw [this] at hc
  exact digit_notspace (h.2 c (List.mem_of_getLast? hc))

theorem last_mer {t : List Char} {mr : Meridian} (h : IsMeridian t mr) (r : List Char) :
    ∀ c ∈ (r ++ t).getLast?, isSpace c = false := by
  have hne : t ≠ [] := by rintro rfl; cases mr <;> simp [IsMeridian, toLower] at h
  intro c hc
  have e : (r ++ t).getLast? = t.getLast? := by
    rw [List.getLast?_append]; cases hs : t.getLast? with
    | none => simp at hs; exact absurd hs hne
    | some a => simp
  rw [e] at hc
  have hm : c ∈ t := List.mem_of_getLast? hc
  have hlow : toLowerC c ∈ ['a', 'm', 'p'] := by
    have : toLowerC c ∈ toLower t := List.mem_map_of_mem hm
    cases mr with
    | am => simp only [IsMeridian] at h; rw [h] at this; simp at this ⊢; rcases this with h | h <;> simp [h]
    | pm => simp only [IsMeridian] at h; rw [h] at this; simp at this ⊢; rcases this with h | h <;> simp [h]
  have : classOf c = .letter := by
    apply classOf_letter
    apply toLowerC_letter
    simp only [List.mem_cons, List.not_mem_nil, or_false] at hlow
    rcases hlow with h | h | h <;> rw [h] <;> decide
  cases hs : isSpace c with
  | false => rfl
  | true => rw [space_class hs] at this; cases this

theorem parseTime_eq {t : List Char} (h1 : ∀ c ∈ t.head?, isSpace c = false)
    (h2 : ∀ c ∈ t.getLast?, isSpace c = false) :
    parseTime t = loopC (toUpper t)
      [([.hour15, .lit ':', .min4, .lit ':', .sec5], .second),
       ([.hour3, .lit ':', .min4, .lit ':', .sec5, .spaces 1, .pm], .second),
       ([.hour15, .lit ':', .min4], .minute),
       ([.hour3, .lit ':', .min4, .spaces 1, .pm], .minute),
       ([.hour3, .spaces 1, .pm], .hour),
       ([.hour15, .lit ':', .min4, .lit ':', .sec5, .frac9 '.' 6], .second),
       ([.hour3, .lit ':', .min4, .lit ':', .sec5, .frac9 '.' 6, .spaces 1, .pm], .second),
       ([.hour15, .lit ':', .min4, .spaces 1, .pm], .minute)] := by
  unfold parseTime
  rw [trimSpace_ends t h1 h2, parseTimeLoop_chunks, timeFormats_chunks]

theorem toUpper_append (a b : List Char) : toUpper (a ++ b) = toUpper a ++ toUpper b := by simp [toUpper]
theorem toUpper_cons (c : Char) (b : List Char) : toUpper (c :: b) = toUpperC c :: toUpper b := by simp [toUpper]
theorem up_colon : toUpperC ':' = ':' := by decide
theorem up_space : toUpperC ' ' = ' ' := by decide
theorem up_dot : toUpperC '.' = '.' := by decide

/-- One format of the loop. -/
theorem loopC_cons (v : List Char) (f : List Chunk) (p : Period) (r : List (List Chunk × Period)) :
    loopC v ((f, p) :: r) =
      match parseChunks f v {} with
      | none => loopC v r
      | some st => match finishParse st Loc.utc with
        | some t => some (t, p)
        | none => loopC v r := by
  rw [loopC]
  unfold parseWith
  cases parseChunks f v {} with
  | none => rfl
  | some st => rfl

theorem finish_some (st : PState) (h1 : st.year = 0 ∧ st.yday = -1 ∧ st.zoneOff = -1 ∧ st.isUTC = false ∧ st.zoneName = []) (h2 : st.month = -1) (h3 : st.day = -1)
    (hh : 0 ≤ st.hour ∧ st.hour < 24) (hm : 0 ≤ st.min ∧ st.min < 60) (hs : 0 ≤ st.sec ∧ st.sec < 60)
    (hn : 0 ≤ st.nsec ∧ st.nsec < 1000000000) (p : Period) (alt : Option (Time × Period)) :
    clockOf (match finishParse st Loc.utc with
        | some t => some (t, p)
        | none => alt) =
      some { hour := if st.pmSet && st.hour < 12 then st.hour + 12 else if st.amSet && st.hour == 12 then 0 else st.hour,
             minute := st.min, second := st.sec, nano := st.nsec, period := p } := by
  have F := finish_clock st h1 h2 h3 hh hm hs hn p
  cases hf : finishParse st Loc.utc with
  | none => rw [hf] at F; simp [clockOf] at F
  | some t => rw [hf] at F; exact F

def withMer (mr : Meridian) (st : PState) : PState :=
  match mr with | .am => { st with amSet := true } | .pm => { st with pmSet := true }

theorem chunk_mer (mr : Meridian) (st : PState) :
    parseChunks [.spaces 1, .pm] (' ' :: upperMer mr) st = some (withMer mr st) := by
  have := chunk_pm mr st
  cases mr <;> exact this

theorem finish_mer (mr : Meridian) (st : PState) (h1 : st.year = 0 ∧ st.yday = -1 ∧ st.zoneOff = -1 ∧ st.isUTC = false ∧ st.zoneName = []) (h2 : st.month = -1) (h3 : st.day = -1)
    (ha : st.amSet = false) (hp : st.pmSet = false)
    (hh : 0 ≤ st.hour ∧ st.hour < 24) (hm : 0 ≤ st.min ∧ st.min < 60) (hs : 0 ≤ st.sec ∧ st.sec < 60)
    (hn : 0 ≤ st.nsec ∧ st.nsec < 1000000000) (p : Period) (alt : Option (Time × Period)) :
    clockOf (match finishParse (withMer mr st) Loc.utc with
        | some t => some (t, p)
        | none => alt) =
      some { hour := hour24 mr st.hour, minute := st.min, second := st.sec, nano := st.nsec, period := p } := by
  have F := finish_some (withMer mr st) (by cases mr <;> exact h1) (by cases mr <;> exact h2)
    (by cases mr <;> exact h3) (by cases mr <;> exact hh) (by cases mr <;> exact hm) (by cases mr <;> exact hs)
    (by cases mr <;> exact hn) p alt
  rw [F]
  cases mr <;> simp [withMer, hour24, ha, hp]

theorem C37_hm (h m : List Char) (hh : IsShort h) (hm : IsShort m) (mr : Meridian) :
    clockOf (parseTime (Notation.hm h m).text) = (Notation.hm h m).meaning mr := by
  have hh0 := number_nonneg hh.1
  have hm0 := number_nonneg hm.1
  have e : parseTime (Notation.hm h m).text = _ := parseTime_eq (head_numeral hh.1)
    (by have := last_numeral hm.1 (h ++ [':']); simpa [Notation.text] using this)
  rw [e]
  have u : toUpper (Notation.hm h m).text = h ++ ':' :: (m ++ []) := by
    simp [Notation.text, toUpper_append, toUpper_cons, toUpper_num hh.1, toUpper_num hm.1, up_colon]
  rw [u]
  simp only [loopC_cons, chunk_hour15 hh _ (nodigit_colon _), chunk_hour3 hh _ (nodigit_colon _),
    chunk_min hm _ nodigit_nil, chunk_colon_none [] (by simp), chunk_spm_none, chunk_end,
    chunk_spaces_none _ (show (':' :: (m ++ [])).head? ≠ some ' ' by simp) (by simp)]
  simp only [ite_self, Notation.meaning, loopC]
  by_cases c1 : number h < 24
  · by_cases c2 : number m < 60
    · simp only [c1, c2, if_true, and_self, List.isEmpty_nil]
      rw [finish_some]
      · simp
      all_goals first | rfl | exact ⟨rfl, rfl, rfl, rfl, rfl⟩ | (dsimp only; omega)
    · simp [c1, c2, clockOf]
  · simp [c1, clockOf]

theorem C37_hour (h mer : List Char) (hh : IsShort h) (mr : Meridian) (hmer : IsMeridian mer mr) :
    clockOf (parseTime (Notation.hour h mer).text) = (Notation.hour h mer).meaning mr := by
  have hh0 := number_nonneg hh.1
  have e : parseTime (Notation.hour h mer).text = _ := parseTime_eq (head_numeral hh.1)
    (by have := last_mer hmer (h ++ [' ']); simpa [Notation.text] using this)
  rw [e]
  have u : toUpper (Notation.hour h mer).text = h ++ ' ' :: upperMer mr := by
    simp [Notation.text, toUpper_append, toUpper_cons, toUpper_num hh.1, toUpper_mer hmer, up_space]
  rw [u]
  simp only [loopC_cons, chunk_hour15 hh _ (nodigit_space _), chunk_hour3 hh _ (nodigit_space _),
    chunk_colon_none (' ' :: upperMer mr) (by simp), chunk_mer]
  simp only [ite_self, Notation.meaning, loopC]
  by_cases c1 : number h ≤ 12
  · simp only [c1, if_true]
    rw [finish_mer]
    all_goals first | rfl | exact ⟨rfl, rfl, rfl, rfl, rfl⟩ | (dsimp only; omega)
  · simp [c1, clockOf]

theorem C37_hmMer (h m mer : List Char) (hh : IsShort h) (hm : IsShort m) (mr : Meridian)
    (hmer : IsMeridian mer mr) :
    clockOf (parseTime (Notation.hmMer h m mer).text) = (Notation.hmMer h m mer).meaning mr := by
  have hh0 := number_nonneg hh.1
  have hm0 := number_nonneg hm.1
  have e : parseTime (Notation.hmMer h m mer).text = _ := parseTime_eq (head_numeral hh.1)
    (by have := last_mer hmer (h ++ ':' :: (m ++ [' '])); simpa [Notation.text] using this)
  rw [e]
  have u : toUpper (Notation.hmMer h m mer).text = h ++ ':' :: (m ++ ' ' :: upperMer mr) := by
    simp [Notation.text, toUpper_append, toUpper_cons, toUpper_num hh.1, toUpper_num hm.1, toUpper_mer hmer,
      up_space, up_colon]
  rw [u]
  simp only [loopC_cons, chunk_hour15 hh _ (nodigit_colon _), chunk_hour3 hh _ (nodigit_colon _),
    chunk_min hm _ (nodigit_space _), chunk_colon_none (' ' :: upperMer mr) (by simp), chunk_mer, chunk_end,
    chunk_spaces_none _ (show (':' :: (m ++ ' ' :: upperMer mr)).head? ≠ some ' ' by simp) (by simp),
    List.isEmpty_cons, Bool.false_eq_true, if_false]
  simp only [ite_self, Notation.meaning, loopC]
  by_cases c2 : number m < 60
  · by_cases c1 : number h ≤ 12
    · have c1' : number h < 24 := by omega
      simp only [c1, c1', c2, if_true, and_self]
      rw [finish_mer]
      all_goals first | rfl | exact ⟨rfl, rfl, rfl, rfl, rfl⟩ | (dsimp only; omega)
    · by_cases c3 : number h < 24
      · simp only [c1, c2, c3, if_true, if_false, and_self]
        rw [finish_mer]
        all_goals first | rfl | exact ⟨rfl, rfl, rfl, rfl, rfl⟩ | (dsimp only; omega)
      · simp [c1, c3, clockOf]
  · simp [c2, clockOf]

theorem C37_hms (h m s : List Char) (hh : IsShort h) (hm : IsShort m) (hs : IsShort s) (mr : Meridian) :
    clockOf (parseTime (Notation.hms h m s).text) = (Notation.hms h m s).meaning mr := by
  have hh0 := number_nonneg hh.1
  have hm0 := number_nonneg hm.1
  have hs0 := number_nonneg hs.1
  have e : parseTime (Notation.hms h m s).text = _ := parseTime_eq (head_numeral hh.1)
    (by have := last_numeral hs.1 (h ++ ':' :: (m ++ [':'])); simpa [Notation.text] using this)
  rw [e]
  have u : toUpper (Notation.hms h m s).text = h ++ ':' :: (m ++ ':' :: (s ++ [])) := by
    simp [Notation.text, toUpper_append, toUpper_cons, toUpper_num hh.1, toUpper_num hm.1, toUpper_num hs.1, up_colon]
  rw [u]
  simp only [loopC_cons, chunk_hour15 hh _ (nodigit_colon _), chunk_hour3 hh _ (nodigit_colon _),
    chunk_min hm _ (nodigit_colon _), chunk_sec hs _ nodigit_nil (by simp) (by simp),
    chunk_frac9_none [] (by simp) (by simp), chunk_spm_none, chunk_end,
    chunk_spaces_none _ (show (':' :: (m ++ ':' :: (s ++ []))).head? ≠ some ' ' by simp) (by simp),
    chunk_spaces_none _ (show (':' :: (s ++ [])).head? ≠ some ' ' by simp) (by simp),
    List.isEmpty_cons, Bool.false_eq_true, if_false, List.isEmpty_nil]
  simp only [ite_self, Notation.meaning, loopC]
  by_cases c1 : number h < 24 <;> by_cases c2 : number m < 60 <;> by_cases c3 : number s < 60
  case pos =>
    simp only [c1, c2, c3, if_true, and_self]
    rw [finish_some]
    · simp
    all_goals first | rfl | exact ⟨rfl, rfl, rfl, rfl, rfl⟩ | (dsimp only; omega)
  all_goals simp [c1, c2, c3, clockOf]

theorem C37_hmsFrac (h m s f : List Char) (hh : IsShort h) (hm : IsShort m) (hs : IsShort s) (hf : IsNumeral f)
    (mr : Meridian) :
    clockOf (parseTime (Notation.hmsFrac h m s f).text) = (Notation.hmsFrac h m s f).meaning mr := by
  have hh0 := number_nonneg hh.1
  have hm0 := number_nonneg hm.1
  have hs0 := number_nonneg hs.1
  have hn := nanos_range hf
  have e : parseTime (Notation.hmsFrac h m s f).text = _ := parseTime_eq (head_numeral hh.1)
    (by have := last_numeral hf (h ++ ':' :: (m ++ ':' :: (s ++ ['.']))); simpa [Notation.text] using this)
  rw [e]
  have u : toUpper (Notation.hmsFrac h m s f).text = h ++ ':' :: (m ++ ':' :: (s ++ '.' :: (f ++ []))) := by
    simp [Notation.text, toUpper_append, toUpper_cons, toUpper_num hh.1, toUpper_num hm.1, toUpper_num hs.1,
      toUpper_num hf, up_colon, up_dot]
  rw [u]
  simp only [loopC_cons, chunk_hour15 hh _ (nodigit_colon _), chunk_hour3 hh _ (nodigit_colon _),
    chunk_min hm _ (nodigit_colon _), chunk_secFrac hs hf _ nodigit_nil [] rfl,
    chunk_secFrac hs hf _ nodigit_nil [.spaces 1, .pm] rfl,
    chunk_secFrac9 hs hf _ nodigit_nil,
    chunk_spm_none, chunk_end,
    chunk_spaces_none _ (show (':' :: (m ++ ':' :: (s ++ '.' :: (f ++ [])))).head? ≠ some ' ' by simp) (by simp),
    chunk_spaces_none _ (show (':' :: (s ++ '.' :: (f ++ []))).head? ≠ some ' ' by simp) (by simp),
    List.isEmpty_cons, Bool.false_eq_true, if_false, List.isEmpty_nil]
  simp only [ite_self, Notation.meaning, loopC]
  by_cases c1 : number h < 24 <;> by_cases c2 : number m < 60 <;> by_cases c3 : number s < 60
  case pos =>
    simp only [c1, c2, c3, if_true, and_self]
    rw [finish_some]
    · simp [nanos_eq]
    all_goals first | rfl | exact ⟨rfl, rfl, rfl, rfl, rfl⟩ | (dsimp only; omega)
  all_goals simp [c1, c2, c3, clockOf]

theorem C37_hmsMer (h m s mer : List Char) (hh : IsShort h) (hm : IsShort m) (hs : IsShort s) (mr : Meridian)
    (hmer : IsMeridian mer mr) :
    clockOf (parseTime (Notation.hmsMer h m s mer).text) = (Notation.hmsMer h m s mer).meaning mr := by
  have hh0 := number_nonneg hh.1
  have hm0 := number_nonneg hm.1
  have hs0 := number_nonneg hs.1
  have e : parseTime (Notation.hmsMer h m s mer).text = _ := parseTime_eq (head_numeral hh.1)
    (by have := last_mer hmer (h ++ ':' :: (m ++ ':' :: (s ++ [' ']))); simpa [Notation.text] using this)
  rw [e]
  have u : toUpper (Notation.hmsMer h m s mer).text = h ++ ':' :: (m ++ ':' :: (s ++ ' ' :: upperMer mr)) := by
    simp [Notation.text, toUpper_append, toUpper_cons, toUpper_num hh.1, toUpper_num hm.1, toUpper_num hs.1,
      toUpper_mer hmer, up_colon, up_space]
  rw [u]
  simp only [loopC_cons, chunk_hour15 hh _ (nodigit_colon _), chunk_hour3 hh _ (nodigit_colon _),
    chunk_min hm _ (nodigit_colon _), chunk_sec hs _ (nodigit_space _) (show (' ' :: upperMer mr).head? ≠ some '.' by simp) (by simp),
    chunk_frac9_none (' ' :: upperMer mr) (by simp) (by simp), chunk_mer, chunk_end,
    chunk_spaces_none _ (show (':' :: (m ++ ':' :: (s ++ ' ' :: upperMer mr))).head? ≠ some ' ' by simp) (by simp),
    chunk_spaces_none _ (show (':' :: (s ++ ' ' :: upperMer mr)).head? ≠ some ' ' by simp) (by simp),
    List.isEmpty_cons, Bool.false_eq_true, if_false, List.isEmpty_nil]
  simp only [ite_self, Notation.meaning, loopC]
  by_cases c1 : number h ≤ 12 <;> by_cases c2 : number m < 60 <;> by_cases c3 : number s < 60
  case pos =>
    simp only [c1, c2, c3, if_true, and_self]
    rw [finish_mer]
    all_goals first | rfl | exact ⟨rfl, rfl, rfl, rfl, rfl⟩ | (dsimp only; omega)
  all_goals simp [c1, c2, c3, clockOf]

theorem C37_hmsFracMer (h m s f mer : List Char) (hh : IsShort h) (hm : IsShort m) (hs : IsShort s)
    (hf : IsNumeral f) (mr : Meridian) (hmer : IsMeridian mer mr) :
    clockOf (parseTime (Notation.hmsFracMer h m s f mer).text) = (Notation.hmsFracMer h m s f mer).meaning mr := by
  have hh0 := number_nonneg hh.1
  have hm0 := number_nonneg hm.1
  have hs0 := number_nonneg hs.1
  have hn := nanos_range hf
  have e : parseTime (Notation.hmsFracMer h m s f mer).text = _ := parseTime_eq (head_numeral hh.1)
    (by have := last_mer hmer (h ++ ':' :: (m ++ ':' :: (s ++ '.' :: (f ++ [' '])))); simpa [Notation.text] using this)
  rw [e]
  have u : toUpper (Notation.hmsFracMer h m s f mer).text =
      h ++ ':' :: (m ++ ':' :: (s ++ '.' :: (f ++ ' ' :: upperMer mr))) := by
    simp [Notation.text, toUpper_append, toUpper_cons, toUpper_num hh.1, toUpper_num hm.1, toUpper_num hs.1,
      toUpper_num hf, toUpper_mer hmer, up_colon, up_space, up_dot]
  rw [u]
  simp only [loopC_cons, chunk_hour15 hh _ (nodigit_colon _), chunk_hour3 hh _ (nodigit_colon _),
    chunk_min hm _ (nodigit_colon _), chunk_secFrac hs hf _ (nodigit_space _) [] rfl,
    chunk_secFrac hs hf _ (nodigit_space _) [.spaces 1, .pm] rfl,
    chunk_secFrac9 hs hf _ (nodigit_space _), chunk_mer, chunk_end,
    chunk_spaces_none _ (show (':' :: (m ++ ':' :: (s ++ '.' :: (f ++ ' ' :: upperMer mr)))).head? ≠ some ' ' by simp) (by simp),
    chunk_spaces_none _ (show (':' :: (s ++ '.' :: (f ++ ' ' :: upperMer mr))).head? ≠ some ' ' by simp) (by simp),
    List.isEmpty_cons, Bool.false_eq_true, if_false, List.isEmpty_nil]
  simp only [ite_self, Notation.meaning, loopC]
  by_cases c1 : number h ≤ 12 <;> by_cases c2 : number m < 60 <;> by_cases c3 : number s < 60
  case pos =>
    simp only [c1, c2, c3, if_true, and_self]
    rw [finish_mer]
    · simp [nanos_eq]
    all_goals first | rfl | exact ⟨rfl, rfl, rfl, rfl, rfl⟩ | (dsimp only; omega)
  all_goals simp [c1, c2, c3, clockOf]

/-- **C37** Every written time of day is read as exactly what it means, and refused when it means
nothing (hours from 24, minutes or seconds from 60, …). -/
theorem C37_time_of_day (n : Notation) (mr : Meridian) (h : n.Written mr) :
    clockOf (parseTime n.text) = n.meaning mr := by
  cases n with
  | hour h' mer => exact C37_hour _ _ h.1 _ h.2
  | hm h' m => exact C37_hm _ _ h.1 h.2 _
  | hmMer h' m mer => exact C37_hmMer _ _ _ h.1 h.2.1 _ h.2.2
  | hms h' m s => exact C37_hms _ _ _ h.1 h.2.1 h.2.2 _
  | hmsFrac h' m s f => exact C37_hmsFrac _ _ _ _ h.1 h.2.1 h.2.2.1 h.2.2.2 _
  | hmsMer h' m s mer => exact C37_hmsMer _ _ _ _ h.1 h.2.1 h.2.2.1 _ h.2.2.2
  | hmsFracMer h' m s f mer => exact C37_hmsFracMer _ _ _ _ _ h.1 h.2.1 h.2.2.1 h.2.2.2.1 _ h.2.2.2.2

/-- The nanoseconds of a fraction: the fraction cut off after nine digits. -/
theorem C37_fraction (f : List Char) (h : IsNumeral f) :
    0 ≤ nanos f ∧ nanos f < 1000000000 ∧
      (f.length ≤ 9 → nanos f * 10 ^ f.length = number f * 1000000000) := by
  have r := nanos_range h
  rw [nanos_eq] at r
  refine ⟨r.1, r.2, ?_⟩
  intro hl
  unfold nanos
  rw [List.take_of_length_le hl, Int.mul_assoc, ← Int.pow_add, show 9 - f.length + f.length = 9 by omega]
  rfl

example : (Notation.hmsFracMer "07".toList "5".toList "59".toList "25".toList "pM".toList).Written .pm ∧
    (Notation.hmsFracMer "07".toList "5".toList "59".toList "25".toList "pM".toList).text = "07:5:59.25 pM".toList ∧
    (Notation.hmsFracMer "07".toList "5".toList "59".toList "25".toList "pM".toList).meaning .pm =
      some ⟨19, 5, 59, 250000000, .second⟩ := by
  refine ⟨?_, ?_, ?_⟩
  · simp only [Notation.Written, IsMeridian]; unfold IsShort IsNumeral; decide
  · decide
  · rfl

end Verif.Props
