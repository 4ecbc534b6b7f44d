import Verif.Lemmas.Frames
import Verif.Spec.Clock
/-! Helper lemmas: `ParseTime` on written times. -/
set_option autoImplicit false
namespace Verif.Lemmas
open Verif.Go Verif.Model Verif.Spec

/-- The text does not start with a digit. -/
def NoDigit (s : List Char) : Prop := ∀ c ∈ s.head?, c.isDigit = false

theorem getnum_short {s : List Char} (h : IsShort s) (r : List Char) (hr : NoDigit r) :
    getnum false (s ++ r) = some (number s, r) := by
  obtain ⟨⟨hne, hd⟩, hl⟩ := h
  cases s with
  | nil => exact absurd rfl hne
  | cons a t =>
    have ha := hd a (by simp)
    cases t with
    | nil =>
      cases r with
      | nil => simp [getnum, ha, number, digitVal]
      | cons x xs =>
        have : x.isDigit = false := hr x (by simp)
        simp [getnum, ha, this, number, digitVal]
    | cons b t =>
      have hb := hd b (by simp)
      cases t with
      | nil => simp [getnum, ha, hb, number, digitVal]
      | cons c t => simp at hl

theorem number_nonneg {s : List Char} (h : IsNumeral s) : 0 ≤ number s := by
  rw [number_eq]; exact (natOfDigits_range h.2).1

theorem nodigit_colon (r : List Char) : NoDigit (':' :: r) := by
  intro c hc; simp at hc; subst hc; decide
theorem nodigit_space (r : List Char) : NoDigit (' ' :: r) := by
  intro c hc; simp at hc; subst hc; decide
theorem nodigit_dot (r : List Char) : NoDigit ('.' :: r) := by
  intro c hc; simp at hc; subst hc; decide
theorem nodigit_nil : NoDigit [] := by intro c hc; simp at hc

/-- Hour of the 24 hour clock. -/
theorem chunk_hour15 {h : List Char} (hh : IsShort h) (r : List Char) (hr : NoDigit r) (cs : List Chunk)
    (st : PState) :
    parseChunks (.hour15 :: cs) (h ++ r) st =
      if number h < 24 then parseChunks cs r { st with hour := number h } else none := by
  have := number_nonneg hh.1
  rw [parseChunks, parseChunk, getnum_short hh r hr]
  simp only [Option.bind_some]
  by_cases hc : number h < 24
  · rw [if_neg (by omega), if_pos hc]
  · rw [if_pos (by omega), if_neg hc]

/-- Hour of the 12 hour clock. -/
theorem chunk_hour3 {h : List Char} (hh : IsShort h) (r : List Char) (hr : NoDigit r) (cs : List Chunk)
    (st : PState) :
    parseChunks (.hour3 :: cs) (h ++ r) st =
      if number h ≤ 12 then parseChunks cs r { st with hour := number h } else none := by
  have := number_nonneg hh.1
  rw [parseChunks, parseChunk, getnum_short hh r hr]
  simp only [Option.bind_some]
  by_cases hc : number h ≤ 12
  · rw [if_neg (by omega), if_pos hc]
  · rw [if_pos (by omega), if_neg hc]

theorem chunk_min {h : List Char} (hh : IsShort h) (r : List Char) (hr : NoDigit r) (cs : List Chunk)
    (st : PState) :
    parseChunks (.lit ':' :: .min4 :: cs) (':' :: (h ++ r)) st =
      if number h < 60 then parseChunks cs r { st with min := number h } else none := by
  have := number_nonneg hh.1
  rw [parseChunks, parseChunk]
  simp only [beq_self_eq_true, if_true]
  rw [parseChunks, parseChunk, getnum_short hh r hr]
  simp only [Option.bind_some]
  by_cases hc : number h < 60
  · rw [if_neg (by omega), if_pos hc]
  · rw [if_pos (by omega), if_neg hc]

theorem chunk_colon_none (r : List Char) (hr : r.head? ≠ some ':') (cs : List Chunk) (st : PState) :
    parseChunks (.lit ':' :: cs) r st = none := by
  rw [parseChunks]
  cases r with
  | nil => simp [parseChunk]
  | cons x xs =>
    have : x ≠ ':' := by simpa using hr
    simp [parseChunk, this]

theorem fracPrefix_digits {f : List Char} (hf : IsNumeral f) (r : List Char) (hr : NoDigit r) :
    fracPrefix ('.' :: (f ++ r)) = some (f, r) := by
  obtain ⟨hne, hd⟩ := hf
  cases f with
  | nil => exact absurd rfl hne
  | cons a t =>
    have ha := hd a (by simp)
    have htw : (t ++ r).takeWhile Char.isDigit = t := by
      rw [List.takeWhile_append_of_pos (fun x hx => hd x (by simp [hx]))]
      cases r with
      | nil => simp
      | cons x xs =>
        have : x.isDigit = false := hr x (by simp)
        simp [this]
    have hdw : (t ++ r).dropWhile Char.isDigit = r := by
      rw [List.dropWhile_append_of_pos (fun x hx => hd x (by simp [hx]))]
      cases r with
      | nil => simp
      | cons x xs =>
        have : x.isDigit = false := hr x (by simp)
        simp [this]
    simp [fracPrefix, ha, htw, hdw]

theorem fracPrefix_none {r : List Char} (hr : r.head? ≠ some '.') (hr2 : r.head? ≠ some ',') : fracPrefix r = none := by
  cases r with
  | nil => rfl
  | cons p r =>
    have h1 : p ≠ '.' := by simpa using hr
    have h2 : p ≠ ',' := by simpa using hr2
    cases r with
    | nil => rfl
    | cons d r => simp [fracPrefix, h1, h2]

/-- Seconds without fraction. -/
theorem chunk_sec {h : List Char} (hh : IsShort h) (r : List Char) (hr : NoDigit r)
    (hr1 : r.head? ≠ some '.') (hr2 : r.head? ≠ some ',') (cs : List Chunk) (st : PState) :
    parseChunks (.lit ':' :: .sec5 :: cs) (':' :: (h ++ r)) st =
      if number h < 60 then parseChunks cs r { st with sec := number h } else none := by
  have := number_nonneg hh.1
  rw [parseChunks, parseChunk]
  simp only [beq_self_eq_true, if_true]
  rw [parseChunks, parseChunk, getnum_short hh r hr]
  simp only [Option.bind_some, parseChunk.secTail, fracPrefix_none hr1 hr2]
  by_cases hc : number h < 60
  · rw [if_neg (by omega), if_pos hc]
  · rw [if_pos (by omega), if_neg hc]

/-- Seconds with a fraction, for layouts that do not mention it. -/
theorem chunk_secFrac {h f : List Char} (hh : IsShort h) (hf : IsNumeral f) (r : List Char) (hr : NoDigit r)
    (cs : List Chunk) (hcs : nextIsFrac (nextStd cs) = false) (st : PState) :
    parseChunks (.lit ':' :: .sec5 :: cs) (':' :: (h ++ '.' :: (f ++ r))) st =
      if number h < 60 then parseChunks cs r { st with sec := number h, nsec := nanosOfDigits f } else none := by
  have := number_nonneg hh.1
  rw [parseChunks, parseChunk]
  simp only [beq_self_eq_true, if_true]
  rw [parseChunks, parseChunk, getnum_short hh _ (nodigit_dot _)]
  simp only [Option.bind_some, parseChunk.secTail, fracPrefix_digits hf r hr, hcs]
  by_cases hc : number h < 60
  · rw [if_neg (by omega), if_pos hc]; simp
  · rw [if_pos (by omega), if_neg hc]

/-- … and for layouts that do. -/
theorem chunk_secFrac9 {h f : List Char} {sp : Char} {k : Nat} (hh : IsShort h) (hf : IsNumeral f) (r : List Char) (hr : NoDigit r)
    (cs : List Chunk) (st : PState) :
    parseChunks (.lit ':' :: .sec5 :: .frac9 sp k :: cs) (':' :: (h ++ '.' :: (f ++ r))) st =
      if number h < 60 then parseChunks cs r { st with sec := number h, nsec := nanosOfDigits f } else none := by
  have := number_nonneg hh.1
  rw [parseChunks, parseChunk]
  simp only [beq_self_eq_true, if_true]
  rw [parseChunks, parseChunk, getnum_short hh _ (nodigit_dot _)]
  simp only [Option.bind_some, parseChunk.secTail, fracPrefix_digits hf r hr, nextStd, nextIsFrac, if_true]
  by_cases hc : number h < 60
  · rw [if_neg (by omega), if_pos hc]; simp only [parseChunks, parseChunk, fracPrefix_digits hf r hr]
  · rw [if_pos (by omega), if_neg hc]

theorem chunk_frac9_none {sp : Char} {k : Nat} (r : List Char) (hr1 : r.head? ≠ some '.') (hr2 : r.head? ≠ some ',') (cs : List Chunk)
    (st : PState) : parseChunks (.frac9 sp k :: cs) r st = parseChunks cs r st := by
  rw [parseChunks, parseChunk, fracPrefix_none hr1 hr2]

theorem chunk_end (r : List Char) (st : PState) : parseChunks [] r st = if r.isEmpty then some st else none := rfl

theorem chunk_pm (mr : Meridian) (st : PState) :
    parseChunks [.spaces 1, .pm] (' ' :: (match mr with | .am => ['A', 'M'] | .pm => ['P', 'M'])) st =
      some (match mr with | .am => { st with amSet := true } | .pm => { st with pmSet := true }) := by
  cases mr <;> simp [parseChunks, parseChunk]

theorem chunk_spaces_none (r : List Char) (hr : r.head? ≠ some ' ') (hne : r ≠ []) (cs : List Chunk) (st : PState) :
    parseChunks (.spaces 1 :: cs) r st = none := by
  rw [parseChunks]
  cases r with
  | nil => exact absurd rfl hne
  | cons x xs =>
    have : x ≠ ' ' := by simpa using hr
    simp [parseChunk, this]

theorem chunk_spm_none (st : PState) : parseChunks [.spaces 1, .pm] [] st = none := by
  simp [parseChunks, parseChunk]

end Verif.Lemmas
