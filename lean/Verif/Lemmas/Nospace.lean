import Verif.Model.Nospace
import Verif.Lemmas.PartValue
import Verif.Lemmas.Text
import Verif.Spec.Nospace
/-! Helper lemmas about the no-space parser. -/
set_option autoImplicit false
namespace Verif.Lemmas
open Verif.Go Verif.Model Verif.Spec

/-! ### The enumeration of part lengths -/

/-- n, n-1, …, 1 -/
def downTo : Nat → List Nat
  | 0 => []
  | n + 1 => (n + 1) :: downTo n

/-- All length vectors, longest first. -/
def box : List Char → List (List Nat)
  | [] => [[]]
  | p :: ps => (downTo (partSize p)).flatMap fun k => (box ps).map (k :: ·)

/-- The layout elements of a format. -/
def partChunk (c : Char) : Chunk :=
  if c = 'Y' then .year4 else if c = 'y' then .year2 else if c = 'm' then .month1
  else if c = 'd' then .day2 else if c = 'H' then .hour15 else if c = 'M' then .min4 else .sec5

def partChunks : List Char → List Chunk
  | [] => []
  | [p] => [partChunk p]
  | p :: q :: r => partChunk p :: .lit '-' :: partChunks (q :: r)

/-- What is used of a format (checked for every format of the library). -/
structure FormatOK (f : List Char) : Prop where
  parts : formatParts f = f
  limits : limitPermutations f = box f
  chunks : layoutChunks (nsLayout f) = partChunks f
  nodup : f.Nodup
  letters : ∀ c ∈ f, c ∈ ['Y', 'y', 'm', 'd', 'H', 'M', 'S']
  year : ¬ ('Y' ∈ f ∧ 'y' ∈ f)
  dated : 'm' ∈ f → ('Y' ∈ f ∨ 'y' ∈ f) ∧ 'd' ∈ f
  period : getPeriodFromFormat f = .day
  missing : nsMissing f = if 'd' ∈ f ∧ 'm' ∈ f then ["year".toList] else nsMissing f

instance (f : List Char) : Decidable (FormatOK f) :=
  decidable_of_iff (formatParts f = f ∧ limitPermutations f = box f ∧ layoutChunks (nsLayout f) = partChunks f ∧
    f.Nodup ∧ (∀ c ∈ f, c ∈ ['Y', 'y', 'm', 'd', 'H', 'M', 'S']) ∧ ¬ ('Y' ∈ f ∧ 'y' ∈ f) ∧ ('m' ∈ f → ('Y' ∈ f ∨ 'y' ∈ f) ∧ 'd' ∈ f) ∧
    getPeriodFromFormat f = .day ∧ nsMissing f = if 'd' ∈ f ∧ 'm' ∈ f then ["year".toList] else nsMissing f)
    ⟨fun ⟨a, b, c, d, e, g, h, i, j⟩ => ⟨a, b, c, d, e, g, h, i, j⟩,
     fun ⟨a, b, c, d, e, g, h, i, j⟩ => ⟨a, b, c, d, e, g, h, i, j⟩⟩

theorem allFormats_ok : ∀ f ∈ nsAllFormats, FormatOK f := by decide +kernel

theorem formats_mem {order : List Char} {fs : List (List Char)} (h : dateTimeFormats order = some fs) :
    ∀ f ∈ fs, f ∈ nsAllFormats := by
  unfold dateTimeFormats at h
  have hs : ∀ f ∈ createSortedFormats order, f ∈ nsAllFormats := by
    intro f hf
    unfold createSortedFormats at hf
    rcases List.mem_append.mp hf with hf | hf <;> exact (List.mem_filter.mp hf).1
  split at h
  · cases h
    intro f hf
    rcases List.mem_append.mp hf with hf | hf
    · have : ∀ f ∈ nsPreferred, f ∈ nsAllFormats := by decide +kernel
      exact this f hf
    · exact hs f hf
  · split at h
    · cases h; exact hs
    · cases h

theorem formats_ok {order : List Char} {fs : List (List Char)} (h : dateTimeFormats order = some fs) :
    ∀ f ∈ fs, FormatOK f := fun f hf => allFormats_ok f (formats_mem h f hf)

theorem mem_downTo {n k : Nat} : k ∈ downTo n ↔ 1 ≤ k ∧ k ≤ n := by
  induction n with
  | zero => simp [downTo]; omega
  | succ n ih => simp only [downTo, List.mem_cons, ih]; omega

/-- Parts fit a format as far as number and lengths go. -/
def Fits : List Char → List (List Char) → Prop
  | [], [] => True
  | p :: ps, t :: ts => (1 ≤ t.length ∧ t.length ≤ partSize p) ∧ Fits ps ts
  | _, _ => False

theorem mem_box : ∀ (ps : List Char) (ts : List (List Char)), ts.map List.length ∈ box ps ↔ Fits ps ts := by
  intro ps
  induction ps with
  | nil =>
    intro ts
    cases ts <;> simp [box, Fits]
  | cons p ps ih =>
    intro ts
    cases ts with
    | nil => simp [box, Fits]
    | cons t ts =>
      simp only [box, List.mem_flatMap, List.mem_map, List.map_cons, List.cons.injEq, Fits, mem_downTo]
      constructor
      · rintro ⟨k, hk, v, hv, rfl, rfl⟩
        exact ⟨hk, (ih ts).mp hv⟩
      · rintro ⟨h1, h2⟩
        exact ⟨_, h1, _, (ih ts).mpr h2, rfl, rfl⟩

/-- Lexicographic order on length vectors. -/
inductive LensGt : List Nat → List Nat → Prop
  | here (a b : Nat) (as bs : List Nat) : b < a → LensGt (a :: as) (b :: bs)
  | later (a : Nat) (as bs : List Nat) : LensGt as bs → LensGt (a :: as) (a :: bs)

theorem downTo_pairwise (n : Nat) : (downTo n).Pairwise (fun a b => b < a) := by
  induction n with
  | zero => simp [downTo]
  | succ n ih =>
    rw [downTo, List.pairwise_cons]
    exact ⟨fun k hk => by have := mem_downTo.mp hk; omega, ih⟩

theorem box_pairwise (ps : List Char) : (box ps).Pairwise LensGt := by
  induction ps with
  | nil => simp [box]
  | cons p ps ih =>
    rw [box, List.pairwise_flatMap]
    refine ⟨?_, ?_⟩
    · intro k _
      rw [List.pairwise_map]
      exact ih.imp (fun h => .later _ _ _ h)
    · refine (downTo_pairwise _).imp ?_
      intro a b hab x hx y hy
      obtain ⟨u, _, rfl⟩ := List.mem_map.mp hx
      obtain ⟨v, _, rfl⟩ := List.mem_map.mp hy
      exact .here _ _ _ _ hab

theorem lensGt_greedier : ∀ (as bs : List (List Char)), LensGt (as.map List.length) (bs.map List.length) → Greedier as bs := by
  intro as
  induction as with
  | nil => intro bs h; cases h
  | cons a as ih =>
    intro bs h
    cases bs with
    | nil => cases h
    | cons b bs =>
      simp only [List.map_cons] at h
      generalize hA : a.length = x at h
      generalize hB : b.length = y at h
      cases h with
      | here _ _ _ _ h => exact .here _ _ _ _ (by omega)
      | later _ _ _ h => exact .later _ _ _ _ (by omega) (ih bs h)

/-! ### Cutting -/

theorem cutAt_lengths : ∀ (ls : List Nat) (s : List Char), ls.sum = s.length →
    (cutAt ls s).flatten = s ∧ (cutAt ls s).map List.length = ls := by
  intro ls
  induction ls with
  | nil => intro s h; simp at h; simp [cutAt, List.eq_nil_of_length_eq_zero h.symm]
  | cons n ns ih =>
    intro s h
    simp only [List.sum_cons] at h
    have hl : (s.drop n).length = ns.sum := by simp; omega
    obtain ⟨h1, h2⟩ := ih (s.drop n) hl.symm
    simp only [cutAt, List.flatten_cons, h1, List.map_cons, h2, List.take_append_drop, true_and,
      List.length_take, List.cons.injEq, and_true]
    omega

theorem cutAt_parts : ∀ (ts : List (List Char)), cutAt (ts.map List.length) ts.flatten = ts := by
  intro ts
  induction ts with
  | nil => rfl
  | cons t ts ih => simp [cutAt, ih]

/-! ### Values -/

/-- Every part is a valid number for its letter. -/
def FieldsOK : List Char → List (List Char) → Prop
  | [], [] => True
  | p :: ps, t :: ts =>
    (IsNumeral t ∧ t.length ≤ partSize p ∧ valueIsValid p (natOfDigits t) = true) ∧ FieldsOK ps ts
  | _, _ => False

/-- Letters with their values. -/
def vals (ps : List Char) (ts : List (List Char)) : List (Char × Int) := ps.zip (ts.map natOfDigits)

theorem partValues_eq : ∀ (ps : List Char) (ts : List (List Char)), Fits ps ts →
    (∀ vs, partValues ps ts = some vs → FieldsOK ps ts ∧ vs = vals ps ts) ∧
    (FieldsOK ps ts → partValues ps ts = some (vals ps ts)) := by
  intro ps
  induction ps with
  | nil =>
    intro ts h
    cases ts with
    | nil => simp [partValues, FieldsOK, vals]
    | cons t ts => exact absurd h (by simp [Fits])
  | cons p ps ih =>
    intro ts h
    cases ts with
    | nil => exact absurd h (by simp [Fits])
    | cons t ts =>
      obtain ⟨ih1, ih2⟩ := ih ts h.2
      have hne : t ≠ [] := by intro hh; have := h.1.1; simp [hh] at this
      constructor
      · intro vs hv
        unfold partValues at hv
        split at hv
        · cases hv
        · rename_i hd
          split at hv
          · cases hv
          · rename_i hvv
            simp only [Option.map_eq_some_iff] at hv
            obtain ⟨w, hw, rfl⟩ := hv
            obtain ⟨hf, rfl⟩ := ih1 w hw
            refine ⟨⟨⟨⟨hne, ?_⟩, h.1.2, by simpa using hvv⟩, hf⟩, rfl⟩
            intro c hc
            simp only [Bool.or_eq_true, Bool.not_eq_true', not_or, Bool.not_eq_false] at hd
            exact List.all_eq_true.mp hd.2 c hc
      · rintro ⟨⟨h1, h2, h3⟩, h4⟩
        unfold partValues
        have ha : t.all Char.isDigit = true := List.all_eq_true.mpr h1.2
        have he : t.isEmpty = false := by simp [hne]
        simp [ha, he, h3, ih2 h4, vals]

theorem fieldsOK_fits : ∀ (ps : List Char) (ts : List (List Char)), FieldsOK ps ts → Fits ps ts := by
  intro ps
  induction ps with
  | nil => intro ts h; cases ts <;> simp_all [FieldsOK, Fits]
  | cons p ps ih =>
    intro ts h
    cases ts with
    | nil => exact absurd h (by simp [FieldsOK])
    | cons t ts =>
      refine ⟨⟨?_, h.1.2.1⟩, ih ts h.2⟩
      have := h.1.1.1
      cases t with
      | nil => exact absurd rfl this
      | cons _ _ => simp

theorem mem_candidateParts {f : List Char} (hf : FormatOK f) (ny : Int) (ds : List Char) (parts : List (List Char)) :
    parts ∈ candidateParts ny f ds ↔
      parts.flatten = ds ∧ FieldsOK f parts ∧ candidateIsValid ny (vals f parts) = true := by
  unfold candidateParts
  simp only [hf.parts, hf.limits, List.mem_filterMap]
  constructor
  · rintro ⟨ls, hl, h⟩
    split at h
    · cases h
    · rename_i hs
      have hs : ls.sum = ds.length := by simpa using hs
      obtain ⟨c1, c2⟩ := cutAt_lengths ls ds hs
      have hfit : Fits f (cutAt ls ds) := by rw [← mem_box, c2]; exact hl
      split at h
      · cases h
      · rename_i vs hvs
        split at h
        · cases h
          obtain ⟨h1, rfl⟩ := (partValues_eq f _ hfit).1 vs hvs
          rename_i hc
          exact ⟨c1, h1, hc⟩
        · cases h
  · rintro ⟨rfl, h1, h2⟩
    have hfit := fieldsOK_fits f parts h1
    refine ⟨parts.map List.length, (mem_box f parts).mpr hfit, ?_⟩
    rw [if_neg (by simp [List.length_flatten]), cutAt_parts]
    simp only [(partValues_eq f parts hfit).2 h1, h2, if_true]

/-- Candidates come with longer parts first. -/
theorem candidateParts_pairwise {f : List Char} (hf : FormatOK f) (ny : Int) (ds : List Char) :
    (candidateParts ny f ds).Pairwise Greedier := by
  unfold candidateParts
  simp only [hf.parts, hf.limits]
  rw [List.pairwise_filterMap]
  refine (box_pairwise f).imp ?_
  intro a b hab x hx y hy
  have key : ∀ (ls : List Nat) (z : List (List Char)),
      (if ls.sum ≠ ds.length then none else match partValues f (cutAt ls ds) with
        | none => none
        | some values => if candidateIsValid ny values then some (cutAt ls ds) else none) = some z →
      z.map List.length = ls := by
    intro ls z h
    split at h
    · cases h
    · rename_i hs
      have c2 := (cutAt_lengths ls ds (by simpa using hs)).2
      split at h
      · cases h
      · split at h
        · cases h; exact c2
        · cases h
  apply lensGt_greedier
  rw [key a x hx, key b y hy]
  exact hab

/-! ### Reading a candidate with `time.Parse` -/

/-- Effect of one part on the parser's state. -/
def pput (s : PState) (p : Char) (v : Int) : PState :=
  if p = 'Y' then { s with year := v }
  else if p = 'y' then { s with year := if v ≥ 69 then v + 1900 else v + 2000 }
  else if p = 'm' then { s with month := v }
  else if p = 'd' then { s with day := v }
  else if p = 'H' then { s with hour := v }
  else if p = 'M' then { s with min := v }
  else { s with sec := v }

/-- Two digit years have two digits. -/
def YearsLong : List Char → List (List Char) → Prop
  | p :: ps, t :: ts => (p = 'y' → t.length = 2) ∧ YearsLong ps ts
  | _, _ => True

theorem getnum_part (t rest : List Char) (h : IsNumeral t) (hl : t.length ≤ 2)
    (hr : rest = [] ∨ ∃ r, rest = '-' :: r) : getnum false (t ++ rest) = some (natOfDigits t, rest) := by
  obtain ⟨hne, hd⟩ := h
  match t, hne, hl with
  | [a], _, _ =>
    have ha := hd a (by simp)
    rcases hr with rfl | ⟨r, rfl⟩
    · simp [getnum, ha, natOfDigits]
    · have : ('-' : Char).isDigit = false := by decide
      simp [getnum, ha, natOfDigits, this]
  | [a, b], _, _ =>
    have ha := hd a (by simp)
    have hb := hd b (by simp)
    simp [getnum, ha, hb, natOfDigits]

theorem fracPrefix_dash (rest : List Char) (hr : rest = [] ∨ ∃ r, rest = '-' :: r) : fracPrefix rest = none := by
  rcases hr with rfl | ⟨r, rfl⟩
  · rfl
  · cases r <;> simp [fracPrefix]

theorem parseChunk_part (p : Char) (hp : p ∈ ['Y', 'y', 'm', 'd', 'H', 'M', 'S']) (t rest : List Char) (cs : List Chunk)
    (s : PState) (h : IsNumeral t ∧ t.length ≤ partSize p ∧ valueIsValid p (natOfDigits t) = true)
    (hr : rest = [] ∨ ∃ r, rest = '-' :: r) :
    parseChunk (partChunk p) cs (t ++ rest) s =
      if p = 'y' ∧ t.length ≠ 2 then none else some (rest, pput s p (natOfDigits t)) := by
  obtain ⟨hn, hl, hv⟩ := h
  have hd : Digits t := hn.2
  have hrange := natOfDigits_range hd
  have hlen : 1 ≤ t.length := by
    have := hn.1; cases t with
    | nil => exact absurd rfl this
    | cons _ _ => simp
  simp only [List.mem_cons, List.not_mem_nil, or_false] at hp
  rcases hp with rfl | rfl | rfl | rfl | rfl | rfl | rfl
  · -- Y
    have hv' : natOfDigits t ≥ 1000 := by simpa [valueIsValid] using hv
    have hl4 : t.length ≤ 4 := hl
    have h4 : t.length = 4 := by
      have : ¬ t.length ≤ 3 := by
        intro h3
        have : (10 : Int) ^ t.length ≤ 10 ^ 3 := by
          have e : t.length = 1 ∨ t.length = 2 ∨ t.length = 3 := by omega
          rcases e with e | e | e <;> rw [e] <;> decide
        omega
      omega
    have hat : atoi t = some (natOfDigits t) := atoi_digits hd hn.1
    have e1 : (t ++ rest).take 4 = t := List.take_left' h4
    have e2 : (t ++ rest).drop 4 = rest := List.drop_left' h4
    have hh : ((t ++ rest).headD 'x').isDigit = true := by
      cases t with
      | nil => simp at h4
      | cons c r => simpa using hd c (by simp)
    simp only [partChunk, if_true, parseChunk, e1, e2, hat, hh, Option.map_some]
    rw [if_neg (by simp; omega)]
    simp [pput]
  · -- y
    have hl2 : t.length ≤ 2 := hl
    simp only [partChunk, if_true, parseChunk, true_and, show ¬ ('y' = 'Y') by decide, if_false]
    by_cases h2 : t.length = 2
    · have hat : atoi t = some (natOfDigits t) := atoi_digits hd hn.1
      have e1 : (t ++ rest).take 2 = t := List.take_left' h2
      have e2 : (t ++ rest).drop 2 = rest := List.drop_left' h2
      simp only [e1, e2, hat, h2, not_true, if_false, Option.map_some, ne_eq]
      rw [if_neg (by simp; omega)]
      simp [pput]
    · have h1 : t.length = 1 := by omega
      obtain ⟨a, rfl⟩ := List.length_eq_one_iff.mp h1
      simp only [h2, not_false_eq_true, if_true, ne_eq]
      rcases hr with rfl | ⟨r, rfl⟩
      · simp
      · have ha := hd a (by simp)
        have : atoi [a, '-'] = none := by
          unfold atoi
          split
          · rename_i heq; simp at heq; rw [heq.1] at ha; simp [Char.isDigit] at ha
          · rename_i heq; simp at heq; rw [heq.1] at ha; simp [Char.isDigit] at ha
          · have : ('-' : Char).isDigit = false := by decide
            simp [this]
        simp [this]
  · -- m
    have hg := getnum_part t rest hn hl hr
    have hv' : natOfDigits t > 0 ∧ natOfDigits t ≤ 12 := by simpa [valueIsValid] using hv
    simp only [partChunk, parseChunk, hg, show ¬ ('m' = 'Y') by decide, show ¬ ('m' = 'y') by decide, if_false, if_true,
      Option.bind_some, false_and, pput]
    rw [if_neg (by omega)]
  · have hg := getnum_part t rest hn hl hr
    simp [partChunk, parseChunk, hg, pput]
  · have hg := getnum_part t rest hn hl hr
    have hv' : natOfDigits t ≥ 0 ∧ natOfDigits t < 24 := by simpa [valueIsValid] using hv
    simp only [partChunk, parseChunk, hg, show ¬ ('H' = 'Y') by decide, show ¬ ('H' = 'y') by decide,
      show ¬ ('H' = 'm') by decide, show ¬ ('H' = 'd') by decide, if_false, if_true, Option.bind_some, false_and, pput]
    rw [if_neg (by omega)]
  · have hg := getnum_part t rest hn hl hr
    have hv' : natOfDigits t ≥ 0 ∧ natOfDigits t < 60 := by simpa [valueIsValid] using hv
    simp only [partChunk, parseChunk, hg, show ¬ ('M' = 'Y') by decide, show ¬ ('M' = 'y') by decide,
      show ¬ ('M' = 'm') by decide, show ¬ ('M' = 'd') by decide, show ¬ ('M' = 'H') by decide,
      if_false, if_true, Option.bind_some, false_and, pput]
    rw [if_neg (by omega)]
  · have hg := getnum_part t rest hn hl hr
    have hv' : natOfDigits t ≥ 0 ∧ natOfDigits t < 60 := by simpa [valueIsValid] using hv
    have hfr := fracPrefix_dash rest hr
    simp only [partChunk, parseChunk, parseChunk.secTail, hg, show ¬ ('S' = 'Y') by decide, show ¬ ('S' = 'y') by decide,
      show ¬ ('S' = 'm') by decide, show ¬ ('S' = 'd') by decide, show ¬ ('S' = 'H') by decide,
      show ¬ ('S' = 'M') by decide, if_false, Option.bind_some, false_and, pput, hfr]
    rw [if_neg (by omega)]

/-- The state after all parts. -/
def pfold : PState → List Char → List (List Char) → PState
  | s, p :: ps, t :: ts => pfold (pput s p (natOfDigits t)) ps ts
  | s, _, _ => s

theorem parseChunks_parts : ∀ (f : List Char) (ts : List (List Char)) (s : PState), FieldsOK f ts →
    (∀ c ∈ f, c ∈ ['Y', 'y', 'm', 'd', 'H', 'M', 'S']) →
    (YearsLong f ts → parseChunks (partChunks f) (joinWith ['-'] ts) s = some (pfold s f ts)) ∧
    (¬ YearsLong f ts → parseChunks (partChunks f) (joinWith ['-'] ts) s = none) := by
  intro f
  induction f with
  | nil =>
    intro ts s h _
    cases ts with
    | nil => simp [partChunks, parseChunks, joinWith, pfold, YearsLong]
    | cons t ts => exact absurd h (by simp [FieldsOK])
  | cons p ps ih =>
    intro ts s h hlet
    cases ts with
    | nil => exact absurd h (by simp [FieldsOK])
    | cons t ts =>
      obtain ⟨h1, h2⟩ := h
      have hp := hlet p (by simp)
      cases ps with
      | nil =>
        cases ts with
        | cons _ _ => exact absurd h2 (by simp [FieldsOK])
        | nil =>
          have := parseChunk_part p hp t [] [] s h1 (Or.inl rfl)
          simp only [List.append_nil] at this
          simp only [partChunks, joinWith, parseChunks, this, pfold, YearsLong, and_true]
          by_cases hy : p = 'y' ∧ t.length ≠ 2
          · rw [if_pos hy]
            exact ⟨fun hh => absurd (hh hy.1) hy.2, fun _ => rfl⟩
          · rw [if_neg hy]
            refine ⟨fun _ => rfl, fun hh => absurd ?_ hh⟩
            intro hpy
            by_cases h2 : t.length = 2
            · exact h2
            · exact absurd ⟨hpy, h2⟩ hy
      | cons q ps =>
        cases ts with
        | nil => exact absurd h2 (by simp [FieldsOK])
        | cons u ts =>
          have ej : joinWith ['-'] (t :: u :: ts) = t ++ '-' :: joinWith ['-'] (u :: ts) := by simp [joinWith]
          have P := parseChunk_part p hp t ('-' :: joinWith ['-'] (u :: ts)) (.lit '-' :: partChunks (q :: ps)) s h1
            (Or.inr ⟨_, rfl⟩)
          rw [ej]
          simp only [partChunks, parseChunks, P, YearsLong]
          have IH := ih (u :: ts) (pput s p (natOfDigits t)) h2 (fun c hc => hlet c (by simp [hc]))
          simp only [YearsLong] at IH
          by_cases hy : p = 'y' ∧ t.length ≠ 2
          · rw [if_pos hy]
            exact ⟨fun hh => absurd (hh.1 hy.1) hy.2, fun _ => rfl⟩
          · rw [if_neg hy]
            simp only [parseChunk, beq_self_eq_true, if_true]
            have hy' : p = 'y' → t.length = 2 := by
              intro hpy
              by_cases h2 : t.length = 2
              · exact h2
              · exact absurd ⟨hpy, h2⟩ hy
            refine ⟨fun hh => IH.1 hh.2, fun hh => IH.2 (fun h3 => hh ⟨hy', h3⟩)⟩

/-! ### The specification's reading -/

/-- Reading by a fold. -/
def sfold : Stamp → List Char → List (List Char) → Stamp
  | s, p :: ps, t :: ts => sfold (s.put p (natOfDigits t)) ps ts
  | s, _, _ => s

/-- The parser's state and the stamp agree. -/
structure Sim (s : PState) (st : Stamp) : Prop where
  year : s.year = st.year
  month : s.month = st.month ∨ st.month = 0
  day : s.day = st.day ∨ st.day = 0
  hour : s.hour = st.hour
  min : s.min = st.minute
  sec : s.sec = st.second
  nsec : s.nsec = 0
  pm : s.pmSet = false
  am : s.amSet = false
  yday : s.yday = -1
  zone : s.zoneOff = -1
  utc : s.isUTC = false ∧ s.zoneName = []

theorem sim_put {s : PState} {st : Stamp} (h : Sim s st) (p : Char) (hp : p ∈ ['Y', 'y', 'm', 'd', 'H', 'M', 'S']) (v : Int) :
    Sim (pput s p v) (st.put p v) := by
  obtain ⟨h1, h2, h3, h4, h5, h6, h7, h8, h9, h10, h11, h12⟩ := h
  simp only [List.mem_cons, List.not_mem_nil, or_false] at hp
  rcases hp with rfl | rfl | rfl | rfl | rfl | rfl | rfl <;>
    constructor <;> simp_all [pput, Stamp.put]

theorem sim_fold : ∀ (f : List Char) (ts : List (List Char)) (s : PState) (st : Stamp), Sim s st →
    (∀ c ∈ f, c ∈ ['Y', 'y', 'm', 'd', 'H', 'M', 'S']) → Sim (pfold s f ts) (sfold st f ts) := by
  intro f
  induction f with
  | nil => intro ts s st h _; simpa [pfold, sfold] using h
  | cons p ps ih =>
    intro ts s st h hl
    cases ts with
    | nil => simpa [pfold, sfold] using h
    | cons t ts => exact ih ts _ _ (sim_put h p (hl p (by simp)) _) (fun c hc => hl c (by simp [hc]))

theorem lookup_vals_none : ∀ (f : List Char) (ts : List (List Char)) (x : Char), x ∉ f → (vals f ts).lookup x = none := by
  intro f
  induction f with
  | nil => intro ts x _; simp [vals]
  | cons p ps ih =>
    intro ts x hx
    simp only [List.mem_cons, not_or] at hx
    cases ts with
    | nil => simp [vals]
    | cons t ts =>
      have := ih ts x hx.2
      simp only [vals] at this
      simp [vals, List.lookup_cons, beq_eq_false_iff_ne.mpr hx.1, this]

theorem sfold_month : ∀ (f : List Char) (ts : List (List Char)) (st : Stamp), f.Nodup →
    (sfold st f ts).month = ((vals f ts).lookup 'm').getD st.month := by
  intro f
  induction f with
  | nil => intro ts st _; simp [vals, sfold]
  | cons p ps ih =>
    intro ts st hn
    obtain ⟨hp, hn⟩ := List.nodup_cons.mp hn
    cases ts with
    | nil => simp [vals, sfold]
    | cons t ts =>
      rw [sfold, ih ts _ hn]
      have e : vals (p :: ps) (t :: ts) = (p, natOfDigits t) :: vals ps ts := rfl
      rw [e, List.lookup_cons]
      by_cases h : p = 'm'
      · subst h
        rw [lookup_vals_none ps ts 'm' hp]
        simp [Stamp.put]
      · rw [beq_eq_false_iff_ne.mpr (fun hh => h hh.symm)]
        have : (st.put p (natOfDigits t)).month = st.month := by
          unfold Stamp.put
          simp only [h, if_false]
          repeat' split
          all_goals rfl
        rw [this]

theorem sfold_day : ∀ (f : List Char) (ts : List (List Char)) (st : Stamp), f.Nodup →
    (sfold st f ts).day = ((vals f ts).lookup 'd').getD st.day := by
  intro f
  induction f with
  | nil => intro ts st _; simp [vals, sfold]
  | cons p ps ih =>
    intro ts st hn
    obtain ⟨hp, hn⟩ := List.nodup_cons.mp hn
    cases ts with
    | nil => simp [vals, sfold]
    | cons t ts =>
      rw [sfold, ih ts _ hn]
      have e : vals (p :: ps) (t :: ts) = (p, natOfDigits t) :: vals ps ts := rfl
      rw [e, List.lookup_cons]
      by_cases h : p = 'd'
      · subst h
        rw [lookup_vals_none ps ts 'd' hp]
        simp [Stamp.put]
      · rw [beq_eq_false_iff_ne.mpr (fun hh => h hh.symm)]
        have : (st.put p (natOfDigits t)).day = st.day := by
          unfold Stamp.put
          simp only [h, if_false]
          repeat' split
          all_goals rfl
        rw [this]

/-- Value of the two digit year. -/
def pivot (v : Int) : Int := if 69 ≤ v then v + 1900 else v + 2000

theorem sfold_year : ∀ (f : List Char) (ts : List (List Char)) (st : Stamp), f.Nodup →
    ¬ ('Y' ∈ f ∧ 'y' ∈ f) →
    (sfold st f ts).year = match (vals f ts).lookup 'Y' with
      | some v => v
      | none => match (vals f ts).lookup 'y' with
        | some v => pivot v
        | none => st.year := by
  intro f
  induction f with
  | nil => intro ts st _ _; simp [vals, sfold]
  | cons p ps ih =>
    intro ts st hn hy
    obtain ⟨hp, hn⟩ := List.nodup_cons.mp hn
    have hy' : ¬ ('Y' ∈ ps ∧ 'y' ∈ ps) := fun h => hy ⟨by simp [h.1], by simp [h.2]⟩
    cases ts with
    | nil => simp [vals, sfold]
    | cons t ts =>
      rw [sfold, ih ts _ hn hy']
      have e : vals (p :: ps) (t :: ts) = (p, natOfDigits t) :: vals ps ts := rfl
      rw [e, List.lookup_cons, List.lookup_cons]
      by_cases h : p = 'Y'
      · subst h
        have h2 : 'y' ∉ ps := fun hh => hy ⟨by simp, by simp [hh]⟩
        rw [lookup_vals_none ps ts 'Y' hp, lookup_vals_none ps ts 'y' h2]
        simp [Stamp.put]
      · rw [beq_eq_false_iff_ne.mpr (fun hh => h hh.symm)]
        by_cases h' : p = 'y'
        · subst h'
          have h2 : 'Y' ∉ ps := fun hh => hy ⟨by simp [hh], by simp⟩
          rw [lookup_vals_none ps ts 'Y' h2, lookup_vals_none ps ts 'y' hp]
          simp [Stamp.put, pivot]
        · rw [beq_eq_false_iff_ne.mpr (fun hh => h' hh.symm)]
          have : (st.put p (natOfDigits t)).year = st.year := by
            unfold Stamp.put
            simp only [h, h', if_false]
            repeat' split
            all_goals rfl
          rw [this]

theorem lookup_vals_valid : ∀ (f : List Char) (ts : List (List Char)) (x : Char) (v : Int), FieldsOK f ts →
    (vals f ts).lookup x = some v → valueIsValid x v = true := by
  intro f
  induction f with
  | nil => intro ts x v _ h; simp [vals] at h
  | cons p ps ih =>
    intro ts x v hf h
    cases ts with
    | nil => simp [vals] at h
    | cons t ts =>
      have e : vals (p :: ps) (t :: ts) = (p, natOfDigits t) :: vals ps ts := rfl
      rw [e, List.lookup_cons] at h
      by_cases hx : x = p
      · subst hx
        simp at h
        rw [← h]; exact hf.1.2.2
      · rw [beq_eq_false_iff_ne.mpr hx] at h
        exact ih ts x v hf.2 h

theorem monthLen_congr {y y' : Int} (h : Leap y ↔ Leap y') (m : Int) : monthLen y m = monthLen y' m := by
  unfold monthLen
  by_cases hl : Leap y
  · simp [hl, h.mp hl]
  · have : ¬ Leap y' := fun hh => hl (h.mpr hh)
    simp [hl, this]

/-- The validity check of a candidate is: the date exists. -/
theorem candidateIsValid_iff {f : List Char} (hf : FormatOK f) (ny : Int) (hny : 2001 ≤ ny ∧ ny ≤ 2999)
    (ts : List (List Char)) (h : FieldsOK f ts) :
    candidateIsValid ny (vals f ts) = true ↔
      IsDate (sfold {} f ts).year (sfold {} f ts).month (sfold {} f ts).day ∧ ('Y' ∈ f ∨ 'y' ∈ f) := by
  have hm := sfold_month f ts {} hf.nodup
  have hd := sfold_day f ts {} hf.nodup
  have hy := sfold_year f ts {} hf.nodup hf.year
  have hmem : ∀ x v, (vals f ts).lookup x = some v → x ∈ f := by
    intro x v hx
    by_cases hh : x ∈ f
    · exact hh
    · rw [lookup_vals_none f ts x hh] at hx; cases hx
  have hlen : ∀ (f : List Char) (ts : List (List Char)) (x : Char), FieldsOK f ts → x ∈ f → ∃ v, (vals f ts).lookup x = some v := by
    intro f
    induction f with
    | nil => intro ts x _ h; cases h
    | cons p ps ih =>
      intro ts x hf hx
      cases ts with
      | nil => exact absurd hf (by simp [FieldsOK])
      | cons t ts =>
        have e : vals (p :: ps) (t :: ts) = (p, natOfDigits t) :: vals ps ts := rfl
        rw [e, List.lookup_cons]
        by_cases hxp : x = p
        · subst hxp; simp
        · rw [beq_eq_false_iff_ne.mpr hxp]
          exact ih ts x hf.2 (by simpa [hxp] using hx)
  rw [hm, hd, hy]
  unfold candidateIsValid
  cases lm : (vals f ts).lookup 'm' with
  | none =>
    have : ¬ IsDate (match (vals f ts).lookup 'Y' with
      | some v => v
      | none => match (vals f ts).lookup 'y' with
        | some v => pivot v
        | none => (0 : Int)) 0 (((vals f ts).lookup 'd').getD 0) := by
      intro hh; have := hh.1; omega
    simp [this]
  | some m =>
    cases ld : (vals f ts).lookup 'd' with
    | none =>
      have : ∀ y, ¬ IsDate y m 0 := by
        intro y hh; have := hh.2.2.1; omega
      simp [this]
    | some d =>
      have vm := lookup_vals_valid f ts 'm' m h lm
      have vd := lookup_vals_valid f ts 'd' d h ld
      have vm' : m > 0 ∧ m ≤ 12 := by simpa [valueIsValid] using vm
      have vd' : d > 0 ∧ d ≤ 31 := by simpa [valueIsValid] using vd
      cases ly : (vals f ts).lookup 'Y' with
      | some y =>
        have hmy := hmem _ _ ly
        have glm := getLastDayOfMonth_valid y m (by omega) (by omega)
        simp only [Option.getD_some, hmy, true_or, and_true, glm, daysIn_eq, IsDate]
        simp only [Bool.not_eq_true', Bool.or_eq_false_iff, decide_eq_false_iff_not]
        omega
      | none =>
        cases ly2 : (vals f ts).lookup 'y' with
        | none =>
          have h1 : 'Y' ∉ f := by
            intro hh; obtain ⟨v, hv⟩ := hlen f ts 'Y' h hh; rw [ly] at hv; cases hv
          have h2 : 'y' ∉ f := by
            intro hh; obtain ⟨v, hv⟩ := hlen f ts 'y' h hh; rw [ly2] at hv; cases hv
          simp [h1, h2]
        | some y =>
          have hmy := hmem _ _ ly2
          have vy := lookup_vals_valid f ts 'y' y h ly2
          have vy' : y ≥ 0 ∧ y ≤ 99 := by simpa [valueIsValid] using vy
          have c : ny / 1000 * 1000 = 2000 := by omega
          have hleap : ∀ y', (y' = if y < ny - 2000 then y + 2000 else y + (2000 - 100)) → (Leap y' ↔ Leap (pivot y)) := by
            intro y' he
            unfold Leap pivot
            by_cases h0 : y = 0
            · subst h0
              rw [if_pos (by omega)] at he
              subst he; decide
            · subst he
              repeat' split
              all_goals omega
          simp only [Option.getD_some, hmy, or_true, and_true, Option.map_some, c]
          generalize he : (if y < ny - 2000 then y + 2000 else y + (2000 - 100)) = y'
          have glm := getLastDayOfMonth_valid y' m (by omega) (by omega)
          rw [glm, daysIn_eq, monthLen_congr (hleap y' he.symm) m]
          simp only [IsDate, Bool.not_eq_true', Bool.or_eq_false_iff, decide_eq_false_iff_not]
          omega

/-! ### Readings and candidates -/

theorem year4_length {t : List Char} (hn : IsNumeral t) (hl : t.length ≤ 4) (hv : 1000 ≤ natOfDigits t) : t.length = 4 := by
  have hrange := natOfDigits_range (s := t) hn.2
  have : ¬ t.length ≤ 3 := by
    intro h3
    have : (10 : Int) ^ t.length ≤ 10 ^ 3 := by
      have e : t.length = 0 ∨ t.length = 1 ∨ t.length = 2 ∨ t.length = 3 := by omega
      rcases e with e | e | e | e <;> rw [e] <;> decide
    omega
  omega

theorem partText_of {p : Char} (hp : p ∈ ['Y', 'y', 'm', 'd', 'H', 'M', 'S']) {t : List Char}
    (h : IsNumeral t ∧ t.length ≤ partSize p ∧ valueIsValid p (natOfDigits t) = true)
    (hy : p = 'y' → t.length = 2) : PartText p t := by
  obtain ⟨hn, hl, hv⟩ := h
  refine ⟨hn, ?_⟩
  simp only [List.mem_cons, List.not_mem_nil, or_false] at hp
  rcases hp with rfl | rfl | rfl | rfl | rfl | rfl | rfl
  · have hv' : natOfDigits t ≥ 1000 := by simpa [valueIsValid] using hv
    simp only [if_true]
    exact ⟨year4_length hn hl hv', by rw [number_eq]; omega⟩
  · simpa using hy rfl
  all_goals simpa [partSize, partSize?] using hl

theorem reads_of : ∀ (f : List Char) (ts : List (List Char)) (st : Stamp), FieldsOK f ts → YearsLong f ts →
    (∀ c ∈ f, c ∈ ['Y', 'y', 'm', 'd', 'H', 'M', 'S']) → Reads st f ts (sfold st f ts) := by
  intro f
  induction f with
  | nil =>
    intro ts st h _ _
    cases ts with
    | nil => exact .done _
    | cons _ _ => exact absurd h (by simp [FieldsOK])
  | cons p ps ih =>
    intro ts st h hy hl
    cases ts with
    | nil => exact absurd h (by simp [FieldsOK])
    | cons t ts =>
      refine .part _ _ _ _ _ _ (partText_of (hl p (by simp)) h.1 hy.1) ?_
      rw [number_eq]
      exact ih ts _ h.2 hy.2 (fun c hc => hl c (by simp [hc]))

theorem reads_sfold : ∀ (f : List Char) (ts : List (List Char)) (st st' : Stamp), Reads st f ts st' → st' = sfold st f ts := by
  intro f ts st st' h
  induction h with
  | done s => rfl
  | part s s' letter format t ts hp _ ih => rw [ih, number_eq]; rfl

theorem reads_yearsLong : ∀ (f : List Char) (ts : List (List Char)) (st st' : Stamp), Reads st f ts st' → YearsLong f ts := by
  intro f ts st st' h
  induction h with
  | done s => trivial
  | part s s' letter format t ts hp _ ih =>
    refine ⟨?_, ih⟩
    rintro rfl
    simpa using hp.2

/-- The part of a stamp named by a letter. -/
def sget (st : Stamp) (p : Char) : Int :=
  if p = 'm' then st.month else if p = 'd' then st.day else if p = 'H' then st.hour
  else if p = 'M' then st.minute else if p = 'S' then st.second else 0

theorem sget_put_same (st : Stamp) (p : Char) (hp : p ∈ ['m', 'd', 'H', 'M', 'S']) (v : Int) : sget (st.put p v) p = v := by
  simp only [List.mem_cons, List.not_mem_nil, or_false] at hp
  rcases hp with rfl | rfl | rfl | rfl | rfl <;> simp [sget, Stamp.put]

theorem sget_put_other (st : Stamp) (p q : Char) (h : p ≠ q) (v : Int) : sget (st.put q v) p = sget st p := by
  unfold Stamp.put
  repeat' split
  all_goals (try subst_vars)
  all_goals unfold sget
  all_goals repeat' split
  all_goals (try rfl)
  all_goals simp_all

theorem sget_sfold : ∀ (f : List Char) (ts : List (List Char)) (st : Stamp) (p : Char), p ∉ f →
    sget (sfold st f ts) p = sget st p := by
  intro f
  induction f with
  | nil => intro ts st p _; simp [sfold]
  | cons q qs ih =>
    intro ts st p hp
    simp only [List.mem_cons, not_or] at hp
    cases ts with
    | nil => simp [sfold]
    | cons t ts => rw [sfold, ih ts _ p hp.2, sget_put_other _ _ _ hp.1]

theorem fieldsOK_of : ∀ (f : List Char) (ts : List (List Char)) (st st' : Stamp), Reads st f ts st' → f.Nodup →
    (∀ c ∈ f, c ∈ ['Y', 'y', 'm', 'd', 'H', 'M', 'S']) →
    (∀ p ∈ ['m', 'd', 'H', 'M', 'S'], p ∈ f → valueIsValid p (sget st' p) = true) → FieldsOK f ts := by
  intro f ts st st' h
  induction h with
  | done s => intro _ _ _; trivial
  | part s s' letter format t ts hp hr ih =>
    intro hn hl hv
    obtain ⟨hnp, hn⟩ := List.nodup_cons.mp hn
    refine ⟨⟨hp.1, ?_⟩, ih hn (fun c hc => hl c (by simp [hc])) (fun p h1 h2 => hv p h1 (by simp [h2]))⟩
    have hs := reads_sfold _ _ _ _ hr
    have hrange := natOfDigits_range (s := t) hp.1.2
    have hmem := hl letter (by simp)
    simp only [List.mem_cons, List.not_mem_nil, or_false] at hmem
    have hpt := hp.2
    have rest : letter ∈ ['m', 'd', 'H', 'M', 'S'] → valueIsValid letter (natOfDigits t) = true := by
      intro hm
      have := hv letter hm (by simp)
      rwa [hs, sget_sfold _ _ _ _ hnp, sget_put_same _ _ hm, number_eq] at this
    rcases hmem with rfl | rfl | rfl | rfl | rfl | rfl | rfl
    · simp only [if_true, number_eq] at hpt
      refine ⟨by rw [hpt.1]; decide, ?_⟩
      simp [valueIsValid, hpt.2]
    · simp at hpt
      refine ⟨by rw [hpt]; decide, ?_⟩
      rw [hpt] at hrange
      simp [valueIsValid]
      omega
    all_goals
      refine ⟨?_, rest (by simp)⟩
      simpa [partSize, partSize?] using hpt

/-- Every reading is a candidate. -/
theorem reading_candidate {f : List Char} (hf : FormatOK f) (ny : Int) (hny : 2001 ≤ ny ∧ ny ≤ 2999) {ds : List Char}
    {parts : List (List Char)} {st : Stamp} (h : Reading f ds parts st) :
    parts ∈ candidateParts ny f ds ∧ YearsLong f parts ∧ st = sfold {} f parts ∧ FieldsOK f parts := by
  obtain ⟨h1, h2, ⟨h3, h4⟩⟩ := h
  have hs := reads_sfold _ _ _ _ h2
  have hF : FieldsOK f parts := by
    refine fieldsOK_of f parts {} st h2 hf.nodup hf.letters ?_
    have hml : st.day ≤ 31 := by
      have := h3.2.2.2
      have hle : monthLen st.year st.month ≤ 31 := by
        unfold monthLen; repeat' split
        all_goals omega
      omega
    obtain ⟨a1, a2, a3, _⟩ := h3
    obtain ⟨b1, b2, b3, b4, b5, b6, _⟩ := h4
    intro p hp _
    simp only [List.mem_cons, List.not_mem_nil, or_false] at hp
    rcases hp with rfl | rfl | rfl | rfl | rfl <;> simp [valueIsValid, sget] <;> omega
  refine ⟨(mem_candidateParts hf ny ds parts).mpr ⟨h1, hF, ?_⟩, reads_yearsLong _ _ _ _ h2, hs, hF⟩
  rw [candidateIsValid_iff hf ny hny parts hF, ← hs]
  refine ⟨h3, (hf.dated ?_).1⟩
  by_cases hm : 'm' ∈ f
  · exact hm
  · have := sfold_month f parts {} hf.nodup
    rw [lookup_vals_none f parts 'm' hm, ← hs] at this
    have h5 := h3.1
    rw [this] at h5
    simp at h5

theorem utc_zero_year (t : Time) (hl : t.loc = Loc.utc) (h : t.isZero = true) : t.year = 1 := by
  obtain ⟨sec, ns, l⟩ := t
  simp only at hl
  subst hl
  simp only [Time.isZero, Bool.and_eq_true, beq_iff_eq] at h
  obtain ⟨h1, _⟩ := h
  subst h1
  show (civilOfDays ((-62135596800 + 0) / 86400)).y = 1
  decide +kernel

theorem fields_clock : ∀ (f : List Char) (ts : List (List Char)) (st : Stamp), FieldsOK f ts →
    IsClock st.hour st.minute st.second 0 → IsClock (sfold st f ts).hour (sfold st f ts).minute (sfold st f ts).second 0 := by
  intro f
  induction f with
  | nil => intro ts st h hc; simpa [sfold] using hc
  | cons p ps ih =>
    intro ts st h hc
    cases ts with
    | nil => simpa [sfold] using hc
    | cons t ts =>
      refine ih ts _ h.2 ?_
      have hv := h.1.2.2
      unfold valueIsValid at hv
      unfold IsClock at hc ⊢
      unfold Stamp.put
      repeat' split
      all_goals simp_all
      all_goals omega

/-- What `time.Parse` makes of a candidate: a reading, or nothing when a two digit year has one digit. -/
theorem candidate_parse {f : List Char} (hf : FormatOK f) (ny : Int) (hny : 2001 ≤ ny ∧ ny ≤ 2999) {ds : List Char}
    {parts : List (List Char)} (h : parts ∈ candidateParts ny f ds) :
    (¬ YearsLong f parts ∧ timeParse (nsLayout f) (joinWith ['-'] parts) = none) ∨
    (YearsLong f parts ∧ ∃ st t, Reading f ds parts st ∧ timeParse (nsLayout f) (joinWith ['-'] parts) = some t ∧
      Shows t st.year st.month st.day st.hour st.minute st.second 0 ∧ t.loc = Loc.utc ∧ t.isZero = false ∧ 1000 ≤ t.year ∧
      nsMissing f = ["year".toList]) := by
  obtain ⟨h1, h2, h3⟩ := (mem_candidateParts hf ny ds parts).mp h
  have P := parseChunks_parts f parts {} h2 hf.letters
  unfold timeParse timeParseIn parseWith
  rw [hf.chunks]
  by_cases hy : YearsLong f parts
  · right
    rw [candidateIsValid_iff hf ny hny parts h2] at h3
    obtain ⟨h3, h3y⟩ := h3
    have hS := sim_fold f parts {} {} ⟨rfl, Or.inr rfl, Or.inr rfl, rfl, rfl, rfl, rfl, rfl, rfl, rfl, rfl, ⟨rfl, rfl⟩⟩ hf.letters
    have hcl : IsClock (sfold {} f parts).hour (sfold {} f parts).minute (sfold {} f parts).second 0 :=
      fields_clock f parts {} h2 (by unfold IsClock; decide)
    have hy1000 : 1000 ≤ (sfold {} f parts).year := by
      rw [sfold_year f parts {} hf.nodup hf.year]
      have hsome : ((vals f parts).lookup 'Y').isSome ∨ ((vals f parts).lookup 'y').isSome := by
        have hlen : ∀ (f : List Char) (ts : List (List Char)) (x : Char), FieldsOK f ts → x ∈ f → ((vals f ts).lookup x).isSome := by
          intro f
          induction f with
          | nil => intro ts x _ h; cases h
          | cons p ps ih =>
            intro ts x hf hx
            cases ts with
            | nil => exact absurd hf (by simp [FieldsOK])
            | cons t ts =>
              have e : vals (p :: ps) (t :: ts) = (p, natOfDigits t) :: vals ps ts := rfl
              rw [e, List.lookup_cons]
              by_cases hxp : x = p
              · subst hxp; simp
              · rw [beq_eq_false_iff_ne.mpr hxp]
                exact ih ts x hf.2 (by simpa [hxp] using hx)
        rcases h3y with hh | hh
        · exact Or.inl (hlen f parts 'Y' h2 hh)
        · exact Or.inr (hlen f parts 'y' h2 hh)
      cases lY : (vals f parts).lookup 'Y' with
      | some v =>
        have := lookup_vals_valid f parts 'Y' v h2 lY
        simpa [valueIsValid] using this
      | none =>
        cases ly : (vals f parts).lookup 'y' with
        | some v =>
          have := lookup_vals_valid f parts 'y' v h2 ly
          have : v ≥ 0 ∧ v ≤ 99 := by simpa [valueIsValid] using this
          simp only [pivot]
          split <;> omega
        | none => rw [lY, ly] at hsome; simp at hsome
    refine ⟨hy, sfold {} f parts, goDate (sfold {} f parts).year (sfold {} f parts).month (sfold {} f parts).day
      (sfold {} f parts).hour (sfold {} f parts).minute (sfold {} f parts).second 0 Loc.utc,
      ⟨h1, reads_of f parts {} h2 hy hf.letters, h3, hcl⟩, ?_, ?_⟩
    · rw [P.1 hy]
      simp only [Option.bind_some, finishParse_plain hS.yday hS.zone hS.utc, hS.pm, hS.am, Bool.false_and, Bool.false_eq_true, if_false]
      obtain ⟨a1, a2, a3, a4⟩ := h3
      have em : (pfold {} f parts).month = (sfold {} f parts).month := by
        rcases hS.month with h | h
        · exact h
        · omega
      have ed : (pfold {} f parts).day = (sfold {} f parts).day := by
        rcases hS.day with h | h
        · exact h
        · omega
      rw [em, ed, hS.year, hS.hour, hS.min, hS.sec, hS.nsec]
      rw [if_neg (show ¬ (sfold {} f parts).month < 0 by omega), if_neg (show ¬ (sfold {} f parts).day < 0 by omega)]
      rw [daysIn_eq, if_neg (by omega)]
    · have hsh := shows_goDate h3 hcl (Loc.utc_isFixed.noJump (wallOf (sfold {} f parts).year (sfold {} f parts).month (sfold {} f parts).day
        (sfold {} f parts).hour (sfold {} f parts).minute (sfold {} f parts).second 0))
      refine ⟨hsh, rfl, ?_, by rw [hsh.year]; exact hy1000, ?_⟩
      · cases hz : Time.isZero _ with
        | false => rfl
        | true =>
          have := utc_zero_year _ rfl hz
          rw [hsh.year] at this
          omega
      · have hm : 'm' ∈ f := by
          by_cases hm : 'm' ∈ f
          · exact hm
          · have := sfold_month f parts {} hf.nodup
            rw [lookup_vals_none f parts 'm' hm] at this
            have h5 := h3.1
            rw [this] at h5
            simp at h5
        rw [hf.missing, if_pos ⟨(hf.dated hm).2, hm⟩]
  · left
    exact ⟨hy, by rw [P.2 hy]; rfl⟩

end Verif.Lemmas
