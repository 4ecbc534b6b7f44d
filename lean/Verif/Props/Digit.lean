import Verif.Model.Digit
import Verif.Spec.Digit
/-! # C29: digits of every script -/
set_option autoImplicit false
namespace Verif.Props
open Verif.Model Verif.Spec Verif.Data

theorem ranges_disjoint : digitRanges.Pairwise (fun a b => a.2 < b.1 ∨ b.2 < a.1) := by decide +kernel

/-- The zero of the range a character is in. -/
def rangeOf (c : Char) : Option (Nat × Nat) := digitRanges.find? fun dr => decide (dr.1 ≤ c.toNat ∧ c.toNat ≤ dr.2)

theorem mem_unique : ∀ (l : List (Nat × Nat)), l.Pairwise (fun a b => a.2 < b.1 ∨ b.2 < a.1) → ∀ n, ∀ a ∈ l, ∀ b ∈ l,
    a.1 ≤ n ∧ n ≤ a.2 → b.1 ≤ n ∧ n ≤ b.2 → a = b := by
  intro l
  induction l with
  | nil => intro _ n a ha; simp at ha
  | cons x l ih =>
    intro hp n a ha b hb h1 h2
    rw [List.pairwise_cons] at hp
    rcases List.mem_cons.mp ha with e1 | e1 <;> rcases List.mem_cons.mp hb with e2 | e2
    · rw [e1, e2]
    · subst e1; have := hp.1 b e2; omega
    · subst e2; have := hp.1 a e1; omega
    · exact ih hp.2 n a e1 b e2 h1 h2

theorem tryRanges_spec (r : Char) : ∀ (l : List (Nat × Nat)) (j : Nat),
    (∀ n i, tryRanges r j l = some (n, i) → ∃ k, i = j + k ∧ ∃ h : k < l.length, applyRange l[k] r = some n) ∧
    (tryRanges r j l = none → ∀ dr ∈ l, applyRange dr r = none) := by
  intro l
  induction l with
  | nil => intro j; simp [tryRanges]
  | cons x l ih =>
    intro j
    cases hx : applyRange x r with
    | some m =>
      constructor
      · intro n i h
        simp only [tryRanges, hx, Option.some.injEq, Prod.mk.injEq] at h
        exact ⟨0, h.2.symm, by simp, by simpa [hx] using h.1⟩
      · intro h; simp [tryRanges, hx] at h
    | none =>
      obtain ⟨i1, i2⟩ := ih (j + 1)
      constructor
      · intro n i h
        simp only [tryRanges, hx] at h
        obtain ⟨k, e, hk, ha⟩ := i1 n i h
        exact ⟨k + 1, by omega, by simp; omega, by simpa using ha⟩
      · intro h
        simp only [tryRanges, hx] at h
        intro dr hdr
        rcases List.mem_cons.mp hdr with rfl | hdr
        · exact hx
        · exact i2 h dr hdr

/-- What one character becomes, whatever the last used range. -/
theorem step_fst (isDigit : Char → Bool) (last : Int) (hl : last < digitRanges.length) (r : Char) :
    ((digitStep isDigit last r).2 < digitRanges.length) ∧
    (isDigit r = false → (digitStep isDigit last r).1 = r) ∧
    (isDigit r = true → ∀ dr ∈ digitRanges, dr.1 ≤ r.toNat → r.toNat ≤ dr.2 →
      (digitStep isDigit last r).1 = Char.ofNat (48 + (r.toNat - dr.1))) ∧
    ((∀ dr ∈ digitRanges, ¬ (dr.1 ≤ r.toNat ∧ r.toNat ≤ dr.2)) → (digitStep isDigit last r).1 = r) := by
  have happ : ∀ dr n, applyRange dr r = some n → dr.1 ≤ r.toNat ∧ r.toNat ≤ dr.2 ∧ n = Char.ofNat (48 + (r.toNat - dr.1)) := by
    intro dr n h
    unfold applyRange at h
    split at h
    · rename_i hc; injection h with h; exact ⟨hc.1, hc.2, h.symm⟩
    · simp at h
  obtain ⟨t1, t2⟩ := tryRanges_spec r digitRanges 0
  unfold digitStep
  cases hd : isDigit r with
  | false => simp [hl]
  | true =>
    simp only [Bool.not_true, Bool.false_eq_true, if_false, reduceCtorEq, false_implies, true_and, true_implies]
    split
    · rename_i n hn
      have hn : 0 < last ∧ applyRange (digitRanges.getD last.toNat (0, 0)) r = some n := by
        split at hn
        · exact ⟨by assumption, hn⟩
        · simp at hn
      obtain ⟨h1, h2, h3⟩ := happ _ _ hn.2
      have hlt : last.toNat < digitRanges.length := by omega
      have hmem : digitRanges.getD last.toNat (0, 0) ∈ digitRanges := by
        rw [List.getD_eq_getElem?_getD, List.getElem?_eq_getElem hlt]; exact List.getElem_mem _
      refine ⟨hl, ?_, ?_⟩
      · intro dr hdr h4 h5
        rw [h3, mem_unique _ ranges_disjoint r.toNat _ hmem _ hdr ⟨h1, h2⟩ ⟨h4, h5⟩]
      · intro h; exact absurd ⟨h1, h2⟩ (h _ hmem)
    · cases ht : tryRanges r 0 digitRanges with
      | some p =>
        obtain ⟨n, j⟩ := p
        obtain ⟨k, e, hk, ha⟩ := t1 n j ht
        obtain ⟨h1, h2, h3⟩ := happ _ _ ha
        refine ⟨by simp only; omega, ?_, ?_⟩
        · intro dr hdr h4 h5
          simp only
          rw [h3, mem_unique _ ranges_disjoint r.toNat _ (List.getElem_mem hk) _ hdr ⟨h1, h2⟩ ⟨h4, h5⟩]
        · intro h; exact absurd ⟨h1, h2⟩ (h _ (List.getElem_mem hk))
      | none =>
        refine ⟨hl, ?_, fun _ => rfl⟩
        intro dr hdr h4 h5
        have := t2 ht dr hdr
        simp [applyRange, h4, h5] at this

/-- The loop treats every character by itself. -/
theorem loop_map (isDigit : Char → Bool) (f : Char → Char) (l : List Char)
    (h : ∀ r ∈ l, ∀ last : Int, last < digitRanges.length → (digitStep isDigit last r).1 = f r) :
    ∀ last : Int, last < digitRanges.length → digitLoop isDigit last l = l.map f := by
  induction l with
  | nil => intro last _; rfl
  | cons r l ih =>
    intro last hl
    rw [digitLoop, List.map_cons, h r (by simp) last hl,
      ih (fun r hr => h r (by simp [hr])) _ (step_fst isDigit last hl r).1]

/-- The known zeros, and the ranges they are in. -/
theorem zeros_ranges : ∀ z ∈ digitZeros15 ++ digitZeros16, ∃ dr ∈ digitRanges,
    dr.1 ≤ z ∧ z + 9 ≤ dr.2 ∧ (dr.1 = z ∨ 0x1D7D8 ≤ z ∧ z + 9 ≤ 0x1D7FF ∨ 0x116DA ≤ z ∧ z + 9 ≤ 0x116E3) := by decide +kernel

/-- **C29, except for the digits named in `Misread`.** In a string without those, every decimal digit of a script known
to Go becomes the ASCII digit of the same value and every other character is left alone.  (The full property has no
exception; `C29_misread` shows it is false of the code.) -/
theorem C29_digits_partial {zeros : List Nat} (hz : ∀ z ∈ zeros, z ∈ digitZeros15 ++ digitZeros16) (str : List Char)
    (hm : ∀ c ∈ str, ¬ Misread c) :
    (normalizeDigits (isUniDigit zeros) str).length = str.length ∧
    ∀ (i : Nat) c c', str[i]? = some c → (normalizeDigits (isUniDigit zeros) str)[i]? = some c' →
      (∀ d, IsDigitChar zeros c d → c' = Char.ofNat (48 + d)) ∧ ((∀ d, ¬ IsDigitChar zeros c d) → c' = c) := by
  have hstep : ∀ r ∈ str, ∀ last : Int, last < digitRanges.length →
      (digitStep (isUniDigit zeros) last r).1 = (digitStep (isUniDigit zeros) (-1) r).1 ∧
      (∀ d, IsDigitChar zeros r d → (digitStep (isUniDigit zeros) last r).1 = Char.ofNat (48 + d)) ∧
      ((∀ d, ¬ IsDigitChar zeros r d) → (digitStep (isUniDigit zeros) last r).1 = r) := by
    intro r hr last hl
    obtain ⟨_, s2, s3, s4⟩ := step_fst (isUniDigit zeros) last hl r
    obtain ⟨_, s2', s3', s4'⟩ := step_fst (isUniDigit zeros) (-1) (by decide) r
    cases hd : isUniDigit zeros r with
    | false =>
      refine ⟨by rw [s2 hd, s2' hd], ?_, fun _ => s2 hd⟩
      rintro d ⟨hd10, z, hz', e⟩
      have : isUniDigit zeros r = true := List.any_eq_true.mpr ⟨z, hz', by simp; omega⟩
      rw [hd] at this; exact absurd this (by simp)
    | true =>
      obtain ⟨z, hz', he⟩ := List.any_eq_true.mp hd
      simp only [decide_eq_true_eq] at he
      obtain ⟨dr, hdr, a1, a2, a3⟩ := zeros_ranges z (hz z hz')
      refine ⟨by rw [s3 hd dr hdr (by omega) (by omega), s3' hd dr hdr (by omega) (by omega)], ?_, ?_⟩
      · rintro d ⟨hd10, y, hy, e⟩
        obtain ⟨dr', hdr', b1, b2, b3⟩ := zeros_ranges y (hz y hy)
        have hnm := hm r hr
        unfold Misread at hnm
        rw [s3 hd dr' hdr' (by omega) (by omega)]
        rcases b3 with b3 | b3 | b3
        · rw [b3, show r.toNat - y = d by omega]
        · exact absurd (Or.inl (by omega)) hnm
        · exact absurd (Or.inr (by omega)) hnm
      · intro h
        exact absurd ⟨by omega, z, hz', by omega⟩ (h (r.toNat - z))
  have hmap := loop_map (isUniDigit zeros) (fun r => (digitStep (isUniDigit zeros) (-1) r).1) str
    (fun r hr last hl => (hstep r hr last hl).1) (-1) (by decide)
  unfold normalizeDigits
  rw [hmap]
  refine ⟨by simp, ?_⟩
  intro i c c' h1 h2
  rw [List.getElem?_map, h1] at h2
  simp only [Option.map_some, Option.some.injEq] at h2
  subst h2
  have hc : c ∈ str := List.mem_of_getElem? h1
  exact ⟨(hstep c hc (-1) (by decide)).2.1, (hstep c hc (-1) (by decide)).2.2⟩

/-- **C29.** Normalising twice is the same as normalising once. -/
theorem C29_idempotent {zeros : List Nat} (hz : ∀ z ∈ zeros, z ∈ digitZeros15 ++ digitZeros16) (str : List Char) :
    normalizeDigits (isUniDigit zeros) (normalizeDigits (isUniDigit zeros) str) = normalizeDigits (isUniDigit zeros) str := by
  have hone : ∀ (last : Int), last < digitRanges.length → ∀ r, ∃ c, (digitStep (isUniDigit zeros) last r).1 = c ∧
      (isUniDigit zeros c = false ∨ 0x30 ≤ c.toNat ∧ c.toNat ≤ 0x39) ∧
      (∀ last' : Int, last' < digitRanges.length → (digitStep (isUniDigit zeros) last' r).1 = c) := by
    intro last hl r
    obtain ⟨_, s2, s3, s4⟩ := step_fst (isUniDigit zeros) last hl r
    refine ⟨_, rfl, ?_, ?_⟩
    · cases hd : isUniDigit zeros r with
      | false => left; rw [s2 hd]; exact hd
      | true =>
        obtain ⟨z, hz', he⟩ := List.any_eq_true.mp hd
        simp only [decide_eq_true_eq] at he
        obtain ⟨dr, hdr, a1, a2, a3⟩ := zeros_ranges z (hz z hz')
        rw [s3 hd dr hdr (by omega) (by omega)]
        have hw : ∀ dr ∈ digitRanges, dr.2 < dr.1 + 50 := by decide +kernel
        have hk := hw dr hdr
        have key : ∀ k : Fin 50, (∀ z ∈ digitZeros15 ++ digitZeros16,
            ¬ (z ≤ (Char.ofNat (48 + k.val)).toNat ∧ (Char.ofNat (48 + k.val)).toNat < z + 10)) ∨
            0x30 ≤ (Char.ofNat (48 + k.val)).toNat ∧ (Char.ofNat (48 + k.val)).toNat ≤ 0x39 := by decide +kernel
        rcases key ⟨r.toNat - dr.1, by omega⟩ with h | h
        · left
          cases hx : isUniDigit zeros (Char.ofNat (48 + (r.toNat - dr.1))) with
          | false => rfl
          | true =>
            obtain ⟨y, hy, he'⟩ := List.any_eq_true.mp hx
            simp only [decide_eq_true_eq] at he'
            exact absurd he' (h y (hz y hy))
        · right; exact h
    · intro last' hl'
      obtain ⟨_, s2', s3', s4'⟩ := step_fst (isUniDigit zeros) last' hl' r
      cases hd : isUniDigit zeros r with
      | false => rw [s2 hd, s2' hd]
      | true =>
        obtain ⟨z, hz', he⟩ := List.any_eq_true.mp hd
        simp only [decide_eq_true_eq] at he
        obtain ⟨dr, hdr, a1, a2, a3⟩ := zeros_ranges z (hz z hz')
        rw [s3 hd dr hdr (by omega) (by omega), s3' hd dr hdr (by omega) (by omega)]
  have hm1 := loop_map (isUniDigit zeros) (fun r => (digitStep (isUniDigit zeros) (-1) r).1) str
    (fun r _ last hl => by
      obtain ⟨c, h1, _, h3⟩ := hone last hl r
      rw [h3 last hl, h3 (-1) (by decide)]) (-1) (by decide)
  unfold normalizeDigits
  rw [hm1]
  rw [loop_map (isUniDigit zeros) id _ ?_ (-1) (by decide), List.map_id]
  intro c hc last hl
  obtain ⟨r, _, rfl⟩ := List.mem_map.mp hc
  obtain ⟨c, h1, h2, _⟩ := hone (-1) (by decide) r
  rw [h1]
  obtain ⟨_, s2, s3, _⟩ := step_fst (isUniDigit zeros) last hl c
  rcases h2 with h2 | h2
  · exact s2 h2
  · cases hd : isUniDigit zeros c with
    | false => exact s2 hd
    | true =>
      rw [s3 hd (0x30, 0x39) (by decide +kernel) h2.1 h2.2]
      rw [show 48 + (c.toNat - (0x30, 0x39).1) = c.toNat by simp only; omega, Char.ofNat_toNat]; rfl

/-- **C29 (finding).** Every mathematical digit other than the bold ones becomes a character that is not a digit. -/
theorem C29_misread (c : Char) (h : 0x1D7D8 ≤ c.toNat ∧ c.toNat ≤ 0x1D7FF) :
    (∃ d, IsDigitChar digitZeros15 c d) ∧
    ∃ x, normalizeDigits (isUniDigit digitZeros15) [c] = [x] ∧ ∀ d, d < 10 → x ≠ Char.ofNat (48 + d) := by
  have hd : ∃ d, IsDigitChar digitZeros15 c d := by
    refine ⟨(c.toNat - 0x1D7CE) % 10, by omega, 0x1D7CE + 10 * ((c.toNat - 0x1D7CE) / 10), ?_, by omega⟩
    have h1 : (c.toNat - 0x1D7CE) / 10 < 5 := by omega
    have : ∀ k : Fin 5, 0x1D7CE + 10 * k.val ∈ digitZeros15 := by decide +kernel
    exact this ⟨_, h1⟩
  refine ⟨hd, ?_⟩
  obtain ⟨d, hd10, z, hz, e⟩ := hd
  have hdig : isUniDigit digitZeros15 c = true := List.any_eq_true.mpr ⟨z, hz, by simp; omega⟩
  obtain ⟨_, _, s3, _⟩ := step_fst (isUniDigit digitZeros15) (-1) (by decide) c
  refine ⟨_, rfl, ?_⟩
  intro d hd
  rw [s3 hdig (0x1D7CE, 0x1D7FF) (by decide +kernel) (by simp only; omega) (by simp only; omega)]
  have key : ∀ k : Fin 50, 10 ≤ k.val → ∀ d : Fin 10, Char.ofNat (48 + k.val) ≠ Char.ofNat (48 + d.val) := by decide +kernel
  exact key ⟨c.toNat - 0x1D7CE, by omega⟩ (by simp only; omega) ⟨d, hd⟩

/-! Examples: Arabic, Bengali and full width digits; a letter that is not a digit; the double-struck zero is read as a
colon. -/
example : normalizeDigits (isUniDigit digitZeros15) "١٢ ৩１a".toList = "12 31a".toList := by decide +kernel
example : ∀ c ∈ "١٢ ৩１a".toList, ¬ Misread c := by unfold Misread; decide
example : normalizeDigits (isUniDigit digitZeros15) "12𝟘00".toList = "12:00".toList := by decide +kernel

end Verif.Props
