import Verif.Lemmas.WordOut
import Verif.Lemmas.WordReach
import Verif.Lemmas.NumericTimes
/-! Helper lemmas: translated dates with month names and a time of day have neither time zones nor amounts of time. -/
set_option autoImplicit false
namespace Verif.Lemmas
open Verif.Go Verif.Model Verif.Data Verif.Spec

theorem zones_chars : (namedZones.all fun z => (z.1.map foldC).all fun c => c != ' ') = true := by decide +kernel

theorem prefix_space {Z : List Char} : ∀ {p r : List Char}, (∀ c ∈ p, c ≠ ' ') → p.isPrefixOf (r ++ ' ' :: Z) = p.isPrefixOf r
  | [], _, _ => by simp
  | c :: p, [], h => by
    have : (c == ' ') = false := by rw [beq_eq_false_iff_ne]; exact h c (by simp)
    simp [List.isPrefixOf, this]
  | c :: p, d :: r, h => by
    simp only [List.cons_append, List.isPrefixOf]
    rw [prefix_space fun x hx => h x (by simp [hx])]

theorem nameAt_space {Z r : List Char} (h : nameAt r = false) : nameAt (r ++ ' ' :: Z) = false := by
  unfold nameAt at h ⊢
  rw [List.any_eq_false] at h ⊢
  intro z hz
  have hc := List.all_eq_true.mp (List.all_eq_true.mp zones_chars z hz)
  rw [prefix_space fun c hm => by have := hc c hm; simpa using this]
  have := h z hz
  cases hp : (z.1.map foldC).isPrefixOf r with
  | false => simp
  | true =>
    rw [hp, Bool.true_and] at this
    rw [Bool.true_and]
    have hl : z.1.length ≤ r.length := by
      have := (List.isPrefixOf_iff_prefix.mp hp).length_le
      simpa using this
    rw [List.drop_append_of_le_length hl]
    cases hd : r.drop z.1.length with
    | nil => rw [hd] at this; simp at this
    | cons d q => rw [hd] at this; simpa using this

theorem nameIn_space {Z : List Char} (hZ : noLetters Z = true) : ∀ {A : List Char}, nameIn A = false → nameIn (A ++ ' ' :: Z) = false
  | [], _ => nameIn_noLetters (s := ' ' :: Z) (by unfold noLetters at *; simp only [List.all_cons, hZ]; decide)
  | c :: A, h => by
    simp only [nameIn, Bool.or_eq_false_iff, Bool.and_eq_false_iff] at h
    simp only [List.cons_append, nameIn, Bool.or_eq_false_iff, Bool.and_eq_false_iff]
    exact ⟨h.1.imp id nameAt_space, nameIn_space hZ h.2⟩

theorem containsStr_space {p Z : List Char} (hp : ∀ c ∈ p, c ≠ ' ') (hne : p ≠ []) (hZ : ∀ c ∈ Z, c ∉ p) : ∀ {A : List Char}, containsStr p A = false → containsStr p (A ++ ' ' :: Z) = false
  | [], _ => by
    cases p with
    | nil => exact absurd rfl hne
    | cons c p =>
      refine containsStr_mem ?_
      simp only [List.nil_append, List.mem_cons, not_or]
      exact ⟨hp c (by simp), fun hm => hZ c hm (by simp)⟩
  | c :: A, h => by
    simp only [containsStr, Bool.or_eq_false_iff] at h
    simp only [List.cons_append, containsStr, Bool.or_eq_false_iff]
    refine ⟨?_, containsStr_space hp hne hZ h.2⟩
    rw [← List.cons_append, prefix_space hp]
    exact h.1

/-- The text of a time of day. -/
inductive IsClockText : List Char → Prop
  | hm1 (a m n : Char) (ha : a.isDigit = true) (hm : m.isDigit = true) (hn : n.isDigit = true) : IsClockText [a, ':', m, n]
  | hm2 (a b m n : Char) (ha : a.isDigit = true) (hb : b.isDigit = true) (hm : m.isDigit = true) (hn : n.isDigit = true) : IsClockText [a, b, ':', m, n]
  | hms1 (a m n s t : Char) (ha : a.isDigit = true) (hm : m.isDigit = true) (hn : n.isDigit = true) (hs : s.isDigit = true) (ht : t.isDigit = true) : IsClockText [a, ':', m, n, ':', s, t]
  | hms2 (a b m n s t : Char) (ha : a.isDigit = true) (hb : b.isDigit = true) (hm : m.isDigit = true) (hn : n.isDigit = true) (hs : s.isDigit = true) (ht : t.isDigit = true) :
      IsClockText [a, b, ':', m, n, ':', s, t]

theorem IsClockText.chars {T : List Char} (h : IsClockText T) : ∀ c ∈ T, c.isDigit = true ∨ c = ':' := by
  intro c hc
  cases h <;> simp only [List.mem_cons, List.not_mem_nil, or_false] at hc
  · rcases hc with rfl | rfl | rfl | rfl <;> simp [*]
  · rcases hc with rfl | rfl | rfl | rfl | rfl <;> simp [*]
  · rcases hc with rfl | rfl | rfl | rfl | rfl | rfl | rfl <;> simp [*]
  · rcases hc with rfl | rfl | rfl | rfl | rfl | rfl | rfl | rfl <;> simp [*]

theorem offset_clock {A T : List Char} (h : IsClockText T) : offsetEnd (A ++ ' ' :: T) = false := by
  have hd : (':' : Char).isDigit = false := by decide
  have hs : (' ' : Char).isDigit = false := by decide
  unfold offsetEnd
  cases h <;> simp [hd, hs]

theorem zone_clock {A T : List Char} (h : IsClockText T) (hA : mayHaveZone A = false) : mayHaveZone (A ++ ' ' :: T) = false := by
  have hd : ∀ c ∈ T, c.isAlpha = false := by
    intro c hc
    rcases h.chars c hc with h | rfl
    · exact isAlpha_digit h
    · decide
  unfold mayHaveZone at hA ⊢
  simp only [Bool.or_eq_false_iff] at hA ⊢
  obtain ⟨⟨⟨h1, h2⟩, h3⟩, h4⟩ := hA
  have key : ∀ p : List Char, (∀ c ∈ p, c.isAlpha = true) → ∀ c ∈ T, c ∉ p := fun p hp c hc hm => by
    have := hp c hm
    rw [hd c hc] at this; cases this
  exact ⟨⟨⟨nameIn_space (List.all_eq_true.mpr fun c hc => by rw [hd c hc]; rfl) h1,
    containsStr_space (by decide) (by decide) (key _ (by decide)) h2⟩,
    containsStr_space (by decide) (by decide) (key _ (by decide)) h3⟩, offset_clock h⟩

/-- The texts of times of day, the digits as zeros. -/
def clockZeros : List (List Char) := ["0:00", "00:00", "0:00:00", "00:00:00"].map String.toList

def wordsTimed (f : WordForm) (d : List Char) : Bool :=
  [1, 2, 3, 4, 5, 6, 7, 8, 9, 10, 11, 12].all fun n => clockZeros.all fun z => noAmount (f.writeOut d (englishMonth n) "0000".toList ++ ' ' :: z)

theorem timed_dayFirst : wordsTimed .dayFirst "0".toList = true ∧ wordsTimed .dayFirst "00".toList = true := by decide +kernel
theorem timed_dotted : wordsTimed .dotted "0".toList = true ∧ wordsTimed .dotted "00".toList = true := by decide +kernel
theorem timed_plain : wordsTimed .plain "0".toList = true ∧ wordsTimed .plain "00".toList = true := by decide +kernel
theorem timed_yearFirst : wordsTimed .yearFirst "0".toList = true ∧ wordsTimed .yearFirst "00".toList = true := by decide +kernel

theorem wordForms_timed (f : WordForm) {a : List Char} (h : a = "0".toList ∨ a = "00".toList) : wordsTimed f a = true := by
  rcases h with rfl | rfl <;> cases f
  · exact timed_dayFirst.1
  · exact timed_dotted.1
  · exact timed_plain.1
  · exact timed_plain.1
  · exact timed_yearFirst.1
  · exact timed_dayFirst.2
  · exact timed_dotted.2
  · exact timed_plain.2
  · exact timed_plain.2
  · exact timed_yearFirst.2

theorem zeros_case : ∀ {T : List Char}, (∀ c ∈ T, c.toNat < 128) → Rel2 CaseRel (zeros T) T
  | [], _ => .nil
  | c :: T, h => by
    refine .cons ?_ (zeros_case fun x hx => h x (by simp [hx]))
    have hc := h c (by simp)
    cases hd : c.isDigit with
    | true =>
      show CaseRel (if c.isDigit = true then '0' else c) c
      rw [if_pos hd]; exact ⟨by decide, hc, Or.inl ⟨by decide, hd⟩⟩
    | false =>
      show CaseRel (if c.isDigit = true then '0' else c) c
      rw [if_neg (by simp [hd])]; exact ⟨hc, hc, Or.inr ⟨hd, hd, rfl⟩⟩

theorem zeros_digits : ∀ {T : List Char}, (∀ c ∈ T, c.isDigit = true) → zeros T = List.replicate T.length '0'
  | [], _ => rfl
  | c :: T, h => by
    have := zeros_digits (T := T) fun x hx => h x (by simp [hx])
    unfold zeros at this ⊢
    simp [h c (by simp), this, List.replicate_succ]

theorem zeros_append (a b : List Char) : zeros (a ++ b) = zeros a ++ zeros b := by simp [zeros]
theorem zeros_plain {a : List Char} (h : ∀ c ∈ a, c.isDigit = false) : zeros a = a := by
  unfold zeros
  rw [List.map_congr_left (g := id), List.map_id]
  intro c hc
  simp [h c hc]

theorem zeros_clock {T : List Char} (h : IsClockText T) : zeros T ∈ clockZeros := by
  have hd : (':' : Char).isDigit = false := by decide
  cases h <;> simp [zeros, clockZeros, *]

theorem zeros_writeOut (f : WordForm) {D m Y : List Char} (hm : ∀ c ∈ m, c.isDigit = false) : zeros (f.writeOut D m Y) = f.writeOut (zeros D) m (zeros Y) := by
  have em := zeros_plain hm
  have es : ∀ r, zeros (' ' :: r) = ' ' :: zeros r := fun r => rfl
  have ed : ∀ r, zeros ('.' :: r) = '.' :: zeros r := fun r => rfl
  cases f <;> simp only [WordForm.writeOut, WordForm.write, zeros_append, es, ed, em]

theorem plain_timed {tb : List TzEntry} (htb : IsTable tb) {a : List Char} (h : plainOut a = true) {ds : List Char} (hds : ∀ c ∈ ds, c.isDigit = true) {T : List Char} (hT : IsClockText T)
    (hn : noAmount (zeros (a.map (sub ds) ++ ' ' :: T)) = true) :
    stripBraces (a.map (sub ds) ++ ' ' :: T) = a.map (sub ds) ++ ' ' :: T ∧ popTzOffset tb (a.map (sub ds) ++ ' ' :: T) = (a.map (sub ds) ++ ' ' :: T, none) ∧
      noAmount (a.map (sub ds) ++ ' ' :: T) = true := by
  simp only [plainOut, Bool.and_eq_true, Bool.not_eq_true'] at h
  obtain ⟨⟨⟨⟨h1, h2⟩, h3⟩, h4⟩, _⟩ := h
  have ht := tag_sub hds h1
  have hc : Rel2 CaseRel a (a.map (sub ds)) := ht.mono fun _ _ hxy => hxy.case
  generalize a.map (sub ds) = A at *
  have hTn : ∀ c ∈ ' ' :: T, c.toNat < 128 ∧ foldC c = c ∧ (!(['{', '}', '(', ')', '<', '>', '[', ']'].contains c)) = true := by
    intro c hc
    have hk : ∀ n < 59, n = 32 ∨ 48 ≤ n → foldC (Char.ofNat n) = Char.ofNat n ∧ (!(['{', '}', '(', ')', '<', '>', '[', ']'].contains (Char.ofNat n))) = true := by decide +kernel
    have hr : c.toNat < 59 ∧ (c.toNat = 32 ∨ 48 ≤ c.toNat) := by
      rcases List.mem_cons.mp hc with rfl | hc
      · decide
      · rcases hT.chars c hc with h | rfl
        · have := digit_range h; omega
        · decide
    have := hk c.toNat hr.1 hr.2
    rw [Char.ofNat_toNat] at this
    exact ⟨by omega, this.1, this.2⟩
  have hA : ∀ c ∈ A, c.toNat < 128 := by
    have key : ∀ {a A : List Char}, Rel2 CaseRel a A → ∀ c ∈ A, c.toNat < 128 := by
      intro a A h
      induction h with
      | nil => intro c hc; cases hc
      | cons hxy _ ih =>
        intro c hc
        rcases List.mem_cons.mp hc with rfl | hc
        · exact hxy.right
        · exact ih c hc
    exact key hc
  have hfold := folded_rel (TagRel.digits _) ht h3
  have hz : mayHaveZone A = false := by rw [← mayHaveZone_rel (TagRel.digits _) ht]; exact h4
  refine ⟨strip_noBraces ?_, pop_none htb ?_ (zone_clock hT hz), ?_⟩
  · have hb : noBraces A = true := by rw [← noBraces_rel hc]; exact h2
    unfold noBraces at hb ⊢
    rw [List.all_append, hb, Bool.true_and, List.all_eq_true]
    exact fun c hc => (hTn c hc).2.2
  · intro c hc
    rcases List.mem_append.mp hc with hc | hc
    · exact hfold c hc
    · exact (hTn c hc).2.1
  · rw [← noAmount_rel (zeros_case fun c hc => ?_)]
    · exact hn
    · rcases List.mem_append.mp hc with hc | hc
      · exact hA c hc
      · exact (hTn c hc).1

end Verif.Lemmas
