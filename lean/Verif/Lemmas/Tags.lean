import Verif.Lemmas.WholeParse
/-!
Helper lemmas: texts given by a text whose digits stand for others.
-/
set_option autoImplicit false
namespace Verif.Lemmas
open Verif.Go Verif.Model Verif.Data Verif.Spec

/-- The digit `i` stands for the `i`th element of the list. -/
def sub (ds : List Char) (c : Char) : Char := if c.isDigit then ds.getD (c.toNat - 48) '0' else c

/-- Digits of two texts, of which the first stands for something unless it is 0. -/
def sub2 (ds es : List Char) (x y : Char) : Char := if x.isDigit && x != '0' then sub ds x else sub es y

def isAscii (s : List Char) : Bool := s.all fun c => decide (c.toNat < 128)

theorem isAscii_mem {s : List Char} (h : isAscii s = true) : ∀ c ∈ s, c.toNat < 128 := by
  intro c hc
  simpa using List.all_eq_true.mp h c hc

theorem sub_digit {ds : List Char} (h : ∀ c ∈ ds, c.isDigit = true) {c : Char} (hc : c.isDigit = true) : (sub ds c).isDigit = true := by
  unfold sub
  rw [if_pos hc, List.getD_eq_getElem?_getD]
  cases e : ds[c.toNat - 48]? with
  | none => rfl
  | some x => exact h x (List.mem_of_getElem? e)

theorem tag_sub {ds : List Char} (h : ∀ c ∈ ds, c.isDigit = true) : ∀ {a : List Char}, isAscii a = true →
    Rel2 (TagRel fun x y => y = sub ds x) a (a.map (sub ds))
  | [], _ => .nil
  | c :: a, ha => by
    simp only [isAscii, List.all_cons, Bool.and_eq_true, decide_eq_true_eq] at ha
    refine .cons ⟨ha.1, ?_⟩ (tag_sub h ha.2)
    cases e : c.isDigit with
    | true => exact Or.inl ⟨rfl, sub_digit h e, rfl⟩
    | false => exact Or.inr ⟨rfl, by unfold sub; rw [if_neg (by simp [e])]⟩

theorem of_tag_sub {ds : List Char} {a t : List Char} (h : Rel2 (TagRel fun x y => y = sub ds x) a t) : t = a.map (sub ds) := by
  induction h with
  | nil => rfl
  | cons h _ ih =>
    rw [List.map_cons, ih]
    congr 1
    rcases h.same with ⟨_, _, h⟩ | ⟨h, h'⟩
    · exact h
    · rw [h']; unfold sub; rw [if_neg (by simp [h])]

/-- A text with no amount of time that passes, in a language. -/
def passesDateIn (d : LangData) (a a' : List Char) : Bool := isAscii a && passes d [['t']] a a' && noAmount a'
/-- … in English. -/
abbrev passesDate (a a' : List Char) : Bool := passesDateIn enData a a'

theorem en_uniform : LangData.uniform enData = true := by decide +kernel
theorem en_ascii : LangData.ascii enData = true := by decide +kernel

theorem passes_sub {E : Env} (hE : Sound E) {ds : List Char} (hds : ∀ c ∈ ds, c.isDigit = true) {a a' : List Char} (ha : isAscii a = true)
    (hp : passes enData [['t']] a a' = true) {s : List Char} (hs : ∀ c ∈ s, c.toNat < 128) (h : toLower s = a.map (sub ds)) :
    Passed E.uni E.table (enData.lang E.uni) [['t']] s (a'.map (sub ds)) := by
  obtain ⟨t, ht, hpass⟩ := passes_all hE.uni hE.table en_uniform en_ascii (by decide +kernel) hp hs (by rw [h]; exact tag_sub hds ha)
  rw [← of_tag_sub ht]
  exact hpass

theorem date_sub_in {E : Env} (hE : Surroundings E) {d : LangData} (hu : LangData.uniform d = true) (hda : LangData.ascii d = true)
    {ds : List Char} (hds : ∀ c ∈ ds, c.isDigit = true) {a a' : List Char}
    (hp : passesDateIn d a a' = true) {s : List Char} (hs : ∀ c ∈ s, c.toNat < 128) (h : toLower s = a.map (sub ds)) :
    Passed E.uni E.table (d.lang E.uni) [['t']] s (a'.map (sub ds)) ∧ noAmount (a'.map (sub ds)) = true := by
  simp only [passesDateIn, Bool.and_eq_true] at hp
  obtain ⟨t, ht, hpass⟩ := passes_all hE.uni hE.table hu hda (by decide +kernel) hp.1.2 hs (by rw [h]; exact tag_sub hds hp.1.1)
  have hn := noAmount_rel (ht.mono fun _ _ hxy => hxy.case)
  rw [hp.2, of_tag_sub ht] at hn
  rw [of_tag_sub ht] at hpass
  exact ⟨hpass, hn.symm⟩

theorem date_sub {E : Env} (hE : Sound E) {ds : List Char} (hds : ∀ c ∈ ds, c.isDigit = true) {a a' : List Char}
    (hp : passesDate a a' = true) {s : List Char} (hs : ∀ c ∈ s, c.toNat < 128) (h : toLower s = a.map (sub ds)) :
    Passed E.uni E.table (enData.lang E.uni) [['t']] s (a'.map (sub ds)) ∧ noAmount (a'.map (sub ds)) = true :=
  date_sub_in hE.toSurroundings en_uniform en_ascii hds hp hs h

/-! ## More than nine digits -/

/-- Two texts that differ in their digits only, and of two digits exactly one is not 0. -/
def covers : List Char → List Char → Bool
  | [], [] => true
  | x :: a, y :: b => (if x.isDigit then y.isDigit && ((x == '0') != (y == '0')) else x == y) && covers a b
  | _, _ => false

/-- 0 stands for any digit. -/
def wild (ds : List Char) (x y : Char) : Prop := x = '0' ∨ y = sub ds x

theorem sub_other {ds : List Char} {c : Char} (h : c.isDigit = false) : sub ds c = c := by unfold sub; rw [if_neg (by simp [h])]

theorem tag_sub2 {ds es : List Char} (hd : ∀ c ∈ ds, c.isDigit = true) (he : ∀ c ∈ es, c.isDigit = true) :
    ∀ {a b : List Char}, isAscii a = true → covers a b = true →
      Rel2 (TagRel (wild ds)) a (List.zipWith (sub2 ds es) a b) ∧ Rel2 (TagRel (wild es)) b (List.zipWith (sub2 ds es) a b)
  | [], [], _, _ => ⟨.nil, .nil⟩
  | [], _ :: _, _, h => by simp [covers] at h
  | _ :: _, [], _, h => by simp [covers] at h
  | x :: a, y :: b, ha, h => by
    simp only [isAscii, List.all_cons, Bool.and_eq_true, decide_eq_true_eq] at ha
    unfold covers at h
    rw [Bool.and_eq_true] at h
    have ih := tag_sub2 hd he (a := a) (b := b) ha.2 h.2
    have key : TagRel (wild ds) x (sub2 ds es x y) ∧ TagRel (wild es) y (sub2 ds es x y) := by
      have h1 := h.1
      unfold sub2
      cases hx : x.isDigit with
      | false =>
        rw [hx] at h1
        simp only [Bool.false_eq_true, if_false, beq_iff_eq] at h1
        subst h1
        simp only [Bool.false_and, Bool.false_eq_true, if_false, sub_other hx]
        exact ⟨tag_self ha.1 hx, tag_self ha.1 hx⟩
      | true =>
        rw [hx] at h1
        simp only [if_true, Bool.and_eq_true] at h1
        obtain ⟨hy, h1⟩ := h1
        have hya : y.toNat < 128 := by have := digit_range hy; omega
        cases hx0 : x == '0' with
        | true =>
          simp only [bne, hx0, Bool.not_true, Bool.and_false, Bool.false_eq_true, if_false]
          exact ⟨⟨ha.1, Or.inl ⟨hx, sub_digit he hy, Or.inl (by simpa using hx0)⟩⟩, ⟨hya, Or.inl ⟨hy, sub_digit he hy, Or.inr rfl⟩⟩⟩
        | false =>
          have hy0 : y = '0' := by
            rw [hx0] at h1
            cases hb : y == '0' with
            | true => simpa using hb
            | false => rw [hb] at h1; simp at h1
          simp only [bne, hx0, Bool.not_false, Bool.and_true, if_true]
          exact ⟨⟨ha.1, Or.inl ⟨hx, sub_digit hd hx, Or.inr rfl⟩⟩, ⟨hya, Or.inl ⟨hy, sub_digit hd hx, Or.inl hy0⟩⟩⟩
    exact ⟨.cons key.1 ih.1, .cons key.2 ih.2⟩

theorem of_tag_sub2 {ds es : List Char} : ∀ {a b t : List Char}, covers a b = true → Rel2 (TagRel (wild ds)) a t → Rel2 (TagRel (wild es)) b t →
    t = List.zipWith (sub2 ds es) a b
  | [], [], _, _, .nil, _ => rfl
  | [], _ :: _, _, h, _, _ => by simp [covers] at h
  | _ :: _, [], _, h, _, _ => by simp [covers] at h
  | x :: a, y :: b, t, h, h1, h2 => by
    cases h1 with
    | @cons _ z _ r h1 h1' =>
      cases h2 with
      | cons h2 h2' =>
        unfold covers at h
        rw [Bool.and_eq_true] at h
        rw [List.zipWith_cons_cons, ← of_tag_sub2 h.2 h1' h2']
        congr 1
        have h3 := h.1
        unfold sub2
        rcases h1.same with ⟨hx, hz, hg⟩ | ⟨hx, hz⟩
        · rw [hx] at h3
          simp only [if_true, Bool.and_eq_true] at h3
          obtain ⟨hy, h3⟩ := h3
          rcases hg with hg | hg
          · subst hg
            simp only [hx, Bool.true_and, bne_self_eq_false, Bool.false_eq_true, if_false]
            have hy0 : y ≠ '0' := by
              intro e; subst e; simp at h3
            rcases h2.same with ⟨_, _, h4⟩ | ⟨h4, _⟩
            · rcases h4 with h4 | h4
              · exact absurd h4 hy0
              · exact h4
            · rw [hy] at h4; simp at h4
          · by_cases hx0 : x = '0'
            · subst hx0
              simp only [hx, Bool.true_and, bne_self_eq_false, Bool.false_eq_true, if_false]
              have hy0 : y ≠ '0' := by
                intro e; subst e; simp at h3
              rcases h2.same with ⟨_, _, h4⟩ | ⟨h4, _⟩
              · rcases h4 with h4 | h4
                · exact absurd h4 hy0
                · exact h4
              · rw [hy] at h4; simp at h4
            · rw [if_pos (by simp [hx, hx0])]
              exact hg
        · rw [hx] at h3
          simp only [Bool.false_eq_true, if_false, beq_iff_eq] at h3
          subst h3
          rw [hz]
          simp [hx, sub_other hx]

/-- Two texts that pass, together giving all digits. -/
theorem date_sub2 {E : Env} (hE : Sound E) {ds es : List Char} (hds : ∀ c ∈ ds, c.isDigit = true) (hes : ∀ c ∈ es, c.isDigit = true)
    {a b a' b' : List Char} (hp : passesDate a a' = true) (hq : passesDate b b' = true) (hc : covers a b = true) (hc' : covers a' b' = true)
    {s : List Char} (hs : ∀ c ∈ s, c.toNat < 128) (h : toLower s = List.zipWith (sub2 ds es) a b) :
    Passed E.uni E.table (enData.lang E.uni) [['t']] s (List.zipWith (sub2 ds es) a' b') ∧ noAmount (List.zipWith (sub2 ds es) a' b') = true := by
  simp only [passesDateIn, Bool.and_eq_true] at hp hq
  have hr := tag_sub2 hds hes hp.1.1 hc
  rw [← h] at hr
  obtain ⟨t, ht, hpass⟩ := passes_all hE.uni hE.table en_uniform en_ascii (by decide +kernel) hp.1.2 hs hr.1
  obtain ⟨u, hu, hpass'⟩ := passes_all hE.uni hE.table en_uniform en_ascii (by decide +kernel) hq.1.2 hs hr.2
  have : t = u := by
    have h1 := hpass.translate
    rw [hpass'.translate] at h1
    simp only [Option.some.injEq, List.cons.injEq, and_true] at h1
    exact h1.symm
  subst this
  have e := of_tag_sub2 hc' ht hu
  have hn := noAmount_rel (ht.mono fun _ _ hxy => hxy.case)
  rw [hp.2] at hn
  rw [← e]
  exact ⟨hpass, hn.symm⟩

/-- Two texts that reach the individual parsers, together giving all digits. -/
theorem reach_sub2 {E : Env} (hE : Sound E) {ds es : List Char} (hds : ∀ c ∈ ds, c.isDigit = true) (hes : ∀ c ∈ es, c.isDigit = true)
    {a b a' b' : List Char} (ha : isAscii a = true) (hp : reachesWith [] enData [['t']] a a' = true)
    (hq : reachesWith [] enData [['t']] b b' = true) (hc : covers a b = true) (hc' : covers a' b' = true)
    {s : List Char} (hs : ∀ c ∈ s, c.toNat < 128) (h : toLower s = List.zipWith (sub2 ds es) a b) :
    Reached E.uni (enData.lang E.uni) [['t']] s (List.zipWith (sub2 ds es) a' b') ∧
      Rel2 (TagRel (wild ds)) a' (List.zipWith (sub2 ds es) a' b') := by
  have hr := tag_sub2 hds hes ha hc
  rw [← h] at hr
  obtain ⟨t, ht, hpass⟩ := reachesWith_all hE.uni en_uniform en_ascii (by decide +kernel) (fun c hc => by cases hc) hp hs hr.1
  obtain ⟨u, hu, hpass'⟩ := reachesWith_all hE.uni en_uniform en_ascii (by decide +kernel) (fun c hc => by cases hc) hq hs hr.2
  have : t = u := by
    have h1 := hpass.translate
    rw [hpass'.translate] at h1
    simp only [Option.some.injEq, List.cons.injEq, and_true] at h1
    exact h1.symm
  subst this
  have e := of_tag_sub2 hc' ht hu
  rw [← e]
  exact ⟨hpass, ht⟩

end Verif.Lemmas
