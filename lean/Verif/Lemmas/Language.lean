import Verif.Spec.Language
import Verif.Lemmas.Fields
import Verif.Lemmas.Rx
import Verif.Lemmas.Search
import Verif.Props.Permutation
/-! # Sentences, chunks -/
set_option autoImplicit false
namespace Verif.Lemmas
open Verif.Go Verif.Model Verif.Spec

/-! ## What patterns consume -/

/-- All characters a pattern can consume satisfy `p`, and it captures nothing. -/
def RxOnly (p : Char → Prop) : Rx → Prop
  | .chr q => ∀ c, q c = true → p c
  | .seq a b => RxOnly p a ∧ RxOnly p b
  | .alt a b => RxOnly p a ∧ RxOnly p b
  | .opt a => RxOnly p a
  | .star a => RxOnly p a
  | .grp _ _ => False
  | _ => True

theorem starRun_only {p : Char → Prop} {f : MSt → List MSt}
    (hf : ∀ s t, t ∈ f s → ∃ w, s.rest = w ++ t.rest ∧ (∀ c ∈ w, p c) ∧ t.caps = s.caps) :
    ∀ (n : Nat) (s t : MSt), t ∈ starRun f n s → ∃ w, s.rest = w ++ t.rest ∧ (∀ c ∈ w, p c) ∧ t.caps = s.caps := by
  intro n
  induction n with
  | zero => intro s t h; simp [starRun] at h; subst h; exact ⟨[], rfl, by simp, rfl⟩
  | succ n ih =>
    intro s t h
    simp only [starRun, List.mem_append, List.mem_flatMap, List.mem_filter, List.mem_singleton] at h
    rcases h with ⟨u, ⟨hu, _⟩, h2⟩ | h
    · obtain ⟨w1, e1, p1, c1⟩ := hf s u hu
      obtain ⟨w2, e2, p2, c2⟩ := ih u t h2
      refine ⟨w1 ++ w2, by rw [e1, e2, List.append_assoc], ?_, by rw [c2, c1]⟩
      intro c hc
      rcases List.mem_append.mp hc with h | h
      · exact p1 c h
      · exact p2 c h
    · subst h; exact ⟨[], rfl, by simp, rfl⟩

theorem run_only {p : Char → Prop} : ∀ (r : Rx), RxOnly p r → ∀ (s t : MSt), t ∈ r.run s →
    ∃ w, s.rest = w ++ t.rest ∧ (∀ c ∈ w, p c) ∧ t.caps = s.caps := by
  intro r
  have same : ∀ (s : MSt), ∃ w : List Char, s.rest = w ++ s.rest ∧ (∀ c ∈ w, p c) ∧ s.caps = s.caps := fun s =>
    ⟨[], rfl, by simp, rfl⟩
  induction r with
  | eps => intro _ s t h; simp [Rx.run] at h; subst h; exact same _
  | chr q =>
    intro hq s t h
    unfold Rx.run at h
    split at h
    · rename_i c r hr
      split at h
      · rename_i hc
        simp at h; subst h
        exact ⟨[c], by simp [hr], by intro d hd; simp at hd; subst hd; exact hq _ hc, rfl⟩
      · simp at h
    · simp at h
  | seq a b iha ihb =>
    intro hq s t h
    simp only [Rx.run, List.mem_flatMap] at h
    obtain ⟨u, hu, h2⟩ := h
    obtain ⟨w1, e1, p1, c1⟩ := iha hq.1 s u hu
    obtain ⟨w2, e2, p2, c2⟩ := ihb hq.2 u t h2
    refine ⟨w1 ++ w2, by rw [e1, e2, List.append_assoc], ?_, by rw [c2, c1]⟩
    intro c hc
    rcases List.mem_append.mp hc with h | h
    · exact p1 c h
    · exact p2 c h
  | alt a b iha ihb =>
    intro hq s t h
    simp only [Rx.run, List.mem_append] at h
    rcases h with h | h
    · exact iha hq.1 s t h
    · exact ihb hq.2 s t h
  | opt a iha =>
    intro hq s t h
    simp only [Rx.run, List.mem_append, List.mem_singleton] at h
    rcases h with h | h
    · exact iha hq s t h
    · subst h; exact same _
  | star a iha =>
    intro hq s t h
    exact starRun_only (iha hq) _ s t h
  | grp n a iha => intro hq; exact absurd hq (by simp [RxOnly])
  | bos => intro _ s t h; unfold Rx.run at h; split at h <;> simp at h; subst h; exact same _
  | eos => intro _ s t h; unfold Rx.run at h; split at h <;> simp at h; subst h; exact same _
  | wb => intro _ s t h; unfold Rx.run at h; split at h <;> simp at h; subst h; exact same _

/-- What a match found looks like when every way to match looks like that. -/
theorem find_shape {r : Rx} {Q : List Char → List Char → Prop}
    (hq : ∀ s t, s.caps = [] → t ∈ r.run s → ∃ w x, s.rest = w ++ x ++ t.rest ∧ (t.caps.find? (·.1 == 1)).map (·.2) = some w ∧ Q w x) :
    ∀ (s : List Char) (p : Option Char) (m : RxMatch), r.find p s = some m →
      ∃ w x, m.text = w ++ x ∧ (m.after.caps.find? (·.1 == 1)).map (·.2) = some w ∧ Q w x := by
  intro s
  induction s with
  | nil =>
    intro p m h
    unfold Rx.find at h
    split at h
    · rename_i t l e
      injection h with h; subst h
      obtain ⟨w, x, e1, e2, e3⟩ := hq ⟨p, [], []⟩ t rfl (by rw [e]; simp)
      dsimp only at e1
      have : w = [] ∧ x = [] := by
        have := congrArg List.length e1
        simp at this
        exact ⟨List.eq_nil_of_length_eq_zero (by omega), List.eq_nil_of_length_eq_zero (by omega)⟩
      exact ⟨w, x, by simp [this.1, this.2], e2, e3⟩
    · simp at h
  | cons c cs ih =>
    intro p m h
    unfold Rx.find at h
    split at h
    · rename_i t l e
      injection h with h; subst h
      obtain ⟨w, x, e1, e2, e3⟩ := hq ⟨p, c :: cs, []⟩ t rfl (by rw [e]; simp)
      refine ⟨w, x, ?_, e2, e3⟩
      dsimp only at e1 ⊢
      have hl : (c :: cs).length - t.rest.length = (w ++ x).length := by rw [e1, List.length_append]; omega
      rw [hl, e1, List.take_left]
    · cases hf : r.find (some c) cs with
      | none => simp [hf] at h
      | some m' =>
        simp [hf] at h; subst h
        exact ih _ m' hf

theorem findAllFuel_shape {r : Rx} {Q : List Char → List Char → Prop}
    (hq : ∀ s t, s.caps = [] → t ∈ r.run s → ∃ w x, s.rest = w ++ x ++ t.rest ∧ (t.caps.find? (·.1 == 1)).map (·.2) = some w ∧ Q w x) :
    ∀ (n : Nat) (p : Option Char) (s : List Char),
      s = (r.findAllFuel n p s).1.flatMap (fun m => m.before ++ m.text) ++ (r.findAllFuel n p s).2 ∧
      ∀ m ∈ (r.findAllFuel n p s).1, ∃ w x, m.text = w ++ x ∧ (m.after.caps.find? (·.1 == 1)).map (·.2) = some w ∧ Q w x := by
  intro n
  induction n with
  | zero => intro p s; simp [Rx.findAllFuel]
  | succ n ih =>
    intro p s
    unfold Rx.findAllFuel
    cases hf : r.find p s with
    | none => simp
    | some m =>
      dsimp only
      split
      · simp
      · obtain ⟨i1, i2⟩ := ih m.after.prev m.after.rest
        constructor
        · rw [List.flatMap_cons, List.append_assoc, ← i1]
          exact find_split s p m hf
        · intro m' hm
          rcases List.mem_cons.mp hm with rfl | hm
          · exact find_shape hq s p _ hf
          · exact i2 m' hm

/-! ## Sentences -/

theorem trimSpace_decomp (s : List Char) : ∃ a b, s = a ++ trimSpace s ++ b ∧ (∀ c ∈ a, isSpace c = true) ∧ ∀ c ∈ b, isSpace c = true := by
  unfold trimSpace
  obtain ⟨a, ha, pa⟩ := dropWhile_decomp isSpace s
  obtain ⟨b, hb, pb⟩ := dropWhile_decomp isSpace (s.dropWhile isSpace).reverse
  refine ⟨a, b.reverse, ?_, pa, by intro c hc; exact pb c (by simpa using hc)⟩
  have : s.dropWhile isSpace = ((s.dropWhile isSpace).reverse.dropWhile isSpace).reverse ++ b.reverse := by
    rw [← List.reverse_append, ← hb, List.reverse_reverse]
  conv => lhs; rw [ha, this]
  simp

theorem _root_.Verif.Spec.Sentences.gap_append {gap : Char → Prop} {l : List (List Char)} {t g : List Char} (hg : ∀ c ∈ g, gap c)
    (h : Sentences gap l t) : Sentences gap l (g ++ t) := by
  cases h with
  | nil g' h' =>
    refine .nil _ ?_
    intro c hc
    rcases List.mem_append.mp hc with h | h
    · exact hg c h
    · exact h' c h
  | cons g' s l t h' r =>
    have := Sentences.cons (gap := gap) (g ++ g') s l t (by
      intro c hc
      rcases List.mem_append.mp hc with h | h
      · exact hg c h
      · exact h' c h) r
    simpa [List.append_assoc] using this

theorem _root_.Verif.Spec.Sentences.one {gap : Char → Prop} (hsp : ∀ c, isSpace c = true → gap c) (s : List Char) {l : List (List Char)} {t : List Char}
    (h : Sentences gap l t) : Sentences gap (if (trimSpace s).isEmpty then l else trimSpace s :: l) (s ++ t) := by
  obtain ⟨a, b, e, ha, hb⟩ := trimSpace_decomp s
  split
  · rename_i he
    have he : trimSpace s = [] := by simpa using he
    rw [he, List.append_nil] at e
    refine h.gap_append ?_
    rw [e]
    intro c hc
    rcases List.mem_append.mp hc with h | h
    · exact hsp c (ha c h)
    · exact hsp c (hb c h)
  · have hbt : Sentences gap l (b ++ t) := h.gap_append fun c hc => hsp c (hb c hc)
    have := Sentences.cons a (trimSpace s) l (b ++ t) (fun c hc => hsp c (ha c hc)) hbt
    conv => arg 3; rw [e]
    simpa [List.append_assoc] using this

theorem sentenceLoop_spec (U : Uni) (L : Lang) {gap : Char → Prop} (hsp : ∀ c, isSpace c = true → gap c) : ∀ (ms : List RxMatch) (acc last : List Char),
    (∀ m ∈ ms, ∃ w x, m.text = w ++ x ∧ (m.after.caps.find? (·.1 == 1)).map (·.2) = some w ∧ ∀ c ∈ x, gap c) →
    ∃ l, sentenceLoop U L acc ms last = some l ∧ Sentences gap l (acc ++ ms.flatMap (fun m => m.before ++ m.text) ++ last) := by
  intro ms
  induction ms with
  | nil =>
    intro acc last _
    refine ⟨_, rfl, ?_⟩
    have := Sentences.one hsp (acc ++ last) (Sentences.nil (gap := gap) [] (by simp))
    simpa using this
  | cons m rest ih =>
    intro acc last h
    obtain ⟨w, x, e1, e2, e3⟩ := h m (by simp)
    unfold sentenceLoop
    rw [e2]
    dsimp only
    split
    · obtain ⟨l, h1, h2⟩ := ih (acc ++ m.before ++ m.text) last fun m' hm => h m' (by simp [hm])
      exact ⟨l, h1, by simpa [List.append_assoc] using h2⟩
    · obtain ⟨l, h1, h2⟩ := ih [] last fun m' hm => h m' (by simp [hm])
      rw [h1]
      refine ⟨_, rfl, ?_⟩
      have := Sentences.one hsp (acc ++ m.before ++ w) (h2.gap_append e3)
      simpa [e1, List.append_assoc] using this

theorem rxOnly_space (cs : List Char) : RxOnly (fun c => isSpace c = true ∨ c ∈ cs) Rx.space := fun _ h => Or.inl (isSpace_of_rx h)
theorem rxOnly_gap (cs : List Char) : RxOnly (fun c => isSpace c = true ∨ c ∈ cs) rxGap := ⟨rxOnly_space cs, trivial⟩
theorem rxOnly_term (cs : List Char) : RxOnly (fun c => isSpace c = true ∨ c ∈ cs) (rxTerm cs) :=
  ⟨fun _ h => Or.inr (by simpa using h), fun _ h => Or.inr (by simpa using h)⟩

/-- The patterns of all groups but the Spanish one: group 1, then characters between sentences. -/
theorem endWord_shape {p : Char → Prop} (r : Rx) (hr : RxOnly p r) (s t : MSt) (hc : s.caps = []) (h : t ∈ (Rx.seq rxEndWord r).run s) :
    ∃ w x, s.rest = w ++ x ++ t.rest ∧ (t.caps.find? (·.1 == 1)).map (·.2) = some w ∧ ∀ c ∈ x, p c := by
  rw [Rx.run, List.mem_flatMap] at h
  obtain ⟨u, hu, ht⟩ := h
  unfold rxEndWord at hu
  rw [Rx.run, List.mem_map] at hu
  obtain ⟨v, hv, rfl⟩ := hu
  obtain ⟨w, e1, _, _⟩ := run_only (p := fun _ => True) (Rx.star (.chr fun c => !isRxSpace c && c != '.')) (fun _ _ => trivial) s v hv
  obtain ⟨x, e2, e3, e4⟩ := run_only r hr _ t ht
  dsimp only at e2 e4
  refine ⟨w, x, by rw [e1, e2, List.append_assoc], ?_, e3⟩
  rw [e4, e1]
  simp

theorem sentence_shape {g : Nat} (hg : g ≠ 2) (s t : MSt) (hc : s.caps = []) (h : t ∈ (sentenceRx g).run s) :
    ∃ w x, s.rest = w ++ x ++ t.rest ∧ (t.caps.find? (·.1 == 1)).map (·.2) = some w ∧ ∀ c ∈ x, isSpace c = true ∨ c ∈ terminators g := by
  unfold sentenceRx at h
  unfold terminators
  split at h
  · exact absurd rfl hg
  all_goals
    refine endWord_shape _ ?_ s t hc h
    first
      | exact ⟨rxOnly_term _, ⟨rxOnly_gap _, rxOnly_gap _⟩, trivial⟩
      | exact ⟨rxOnly_term _, rxOnly_gap _, trivial⟩
      | exact ⟨rxOnly_term _, trivial⟩
      | (split <;> first | (exfalso; simp_all; done) | exact ⟨rxOnly_term _, rxOnly_gap _, trivial⟩)

theorem splitSentence_spec (U : Uni) (L : Lang) (str : List Char) (hg : L.splitterGroup ≠ 2) :
    ∃ l, splitSentence U L str = some l ∧
      Sentences (fun c => isSpace c = true ∨ c ∈ terminators (if L.splitterGroup < 1 ∨ L.splitterGroup > 6 then 1 else L.splitterGroup)) l str := by
  unfold splitSentence
  generalize hgg : (if L.splitterGroup < 1 ∨ L.splitterGroup > 6 then 1 else L.splitterGroup) = g
  have hg2 : g ≠ 2 := by rw [← hgg]; split <;> omega
  obtain ⟨e1, e2⟩ := findAllFuel_shape (r := sentenceRx g) (Q := fun _ x => ∀ c ∈ x, isSpace c = true ∨ c ∈ terminators g)
    (fun s t hc h => sentence_shape hg2 s t hc h) (str.length + 1) none str
  obtain ⟨l, h1, h2⟩ := sentenceLoop_spec U L (gap := fun c => isSpace c = true ∨ c ∈ terminators g) (fun _ h => Or.inl h)
    ((sentenceRx g).findAll str).1 [] ((sentenceRx g).findAll str).2 e2
  refine ⟨l, h1, ?_⟩
  have : str = [] ++ ((sentenceRx g).findAll str).1.flatMap (fun m => m.before ++ m.text) ++ ((sentenceRx g).findAll str).2 := e1
  rw [this]; exact h2

/-! ## Spanish sentences -/

/-- What the matches look like when every way to match looks like that. -/
theorem findAllFuel_all {r : Rx} {P : List Char → List (Nat × List Char) → Prop}
    (hq : ∀ s t, s.caps = [] → t ∈ r.run s → ∃ w, s.rest = w ++ t.rest ∧ P w t.caps) :
    ∀ (n : Nat) (p : Option Char) (s : List Char),
      s = (r.findAllFuel n p s).1.flatMap (fun m => m.before ++ m.text) ++ (r.findAllFuel n p s).2 ∧
      ∀ m ∈ (r.findAllFuel n p s).1, P m.text m.after.caps := by
  have one : ∀ (s : List Char) (p : Option Char) (m : RxMatch), r.find p s = some m → P m.text m.after.caps := by
    intro s
    induction s with
    | nil =>
      intro p m h
      unfold Rx.find at h
      split at h
      · rename_i t l e
        injection h with h; subst h
        obtain ⟨w, e1, e2⟩ := hq ⟨p, [], []⟩ t rfl (by rw [e]; simp)
        have : w = [] := by
          have := congrArg List.length e1
          simp at this
          exact List.eq_nil_of_length_eq_zero (by omega)
        subst this
        exact e2
      · simp at h
    | cons c cs ih =>
      intro p m h
      unfold Rx.find at h
      split at h
      · rename_i t l e
        injection h with h; subst h
        obtain ⟨w, e1, e2⟩ := hq ⟨p, c :: cs, []⟩ t rfl (by rw [e]; simp)
        dsimp only at e1 ⊢
        have hl : (c :: cs).length - t.rest.length = w.length := by rw [e1, List.length_append]; omega
        rw [hl, e1, List.take_left]
        exact e2
      · cases hf : r.find (some c) cs with
        | none => simp [hf] at h
        | some m' =>
          simp [hf] at h; subst h
          exact ih _ m' hf
  intro n
  induction n with
  | zero => intro p s; simp [Rx.findAllFuel]
  | succ n ih =>
    intro p s
    unfold Rx.findAllFuel
    cases hf : r.find p s with
    | none => simp
    | some m =>
      dsimp only
      split
      · simp
      · obtain ⟨i1, i2⟩ := ih m.after.prev m.after.rest
        constructor
        · rw [List.flatMap_cons, List.append_assoc, ← i1]
          exact find_split s p m hf
        · intro m' hm
          rcases List.mem_cons.mp hm with rfl | hm
          · exact one s p _ hf
          · exact i2 m' hm

/-- White space, the end of a sentence, an opening mark. -/
abbrev spanishGap (c : Char) : Prop := isSpace c = true ∨ c ∈ terminators 2 ∨ opening c

theorem spanish_shape (s t : MSt) (hc : s.caps = []) (h : t ∈ (sentenceRx 2).run s) :
    ∃ y, s.rest = y ++ t.rest ∧
      ((∃ w x, y = w ++ x ∧ (t.caps.find? (·.1 == 1)).map (·.2) = some w ∧ ∀ c ∈ x, spanishGap c) ∨
       ((t.caps.find? (·.1 == 1)).map (·.2) = none ∧ ∃ c ∈ y, opening c)) := by
  have ho : RxOnly spanishGap (Rx.chr ['¡', '¿'].contains) := fun c h => Or.inr (Or.inr (by simpa [opening] using h))
  have e0 : sentenceRx 2 = .alt (.seqs [rxEndWord, rxTerm ['.', '!', '?', ';', '…', '\r', '\n'],
      .grp 2 (.alt (.seq (.star .space) (.star (.chr ['¡', '¿'].contains))) .eos)]) (.plus (.chr ['¡', '¿'].contains)) := rfl
  rw [e0, Rx.run, List.mem_append] at h
  rcases h with h | h
  · simp only [Rx.seqs] at h
    rw [Rx.run, List.mem_flatMap] at h
    obtain ⟨u, hu, ht⟩ := h
    rw [Rx.run, List.mem_flatMap] at ht
    obtain ⟨v, hv, ht⟩ := ht
    obtain ⟨u', hu', rfl⟩ : ∃ u', u' ∈ (Rx.star (.chr fun c => !isRxSpace c && c != '.')).run s ∧
        { u' with caps := (1, s.rest.take (s.rest.length - u'.rest.length)) :: u'.caps } = u := by
      unfold rxEndWord at hu
      rw [Rx.run, List.mem_map] at hu
      exact hu
    obtain ⟨w, e1, _, c1⟩ := run_only (p := fun _ => True) (Rx.star (.chr fun c => !isRxSpace c && c != '.')) (fun _ _ => trivial) s u' hu'
    obtain ⟨x, e2, p2, c2⟩ := run_only (p := spanishGap) (rxTerm ['.', '!', '?', ';', '…', '\r', '\n'])
      ⟨fun c h => Or.inr (Or.inl (by simpa [terminators] using h)), fun c h => Or.inr (Or.inl (by simpa [terminators] using h))⟩ _ v hv
    rw [Rx.run, List.mem_flatMap] at ht
    obtain ⟨t', ht', ht⟩ := ht
    rw [Rx.run, List.mem_singleton] at ht
    subst ht
    rw [Rx.run, List.mem_map] at ht'
    obtain ⟨z, hz, rfl⟩ := ht'
    obtain ⟨x', e3, p3, c3⟩ := run_only (p := spanishGap) (.alt (.seq (.star .space) (.star (.chr ['¡', '¿'].contains))) .eos)
      ⟨⟨fun _ h => Or.inl (isSpace_of_rx h), ho⟩, trivial⟩ _ z hz
    dsimp only at e2 e3 c2 c3 ⊢
    refine ⟨w ++ (x ++ x'), by rw [e1, e2, e3]; simp, Or.inl ⟨w, x ++ x', rfl, ?_, ?_⟩⟩
    · rw [c3, c2, e1]
      simp
    · intro c hc
      rcases List.mem_append.mp hc with h | h
      · exact p2 c h
      · exact p3 c h
  · obtain ⟨y, e, p, c⟩ := run_only (p := opening) (Rx.plus (.chr ['¡', '¿'].contains))
      ⟨fun c h => by simpa [opening] using h, fun c h => by simpa [opening] using h⟩ s t h
    refine ⟨y, e, Or.inr ⟨by rw [c, hc]; rfl, ?_⟩⟩
    cases y with
    | cons a y => exact ⟨a, by simp, p a (by simp)⟩
    | nil =>
      exfalso
      unfold Rx.plus at h
      rw [Rx.run, List.mem_flatMap] at h
      obtain ⟨u, hu, ht⟩ := h
      obtain ⟨y2, e2, _, _⟩ := run_only (p := fun _ => True) (Rx.star (.chr ['¡', '¿'].contains)) (fun _ _ => trivial) u t ht
      unfold Rx.run at hu
      split at hu
      · rename_i a r hr
        split at hu
        · simp at hu
          subst hu
          dsimp only at e2
          rw [hr, e2] at e
          have := congrArg List.length e
          simp at this
          omega
        · simp at hu
      · simp at hu

/-- In Spanish: without an opening mark the text is split, and what is split off is no part of a word. -/
theorem splitSentence_spanish (U : Uni) (L : Lang) (str : List Char) (hg : L.splitterGroup = 2) :
    ((∀ c ∈ str, ¬ opening c) → ∃ l, splitSentence U L str = some l) ∧
    ∀ l, splitSentence U L str = some l → Sentences spanishGap l str := by
  unfold splitSentence
  rw [hg]
  obtain ⟨e1, e2⟩ := findAllFuel_all (P := fun y caps => (∃ w x, y = w ++ x ∧ (caps.find? (·.1 == 1)).map (·.2) = some w ∧ ∀ c ∈ x, spanishGap c) ∨
       ((caps.find? (·.1 == 1)).map (·.2) = none ∧ ∃ c ∈ y, opening c)) spanish_shape (str.length + 1) none str
  have hg2 : (if 2 < 1 ∨ 2 > 6 then 1 else 2) = 2 := rfl
  simp only [hg2]
  change str = ((sentenceRx 2).findAll str).1.flatMap (fun m => m.before ++ m.text) ++ ((sentenceRx 2).findAll str).2 at e1
  change ∀ m ∈ ((sentenceRx 2).findAll str).1, _ at e2
  generalize (sentenceRx 2).findAll str = f at e1 e2 ⊢
  obtain ⟨ms, last⟩ := f
  have good : (∀ m ∈ ms, (m.after.caps.find? (·.1 == 1)).map (·.2) ≠ none) → ∃ l, sentenceLoop U L [] ms last = some l ∧ Sentences spanishGap l str := by
    intro h
    obtain ⟨l, h1, h2⟩ := sentenceLoop_spec U L (gap := spanishGap) (fun _ h => Or.inl h) ms [] last (by
      intro m hm
      rcases e2 m hm with h' | ⟨h', _⟩
      · exact h'
      · exact absurd h' (h m hm))
    exact ⟨l, h1, by rw [e1]; exact h2⟩
  constructor
  · intro hno
    obtain ⟨l, h, _⟩ := good (by
      intro m hm hn
      rcases e2 m hm with ⟨w, _, _, h', _⟩ | ⟨_, c, hc, ho⟩
      · rw [h'] at hn; simp at hn
      · refine hno c ?_ ho
        rw [e1]
        exact List.mem_append.mpr (Or.inl (List.mem_flatMap.mpr ⟨m, hm, List.mem_append.mpr (Or.inr hc)⟩)))
    exact ⟨l, h⟩
  · intro l hl
    have all : ∀ (ms : List RxMatch) (acc : List Char) (l : List (List Char)), sentenceLoop U L acc ms last = some l →
        ∀ m ∈ ms, (m.after.caps.find? (·.1 == 1)).map (·.2) ≠ none := by
      intro ms
      induction ms with
      | nil => intro _ _ _ m hm; simp at hm
      | cons m ms ih =>
        intro acc l h m' hm'
        unfold sentenceLoop at h
        cases hm : (m.after.caps.find? (·.1 == 1)).map (·.2) with
        | none => rw [hm] at h; simp at h
        | some w =>
          rcases List.mem_cons.mp hm' with rfl | hm'
          · rw [hm]; simp
          · rw [hm] at h
            dsimp only at h
            split at h
            · exact ih _ _ h m' hm'
            · cases hr : sentenceLoop U L [] ms last with
              | none => rw [hr] at h; simp at h
              | some l' => exact ih _ _ hr m' hm'
    obtain ⟨l', h1, h2⟩ := good (all ms [] l hl)
    rw [h1] at hl
    injection hl with hl
    subst hl
    exact h2

theorem _root_.Verif.Spec.Sentences.infix {gap : Char → Prop} {l : List (List Char)} {t : List Char} (h : Sentences gap l t) : ∀ s ∈ l, s <:+: t := by
  induction h with
  | nil => simp
  | cons g s l t _ _ ih =>
    intro x hx
    rcases List.mem_cons.mp hx with rfl | hx
    · exact ⟨g, t, rfl⟩
    · exact (ih x hx).trans (List.suffix_append _ _).isInfix

end Verif.Lemmas
