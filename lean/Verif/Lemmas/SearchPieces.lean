import Verif.Lemmas.SearchWords
/-! # The chunks of an English text with dates in it -/
set_option autoImplicit false
namespace Verif.Lemmas
open Verif.Go Verif.Model Verif.Spec Verif.Data

variable {U : Uni}

/-! ## Joining words -/

theorem rx_space {c : Char} (h : isSpace c = false) : isRxSpace c = false := by
  cases hc : isRxSpace c with
  | false => rfl
  | true =>
    unfold isRxSpace at hc
    simp only [Bool.or_eq_true, beq_iff_eq] at hc
    rcases hc with (((rfl | rfl) | rfl) | rfl) | rfl <;> exact absurd h (by decide)

theorem collapse_take : ∀ (w s : List Char), (∀ c ∈ w, isSpace c = false) → collapseLoop [] (w ++ s) = w ++ collapseLoop [] s := by
  intro w
  induction w with
  | nil => intros; rfl
  | cons c w ih =>
    intro s h
    rw [List.cons_append, collapseLoop, rx_space (h c (by simp))]
    simp [ih s fun x hx => h x (by simp [hx])]

theorem collapse_join : ∀ (ws : List (List Char)), (∀ w ∈ ws, Word w) → collapseSpaces (joinWith [' '] ws) = joinWith [' '] ws := by
  intro ws
  induction ws with
  | nil => intro _; rfl
  | cons x r ih =>
    intro h
    cases r with
    | nil =>
      have := collapse_take x [] (h x (by simp)).2
      simp only [List.append_nil] at this
      simpa [joinWith, collapseSpaces, collapseLoop] using this
    | cons y r =>
      have e : joinWith [' '] (x :: y :: r) = x ++ ' ' :: joinWith [' '] (y :: r) := by simp [joinWith]
      have hy := h y (by simp)
      have ih := ih fun w hw => h w (by simp [List.mem_cons.mp hw])
      unfold collapseSpaces at ih ⊢
      rw [e, collapse_take x _ (h x (by simp)).2]
      congr 1
      have hhead : ∃ c s, joinWith [' '] (y :: r) = c :: s ∧ isSpace c = false := by
        cases y with
        | nil => exact absurd rfl hy.1
        | cons c y =>
          refine ⟨c, ?_, ?_, hy.2 c (by simp)⟩
          · exact y ++ (match r with | [] => [] | z :: r => ' ' :: joinWith [' '] (z :: r))
          · cases r <;> simp [joinWith]
      obtain ⟨c, s, hcs, hc⟩ := hhead
      rw [hcs] at ih ⊢
      rw [collapseLoop, show isRxSpace ' ' = true by decide]
      rw [collapseLoop, rx_space hc] at ih ⊢
      simp at ih ⊢
      exact ih

theorem join_words {ws : List (List Char)} (h : ∀ w ∈ ws, Word w) : joinChunk (enData.lang U) ws = joinWith [' '] ws := by
  unfold joinChunk
  rw [if_neg (by show ¬ (false = true); simp)]
  exact collapse_join ws h

theorem join_append (a b : List (List Char)) (ha : a ≠ []) (hb : b ≠ []) : joinWith [' '] (a ++ b) = joinWith [' '] a ++ ' ' :: joinWith [' '] b := by
  induction a with
  | nil => exact absurd rfl ha
  | cons x r ih =>
    cases r with
    | nil =>
      cases b with
      | nil => exact absurd rfl hb
      | cons y b => simp [joinWith]
    | cons y r =>
      have := ih (by simp)
      have e : joinWith [' '] (x :: y :: r ++ b) = x ++ ' ' :: joinWith [' '] (y :: r ++ b) := by simp [joinWith]
      have e2 : joinWith [' '] (x :: y :: r) = x ++ ' ' :: joinWith [' '] (y :: r) := by simp [joinWith]
      rw [e, this, e2]; simp

theorem join_join : ∀ (ls : List (List (List Char))), (∀ l ∈ ls, l ≠ []) → joinWith [' '] (ls.map (joinWith [' '])) = joinWith [' '] ls.flatten := by
  intro ls
  induction ls with
  | nil => intro _; rfl
  | cons l ls ih =>
    intro h
    have ih := ih fun x hx => h x (by simp [hx])
    cases ls with
    | nil => simp [joinWith]
    | cons k ls =>
      have hk := h k (by simp)
      rw [List.flatten_cons, join_append l _ (h l (by simp)) (by simp [hk]), ← ih]
      simp [joinWith]

theorem lower_join (ws : List (List Char)) : toLower (joinWith [' '] ws) = joinWith [' '] (ws.map toLower) := by
  induction ws with
  | nil => rfl
  | cons x r ih =>
    cases r with
    | nil => simp [joinWith]
    | cons y r =>
      have e : joinWith [' '] (x :: y :: r) = x ++ ' ' :: joinWith [' '] (y :: r) := by simp [joinWith]
      have e2 : joinWith [' '] ((x :: y :: r).map toLower) = toLower x ++ ' ' :: joinWith [' '] ((y :: r).map toLower) := by simp [joinWith]
      rw [e, e2, ← ih]
      simp [toLower]
      decide

/-! ## Tokens -/

/-- A token that becomes part of a chunk. -/
def kept (o t : List Char) : SearchTok := ⟨o, toLower o, some t⟩

def _root_.Verif.Spec.DatePhrase.toks : DatePhrase → List SearchTok
  | .numeric w sep d m y => [kept (w.write d m y [sep] [sep]) (w.write d m y [sep] [sep])]
  | .named .dayFirst d mon y n => [kept d d, kept mon (fullName n), kept y y]
  | .named .comma d mon y n => [kept mon (fullName n), kept (d ++ [',']) (d ++ [',']), kept y y]
  | .named .plain d mon y n => [kept mon (fullName n), kept d d, kept y y]

def _root_.Verif.Spec.Piece.toks : Piece → List SearchTok
  | .filler w => [⟨w, toLower w, none⟩]
  | .link w => [kept w []]
  | .date x => x.toks

/-- The date with the full name of the month. -/
def _root_.Verif.Spec.DatePhrase.out : DatePhrase → List Char
  | .numeric w sep d m y => w.write d m y [sep] [sep]
  | .named f d _ y n => f.write d (fullName n) y

theorem date_write (x : DatePhrase) : joinWith [' '] (x.toks.map (·.o)) = x.write := by
  cases x with
  | numeric w sep d m y => simp [DatePhrase.toks, kept, joinWith, DatePhrase.write]
  | named f d mon y n => cases f <;> simp [DatePhrase.toks, kept, joinWith, DatePhrase.write, MonthForm.write]

theorem date_out (x : DatePhrase) : joinWith [' '] (x.toks.map fun a => a.t.getD []) = x.out := by
  cases x with
  | numeric w sep d m y => simp [DatePhrase.toks, kept, joinWith, DatePhrase.out]
  | named f d mon y n => cases f <;> simp [DatePhrase.toks, kept, joinWith, DatePhrase.out, MonthForm.write]

theorem piece_write (p : Piece) : joinWith [' '] (p.toks.map (·.o)) = p.write := by
  cases p with
  | filler w => simp [Piece.toks, joinWith, Piece.write]
  | link w => simp [Piece.toks, kept, joinWith, Piece.write]
  | date x => exact date_write x

theorem toks_ne (p : Piece) : p.toks ≠ [] := by
  cases p with
  | filler w => simp [Piece.toks]
  | link w => simp [Piece.toks]
  | date x =>
    cases x with
    | numeric w sep d m y => simp [Piece.toks, DatePhrase.toks]
    | named f d mon y n => cases f <;> simp [Piece.toks, DatePhrase.toks]

theorem pieces_write (ps : List Piece) : joinWith [' '] ((ps.flatMap Piece.toks).map (·.o)) = writePieces ps := by
  unfold writePieces
  have : ps.map Piece.write = (ps.map fun p => p.toks.map (·.o)).map (joinWith [' ']) := by
    simp only [List.map_map]
    exact List.map_congr_left fun p _ => (piece_write p).symm
  rw [this, join_join]
  · congr 1
    rw [List.map_flatMap, List.flatMap_def]
  · intro l hl
    obtain ⟨p, _, rfl⟩ := List.mem_map.mp hl
    simpa using toks_ne p

/-- What each token satisfies. -/
structure GoodTok (U : Uni) (a : SearchTok) : Prop where
  orig : Word a.o
  ascii : ∀ c ∈ a.o, c.toNat < 128
  stops : ∀ c ∈ a.o, c ∉ terminators 1
  low : a.w = toLower a.o
  word : Word a.w
  plain : Unrewritten a.w
  alone : ∀ next, next = [] ∨ Word next → Alone (enData.lang U) a.w next
  fate : match a.t with
    | some t => Kept (enData.lang U) a.w t ∧ (t = [] ∨ (Word t ∧ t ≠ "in".toList))
    | none => Drops (enData.lang U) a.w

theorem num_good {w : List Char} (h : NumWord w) : GoodTok U (kept w w) := by
  have hl : toLower w = w := h.lower
  refine ⟨h.word, fun c hc => (h.char hc).1, fun c hc => (h.char hc).2.2.2.2, rfl, ?_, ?_, ?_, ?_⟩
  · show Word (toLower w); rw [hl]; exact h.word
  · show Unrewritten (toLower w); rw [hl]; exact h.unrewritten
  · intro next hn; show Alone _ (toLower w) next; rw [hl]; exact h.alone hn
  · show Kept _ (toLower w) w ∧ (w = [] ∨ (Word w ∧ w ≠ "in".toList))
    rw [hl]
    refine ⟨h.kept, Or.inr ⟨h.word, ?_⟩⟩
    rintro rfl
    obtain ⟨c, hc, hd⟩ := h.digit
    have : ∀ c ∈ "in".toList, c.isDigit = false := by decide
    rw [this c hc] at hd; simp at hd

theorem lower_good {w t : List Char} (h : LowerWord (toLower w)) (hu : Unrewritten (toLower w))
    (ha : ∀ next, next = [] ∨ Word next → Alone (enData.lang U) (toLower w) next) (hk : Kept (enData.lang U) (toLower w) t)
    (ht : t = [] ∨ (Word t ∧ t ≠ "in".toList)) : GoodTok U (kept w t) := by
  have hb := h.before
  refine ⟨⟨hb.1, fun c hc => (alpha_facts (hb.2 c hc)).2.1⟩, fun c hc => (alpha_facts (hb.2 c hc)).1, fun c hc => (alpha_facts (hb.2 c hc)).2.2.2.2, rfl, h.word, hu, ha, hk, ht⟩

theorem full_names_words : (monthNames.all fun x => !(fullName x.2).isEmpty && ((fullName x.2).all fun c => !isSpace c) && fullName x.2 != "in".toList) = true := by decide +kernel

theorem month_good {mon : List Char} {n : Int} (h : IsMonthName mon n) : GoodTok U (kept mon (fullName n)) := by
  refine lower_good (month_lower h) (month_unrewritten h) (fun _ hn => month_alone h hn) (month_kept h) (Or.inr ?_)
  have := List.all_eq_true.mp full_names_words _ h
  simp only [Bool.and_eq_true, Bool.not_eq_true', List.isEmpty_eq_false_iff, List.all_eq_true, bne_iff_ne] at this
  exact ⟨⟨this.1.1, this.1.2⟩, this.2⟩

theorem link_good {w : List Char} (h : toLower w ∈ linkWords) : GoodTok U (kept w []) :=
  lower_good (link_lower h) (link_unrewritten h) (fun _ hn => link_alone h hn) (link_kept h) (Or.inl rfl)

theorem filler_good {w : List Char} (h : IsFiller w) : GoodTok U ⟨w, toLower w, none⟩ := by
  obtain ⟨pre, core, post, hs⟩ := filler_small h
  have hc : ∀ c ∈ w, c ∈ wordPunctuation ∨ c.isAlpha = true := by
    obtain ⟨pre, core, post, rfl, hp, hne, hc, hv⟩ := h
    intro c hm
    simp only [List.mem_append] at hm
    rcases hm with (hm | hm) | hm
    · exact Or.inl (hp c (by simp [hm]))
    · exact Or.inr (hc c hm)
    · exact Or.inl (hp c (by simp [hm]))
  refine ⟨⟨?_, ?_⟩, ?_, ?_, rfl, hs.word, hs.unrewritten, fun _ hn => hs.alone hn, hs.drops⟩
  · rintro rfl; exact hs.word.1 rfl
  · intro c hm
    rcases hc c hm with h | h
    · exact (punct_facts h).2.1
    · exact (alpha_facts h).2.1
  · intro c hm
    rcases hc c hm with h | h
    · exact (punct_facts h).1
    · exact (alpha_facts h).1
  · intro c hm
    rcases hc c hm with h | h
    · exact (punct_facts h).2.2.2.2.2.1
    · exact (alpha_facts h).2.2.2.2

theorem numeral_word {s : List Char} (h : IsNumeral s) : NumWord s := by
  refine ⟨fun c hc => Or.inl (h.2 c hc), ?_⟩
  obtain ⟨c, hc⟩ := List.exists_mem_of_ne_nil _ h.1
  exact ⟨c, hc, h.2 c hc⟩

theorem numeral_append {s t : List Char} (h : IsNumeral s) (ht : ∀ c ∈ t, c.isDigit = true ∨ c = '/' ∨ c = '-' ∨ c = ',') : NumWord (s ++ t) := by
  obtain ⟨c, hc, hd⟩ := (numeral_word h).digit
  refine ⟨?_, c, by simp [hc], hd⟩
  intro x hx
  rcases List.mem_append.mp hx with hx | hx
  · exact Or.inl (h.2 x hx)
  · exact ht x hx

theorem date_good {x : DatePhrase} (hx : x.Ok) : ∀ a ∈ x.toks, GoodTok U a := by
  have hf := hx.form
  cases x with
  | numeric w sep d m y =>
    obtain ⟨_, hsep, hd, hm, hy⟩ := hf
    intro a ha
    simp only [DatePhrase.toks, List.mem_singleton] at ha
    subst ha
    have hs : sep = '/' ∨ sep = '-' := hsep.elim Or.inl fun h => Or.inr h.1
    refine num_good ⟨?_, ?_⟩
    · intro c hc
      have : c ∈ d ∨ c ∈ m ∨ c ∈ y ∨ c = sep := by
        cases w <;> simp only [Order.write, List.mem_append, List.mem_singleton] at hc <;>
          (rcases hc with (((hc | hc) | hc) | hc) | hc <;> simp [hc])
      rcases this with h | h | h | h
      · exact Or.inl (hd.1.2 c h)
      · exact Or.inl (hm.1.2 c h)
      · exact Or.inl (hy.1.2 c h)
      · rcases hs with hs | hs <;> (rw [hs] at h; simp [h])
    · obtain ⟨c, hc, h⟩ := (numeral_word hd.1).digit
      refine ⟨c, ?_, h⟩
      cases w <;> simp [Order.write, hc]
  | named f d mon y n =>
    obtain ⟨hd, hm, hy⟩ := hf
    have h1 : GoodTok U (kept d d) := num_good (numeral_word hd.1)
    have h2 : GoodTok U (kept (d ++ [',']) (d ++ [','])) := num_good (numeral_append hd.1 (by simp))
    have h3 : GoodTok U (kept y y) := num_good (numeral_word hy.1)
    have h4 : GoodTok U (kept mon (fullName n)) := month_good hm
    intro a ha
    cases f <;> simp only [DatePhrase.toks, List.mem_cons, List.not_mem_nil, or_false] at ha <;>
      (rcases ha with rfl | rfl | rfl <;> assumption)

theorem piece_good {p : Piece} (hp : p.Ok) : ∀ a ∈ p.toks, GoodTok U a := by
  cases p with
  | filler w => intro a ha; simp only [Piece.toks, List.mem_singleton] at ha; subst ha; exact filler_good hp
  | link w => intro a ha; simp only [Piece.toks, List.mem_singleton] at ha; subst ha; exact link_good hp
  | date x => exact date_good hp

theorem date_kept (x : DatePhrase) : ∀ a ∈ x.toks, a.t.isSome = true := by
  cases x with
  | numeric w sep d m y => simp [DatePhrase.toks, kept]
  | named f d mon y n => cases f <;> simp [DatePhrase.toks, kept]

theorem piece_kept {p : Piece} (hp : p.isFiller = false) : ∀ a ∈ p.toks, a.t.isSome = true := by
  cases p with
  | filler w => simp [Piece.isFiller] at hp
  | link w => simp [Piece.toks, kept]
  | date x => exact date_kept x

/-! ## The chain of tokens -/

theorem next_word {r : List SearchTok} (h : ∀ a ∈ r, GoodTok U a) : (r.map (·.w)).headD [] = [] ∨ Word ((r.map (·.w)).headD []) := by
  cases r with
  | nil => exact Or.inl rfl
  | cons a r => exact Or.inr (h a (by simp)).word

theorem chain_kept {isTz : List Char → Bool} : ∀ (l r : List SearchTok) (b : Bool), l ≠ [] → (∀ a ∈ l, GoodTok U a ∧ a.t.isSome = true) → (∀ a ∈ r, GoodTok U a) →
    TokChain (enData.lang U) isTz r true → TokChain (enData.lang U) isTz (l ++ r) b := by
  intro l
  induction l with
  | nil => intro r b h; exact absurd rfl h
  | cons a l ih =>
    intro r b _ hl hr hc
    obtain ⟨hg, hs⟩ := hl a (by simp)
    rw [List.cons_append]
    unfold TokChain
    refine ⟨hg.alone _ (next_word (U := U) fun x hx => ?_), ?_⟩
    · rcases List.mem_append.mp hx with hx | hx
      · exact (hl x (by simp [hx])).1
      · exact hr x hx
    · obtain ⟨t, ht⟩ := Option.isSome_iff_exists.mp hs
      have hf := hg.fate
      rw [ht] at hf ⊢
      refine ⟨hf.1, ?_⟩
      cases l with
      | nil => exact hc
      | cons y l => exact ih r true (by simp) (fun x hx => hl x (by simp [List.mem_cons.mp hx])) hr hc

theorem chain_texts {isTz : List Char → Bool} : ∀ (ps : List Piece) (b : Bool), (∀ p ∈ ps, p.Ok) →
    (∀ a p w r, ps = a ++ p :: .filler w :: r → p.isFiller = false → isTz w = false) →
    (b = true → ∀ w r, ps = .filler w :: r → isTz w = false) → TokChain (enData.lang U) isTz (ps.flatMap Piece.toks) b := by
  intro ps
  induction ps with
  | nil => intros; trivial
  | cons p ps ih =>
    intro b hok hz hb
    have hr : ∀ a ∈ ps.flatMap Piece.toks, GoodTok U a := by
      intro a ha
      obtain ⟨q, hq, ha⟩ := List.mem_flatMap.mp ha
      exact piece_good (hok q (by simp [hq])) a ha
    have hz' : ∀ a p w r, ps = a ++ p :: .filler w :: r → p.isFiller = false → isTz w = false :=
      fun a q w r e => hz (p :: a) q w r (by rw [e]; rfl)
    rw [List.flatMap_cons]
    cases hf : p.isFiller with
    | false =>
      refine chain_kept _ _ b (toks_ne p) (fun a ha => ⟨piece_good (hok p (by simp)) a ha, piece_kept hf a ha⟩) hr ?_
      exact ih true (fun q hq => hok q (by simp [hq])) hz' fun _ w r e => hz [] p w r (by rw [e]; rfl) hf
    | true =>
      cases p with
      | link w => simp [Piece.isFiller] at hf
      | date x => simp [Piece.isFiller] at hf
      | filler w =>
        have hg : GoodTok U ⟨w, toLower w, none⟩ := piece_good (hok (.filler w) (by simp)) _ (by simp [Piece.toks])
        simp only [Piece.toks, List.singleton_append]
        unfold TokChain
        refine ⟨hg.alone _ (next_word hr), hg.fate, fun h => hb h w ps rfl, ?_⟩
        exact ih false (fun q hq => hok q (by simp [hq])) hz' (by simp)

/-! ## The chunks are the stretches -/

/-- A token with its translation. -/
def pair (a : SearchTok) : List Char × List Char := (a.o, a.t.getD [])

theorem chunksOf_kept : ∀ (l r : List SearchTok) (acc : List (List Char × List Char)), (∀ a ∈ l, a.t.isSome = true) →
    chunksOf (l ++ r) acc = chunksOf r (acc ++ l.map pair) := by
  intro l
  induction l with
  | nil => intros; simp
  | cons a l ih =>
    intro r acc h
    obtain ⟨t, ht⟩ := Option.isSome_iff_exists.mp (h a (by simp))
    rw [List.cons_append, chunksOf, ht]
    dsimp only
    rw [ih r _ fun x hx => h x (by simp [hx])]
    simp [pair, ht]

theorem chunksOf_pieces : ∀ (ps : List Piece) (acc : List (List Char × List Char)),
    ∃ s rest, stretches ps = s :: rest ∧
      chunksOf (ps.flatMap Piece.toks) acc = flushed (acc ++ (s.flatMap Piece.toks).map pair) ++ rest.flatMap fun s => flushed ((s.flatMap Piece.toks).map pair) := by
  intro ps
  induction ps with
  | nil => intro acc; exact ⟨[], [], rfl, by simp [chunksOf]⟩
  | cons p ps ih =>
    intro acc
    unfold stretches
    cases hf : p.isFiller with
    | true =>
      obtain ⟨s, rest, e, h⟩ := ih []
      refine ⟨[], stretches ps, by simp, ?_⟩
      cases p with
      | link w => simp [Piece.isFiller] at hf
      | date x => simp [Piece.isFiller] at hf
      | filler w =>
        simp only [List.flatMap_cons, Piece.toks, List.singleton_append]
        unfold chunksOf
        dsimp only
        rw [h, e]
        simp
    | false =>
      obtain ⟨s, rest, e, h⟩ := ih (acc ++ p.toks.map pair)
      refine ⟨p :: s, rest, by simp [e], ?_⟩
      rw [List.flatMap_cons, chunksOf_kept _ _ _ (piece_kept hf), h]
      simp

/-- The chunks of a sentence. -/
def chunksIn (ps : List Piece) : List (List (List Char) × List (List Char)) :=
  (stretches ps).flatMap fun s => flushed ((s.flatMap Piece.toks).map pair)

theorem chunksIn_eq (ps : List Piece) : chunksOf (ps.flatMap Piece.toks) [] = chunksIn ps := by
  obtain ⟨s, rest, e, h⟩ := chunksOf_pieces ps []
  rw [h]
  unfold chunksIn
  rw [e]
  simp

/-! ## A sentence -/

theorem good_words {ts : List SearchTok} (h : ∀ a ∈ ts, GoodTok U a) : (∀ w ∈ ts.map (·.o), Word w) ∧ (∀ w ∈ ts.map (·.w), Word w) := by
  constructor
  · intro w hw
    obtain ⟨a, ha, rfl⟩ := List.mem_map.mp hw
    exact (h a ha).orig
  · intro w hw
    obtain ⟨a, ha, rfl⟩ := List.mem_map.mp hw
    exact (h a ha).word

theorem mem_join {c : Char} : ∀ (ws : List (List Char)), c ∈ joinWith [' '] ws → c = ' ' ∨ ∃ w ∈ ws, c ∈ w := by
  intro ws
  induction ws with
  | nil => intro h; simp [joinWith] at h
  | cons x r ih =>
    intro h
    cases r with
    | nil => simp [joinWith] at h; exact Or.inr ⟨x, by simp, h⟩
    | cons y r =>
      have e : joinWith [' '] (x :: y :: r) = x ++ ' ' :: joinWith [' '] (y :: r) := by simp [joinWith]
      rw [e] at h
      simp only [List.mem_append, List.mem_cons] at h
      rcases h with h | h | h
      · exact Or.inr ⟨x, by simp, h⟩
      · exact Or.inl h
      · rcases ih h with h | ⟨w, hw, hc⟩
        · exact Or.inl h
        · exact Or.inr ⟨w, by simp [List.mem_cons.mp hw], hc⟩

theorem align_good (hU : AsciiUni U) {ts : List SearchTok} (h : ∀ a ∈ ts, GoodTok U a) (skip : List (List Char)) :
    simplifySplitAlign U (enData.lang U) skip (joinWith [' '] (ts.map (·.o))) = (ts.map (·.o), ts.map (·.w)) := by
  obtain ⟨h1, h2⟩ := good_words h
  have hlow : (ts.map (·.o)).map toLower = ts.map (·.w) := by
    rw [List.map_map]
    exact List.map_congr_left fun a ha => (h a ha).low.symm
  have hasc : ∀ c ∈ joinWith [' '] (ts.map (·.o)), c.toNat < 128 := by
    intro c hc
    rcases mem_join _ hc with rfl | ⟨w, hw, hc⟩
    · decide
    · obtain ⟨a, ha, rfl⟩ := List.mem_map.mp hw
      exact (h a ha).ascii c hc
  have hlowt : toLower (joinWith [' '] (ts.map (·.o))) = joinWith [' '] (ts.map (·.w)) := by rw [lower_join, hlow]
  have hasc2 : ∀ c ∈ joinWith [' '] (ts.map (·.w)), c.toNat < 128 := by rw [← hlowt]; exact lower_ascii hasc
  have hsan : sanitizeSpaces (joinWith [' '] (ts.map (·.w))) = joinWith [' '] (ts.map (·.w)) := by
    unfold sanitizeSpaces
    rw [List.filter_eq_self.mpr, fields_join _ h2]
    intro c hc
    have := hasc2 c hc
    have hne : c ≠ '\u00a0' := by rintro rfl; exact absurd this (by decide)
    simp [hne]
  have hnorm : normalizeToken U (joinWith [' '] (ts.map (·.o))) = joinWith [' '] (ts.map (·.w)) := by
    unfold normalizeToken Uni.normalizeString
    rw [hU.nfkc _ hasc, hU.lower _ hasc, hlowt, hsan, normalizeDigits_ascii hU hasc2]
  have hsimp : simplify (enData.lang U) (joinWith [' '] (ts.map (·.w))) = joinWith [' '] (ts.map (·.w)) := by
    refine unrewritten_simplify hU (unrewritten_join ?_)
    intro w hw
    obtain ⟨a, ha, rfl⟩ := List.mem_map.mp hw
    exact (h a ha).plain
  unfold simplifySplitAlign
  dsimp only
  rw [hnorm, hsimp]
  have hws : ∀ s, wordSplit U (enData.lang U) skip s = fields s := by
    intro s
    unfold wordSplit
    rw [if_neg (by show ¬ (false = true); simp)]
  rw [hws, hws, fields_join _ h1, fields_join _ h2]
  simp

/-- The chunks of a sentence of pieces. -/
theorem sentence_chunks (hU : AsciiUni U) {table : List TzEntry} {ps : List Piece} (h : PlainSentence table ps) (skip : List (List Char)) :
    chunkLoop (enData.lang U) (wordIsTz table) (simplifySplitAlign U (enData.lang U) skip (writePieces ps)).1
      (simplifySplitAlign U (enData.lang U) skip (writePieces ps)).2 false [] [] = some (chunksIn ps) := by
  have hg : ∀ a ∈ ps.flatMap Piece.toks, GoodTok U a := by
    intro a ha
    obtain ⟨p, hp, ha⟩ := List.mem_flatMap.mp ha
    exact piece_good (h.pieces p hp) a ha
  rw [← pieces_write, align_good hU hg]
  have := chunkLoop_chain (L := enData.lang U) (wordIsTz table) (ps.flatMap Piece.toks) []
    (chain_texts ps _ h.pieces (fun a p w r e hf => h.zones a p w r e hf) (by simp))
  rw [chunksIn_eq] at this
  exact this

/-- A sentence of pieces stands in a text as it is. -/
theorem sentence_closed (U : Uni) {table : List TzEntry} {ps : List Piece} (h : PlainSentence table ps) : Closed (writePieces ps) ∧ (writePieces ps = [] → ps = []) := by
  have hg : ∀ a ∈ ps.flatMap Piece.toks, GoodTok U a := by
    intro a ha
    obtain ⟨p, hp, ha⟩ := List.mem_flatMap.mp ha
    exact piece_good (h.pieces p hp) a ha
  rw [← pieces_write]
  obtain ⟨h1, _⟩ := good_words hg
  generalize hws : (ps.flatMap Piece.toks).map (·.o) = ws at h1
  have hst : ∀ w ∈ ws, ∀ c ∈ w, c ∉ terminators 1 := by
    intro w hw
    rw [← hws] at hw
    obtain ⟨a, ha, rfl⟩ := List.mem_map.mp hw
    exact (hg a ha).stops
  have hhead : ∀ x, (joinWith [' '] ws).head? = some x → isSpace x = false := by
    intro x hx
    cases ws with
    | nil => simp [joinWith] at hx
    | cons w r =>
      have hw := h1 w (by simp)
      cases w with
      | nil => exact absurd rfl hw.1
      | cons c w =>
        have : x = c := by cases r <;> simp [joinWith] at hx <;> exact hx.symm
        subst this
        exact hw.2 x (by simp)
  have hlast : ∀ x, (joinWith [' '] ws).getLast? = some x → isSpace x = false := by
    intro x hx
    rcases List.eq_nil_or_concat ws with rfl | ⟨r, w, rfl⟩
    · simp [joinWith] at hx
    · have hw := h1 w (by simp)
      have : ∃ p, joinWith [' '] (r.concat w) = p ++ w := by
        cases hr : r with
        | nil => exact ⟨[], by simp [joinWith]⟩
        | cons a r' => rw [← hr, List.concat_eq_append, join_append r [w] (by simp [hr]) (by simp)]; exact ⟨joinWith [' '] r ++ [' '], by simp [joinWith]⟩
      obtain ⟨p, hp⟩ := this
      rw [hp, List.getLast?_append] at hx
      have : w.getLast? = some x := by
        cases hl : w.getLast? with
        | none => exact absurd (List.getLast?_eq_none_iff.mp hl) hw.1
        | some y => rw [hl] at hx; simpa using hx
      exact hw.2 x (List.mem_of_getLast? this)
  refine ⟨⟨?_, ?_, fun x hx => rx_space (hhead x hx)⟩, ?_⟩
  · intro c hc
    rcases mem_join _ hc with rfl | ⟨w, hw, hc⟩
    · decide
    · exact hst w hw c hc
  · have drop : ∀ l : List Char, (∀ x, l.head? = some x → isSpace x = false) → l.dropWhile isSpace = l := by
      intro l h
      cases l with
      | nil => rfl
      | cons a l => rw [List.dropWhile_cons, h a rfl]; simp
    unfold trimSpace
    rw [drop _ hhead, drop, List.reverse_reverse]
    intro x hx
    rw [List.head?_reverse] at hx
    exact hlast x hx
  · intro he
    cases hp : ps with
    | nil => rfl
    | cons p r =>
      exfalso
      have hne : ws ≠ [] := by
        rw [← hws, hp]
        simp [toks_ne p]
      cases ws with
      | nil => exact hne rfl
      | cons w r =>
        have hw := (h1 w (by simp)).1
        cases r <;> simp [joinWith, hw] at he

end Verif.Lemmas
