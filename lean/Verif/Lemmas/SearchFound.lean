import Verif.Lemmas.SearchPieces
import Verif.Props.English
/-! # The dates found in an English text -/
set_option autoImplicit false
namespace Verif.Lemmas
open Verif.Go Verif.Model Verif.Spec Verif.Data

variable {U : Uni}

/-! ## The chunks of a text -/

/-- The translation of a stretch. -/
def trText (s : List Piece) : List Char := joinWith [' '] ((s.filterMap Piece.date?).flatMap fun x => x.toks.map fun a => a.t.getD [])

/-- Pieces of a stretch. -/
def StretchOk (s : List Piece) : Prop := (∀ p ∈ s, p.Ok ∧ p.isFiller = false) ∧ (s.filterMap Piece.date?).length ≤ 1

theorem stretch_pieces : ∀ (ps : List Piece), ∀ s ∈ stretches ps, ∀ p ∈ s, p ∈ ps ∧ p.isFiller = false := by
  intro ps
  induction ps with
  | nil => intro s hs p hp; simp [stretches] at hs; subst hs; simp at hp
  | cons q ps ih =>
    intro s hs p hp
    unfold stretches at hs
    cases hf : q.isFiller with
    | true =>
      rw [hf] at hs
      simp only [if_true, List.mem_cons] at hs
      rcases hs with rfl | hs
      · simp at hp
      · have := ih s hs p hp
        exact ⟨by simp [this.1], this.2⟩
    | false =>
      rw [hf] at hs
      simp only [Bool.false_eq_true, if_false] at hs
      split at hs
      · simp at hs; subst hs; simp at hp; subst hp; exact ⟨by simp, hf⟩
      · rename_i t rest ht
        rcases List.mem_cons.mp hs with rfl | hs
        · rcases List.mem_cons.mp hp with rfl | hp
          · exact ⟨by simp, hf⟩
          · have := ih t (by rw [ht]; simp) p hp
            exact ⟨by simp [this.1], this.2⟩
        · have := ih s (by rw [ht]; simp [hs]) p hp
          exact ⟨by simp [this.1], this.2⟩

theorem stretch_ok {table : List TzEntry} {ps : List Piece} (h : PlainSentence table ps) : ∀ s ∈ stretches ps, StretchOk s := by
  intro s hs
  refine ⟨fun p hp => ?_, h.apart s hs⟩
  have := stretch_pieces ps s hs p hp
  exact ⟨h.pieces p this.1, this.2⟩

theorem good_stretch {s : List Piece} (h : StretchOk s) : ∀ a ∈ s.flatMap Piece.toks, GoodTok U a := by
  intro a ha
  obtain ⟨p, hp, ha⟩ := List.mem_flatMap.mp ha
  exact piece_good (h.1 p hp).1 a ha

theorem original_text {s : List Piece} (h : StretchOk s) :
    joinChunk (enData.lang U) (filterChunk (((s.flatMap Piece.toks).map pair).map (·.1))) = writePieces s := by
  have hm : ((s.flatMap Piece.toks).map pair).map (·.1) = (s.flatMap Piece.toks).map (·.o) := by
    rw [List.map_map]; rfl
  have hw := (good_words (good_stretch (U := U) h)).1
  rw [hm, ← pieces_write]
  unfold filterChunk
  rw [List.filter_eq_self.mpr, join_words hw]
  intro w hm
  have := (hw w hm).1
  simpa using this

theorem date_t {x : DatePhrase} (hx : x.Ok) : ∀ a ∈ x.toks, Word (a.t.getD []) ∧ a.t.getD [] ≠ "in".toList := by
  intro a ha
  obtain ⟨t, ht⟩ := Option.isSome_iff_exists.mp (date_kept x a ha)
  have hf := (date_good (U := ⟨id, id, fun _ => false, fun _ => false, fun _ => false, fun _ => false⟩) hx a ha).fate
  rw [ht] at hf ⊢
  rcases hf.2 with rfl | h
  · exfalso
    have hne : ∀ a ∈ x.toks, a.t ≠ some [] := by
      have hf := hx.form
      cases x with
      | numeric w sep d m y =>
        obtain ⟨_, _, hd, _, _⟩ := hf
        intro a ha
        simp only [DatePhrase.toks, List.mem_singleton] at ha
        subst ha
        have := hd.1.1
        cases w <;> simp [kept, Order.write]
      | named f d mon y n =>
        obtain ⟨hd, hm, hy⟩ := hf
        have h1 := List.all_eq_true.mp full_names_words _ hm
        simp only [Bool.and_eq_true, Bool.not_eq_true', List.isEmpty_eq_false_iff] at h1
        have h2 := hd.1.1
        have h3 := hy.1.1
        intro a ha
        cases f <;> simp only [DatePhrase.toks, List.mem_cons, List.not_mem_nil, or_false] at ha <;>
          (rcases ha with rfl | rfl | rfl <;> simp [kept, h1.1.1, h2, h3])
    exact hne a ha ht
  · exact h

theorem translated_words {s : List Piece} (h : StretchOk s) :
    ((((s.flatMap Piece.toks).map pair).map (·.2)).filter (!·.isEmpty) = (s.filterMap Piece.date?).flatMap fun x => x.toks.map fun a => a.t.getD []) ∧
    "in".toList ∉ ((s.flatMap Piece.toks).map pair).map (·.2) := by
  have h1 := h.1
  clear h
  induction s with
  | nil => simp
  | cons p s ih =>
    obtain ⟨ih1, ih2⟩ := ih (fun q hq => h1 q (by simp [hq]))
    obtain ⟨hp, hf⟩ := h1 p (by simp)
    simp only [List.flatMap_cons, List.map_append, List.filter_append, ih1, List.mem_append, not_or]
    cases p with
    | filler w => simp [Piece.isFiller] at hf
    | link w => exact ⟨by rw [show (Piece.link w :: s).filterMap Piece.date? = s.filterMap Piece.date? from rfl]; simp [Piece.toks, kept, pair], by simp [Piece.toks, kept, pair], ih2⟩
    | date x =>
      have hd := date_t (x := x) hp
      have hm : ((Piece.date x).toks.map pair).map (·.2) = x.toks.map fun a => a.t.getD [] := by
        rw [List.map_map]; rfl
      rw [hm]
      refine ⟨?_, ?_, ih2⟩
      · rw [List.filter_eq_self.mpr]
        · simp [Piece.date?]
        · intro t ht
          obtain ⟨a, ha, rfl⟩ := List.mem_map.mp ht
          have := (hd a ha).1.1
          simpa using this
      · intro hin
        obtain ⟨a, ha, he⟩ := List.mem_map.mp hin
        exact (hd a ha).2 he

theorem clear_none {ws : List (List Char)} (h : "in".toList ∉ ws) : clearFutureWords ws = ws := by
  unfold clearFutureWords
  split
  · rfl
  · rw [List.filter_eq_self]
    intro w hw
    have : w ≠ "in".toList := by rintro rfl; exact h hw
    simpa using this

theorem translated_text {s : List Piece} (h : StretchOk s) :
    joinChunk (enData.lang U) (filterChunk (clearFutureWords (((s.flatMap Piece.toks).map pair).map (·.2)))) = trText s := by
  obtain ⟨h1, h2⟩ := translated_words h
  rw [clear_none h2]
  unfold filterChunk
  rw [h1]
  unfold trText
  refine join_words ?_
  intro w hw
  obtain ⟨x, hx, hw⟩ := List.mem_flatMap.mp hw
  obtain ⟨a, ha, rfl⟩ := List.mem_map.mp hw
  obtain ⟨p, hp, he⟩ := List.mem_filterMap.mp hx
  have : p = .date x := by cases p <;> simp [Piece.date?] at he; rw [he]
  subst this
  exact (date_t (h.1 _ hp).1 a ha).1

theorem english_sentences (U : Uni) : NoAbbreviations (enData.lang U) := ⟨rfl, rfl, by show langWithDigitAbbrs.contains ['e', 'n'] = false; decide⟩

theorem sentences_chunks (hU : AsciiUni U) {table : List TzEntry} (skip : List (List Char)) : ∀ (sents : List (List Piece)), (∀ ps ∈ sents, PlainSentence table ps) →
    sentencesLoop U (enData.lang U) (wordIsTz table) skip (sents.map writePieces) = some (sents.flatMap chunksIn) := by
  intro sents
  induction sents with
  | nil => intro _; rfl
  | cons ps sents ih =>
    intro h
    rw [List.map_cons, sentencesLoop]
    rw [sentence_chunks hU (h ps (by simp)), ih fun x hx => h x (by simp [hx])]
    rfl

/-- The stretches of a text with something in them. -/
def textStretches (sents : List (List Piece)) : List (List Piece) := (sents.flatMap stretches).filter (!·.isEmpty)

theorem chunks_map {sents : List (List Piece)} (f : List (List Char) × List (List Char) → List Char) :
    (sents.flatMap chunksIn).map f = (textStretches sents).map fun s => f (((s.flatMap Piece.toks).map pair).map (·.1), ((s.flatMap Piece.toks).map pair).map (·.2)) := by
  have key : ∀ S : List (List Piece), (S.flatMap fun s => flushed ((s.flatMap Piece.toks).map pair)).map f =
      (S.filter (!·.isEmpty)).map fun s => f (((s.flatMap Piece.toks).map pair).map (·.1), ((s.flatMap Piece.toks).map pair).map (·.2)) := by
    intro S
    induction S with
    | nil => rfl
    | cons s S ih =>
      rw [List.flatMap_cons, List.map_append, ih, List.filter_cons]
      cases s with
      | nil => simp [flushed]
      | cons p s =>
        have hne : (((p :: s).flatMap Piece.toks).map pair).isEmpty = false := by simp [toks_ne p]
        rw [if_pos (by simp), List.map_cons]
        unfold flushed
        rw [hne]
        simp
  unfold textStretches
  rw [← key]
  congr 1
  induction sents with
  | nil => rfl
  | cons ps sents ih => rw [List.flatMap_cons, List.flatMap_cons, List.flatMap_append, ih]; rfl

/-- The chunks of a text. -/
theorem text_chunks (hU : AsciiUni U) {table : List TzEntry} {closed : List (List Piece × Char)} {last : List Piece} {stop : List Char}
    (h : PlainText table closed last stop) (skip : List (List Char)) :
    translateSearch U (enData.lang U) (wordIsTz table) skip (writeText closed last stop) =
      some ((textStretches (closed.map (·.1) ++ [last])).map trText, (textStretches (closed.map (·.1) ++ [last])).map writePieces) := by
  have hall : ∀ ps ∈ closed.map (·.1) ++ [last], PlainSentence table ps := by
    intro ps hps
    rcases List.mem_append.mp hps with hps | hps
    · obtain ⟨s, hs, rfl⟩ := List.mem_map.mp hps
      exact (h.sentences s hs).1
    · simp at hps; subst hps; exact h.final
  have hlastC := sentence_closed U h.final
  have htext : writeText closed last stop = textOf (closed.map fun s => (writePieces s.1, s.2)) (writePieces last) stop := by
    simp [writeText, textOf, List.flatMap_map]
  have hsplit := split_text U (english_sentences U) (closed := closed.map fun s => (writePieces s.1, s.2)) (last := writePieces last) (stop := stop) hlastC.1
    (h.ending.imp id fun hs => ⟨fun he => hs.1 (hlastC.2 he), hs.2⟩)
    (by
      intro s hs
      obtain ⟨t, ht, rfl⟩ := List.mem_map.mp hs
      have := h.sentences t ht
      exact ⟨(sentence_closed U this.1).1, fun he => this.2.1 ((sentence_closed U this.1).2 he), this.2.2⟩)
  have hok : ∀ s ∈ textStretches (closed.map (·.1) ++ [last]), StretchOk s := by
    intro s hs
    obtain ⟨hs, _⟩ := List.mem_filter.mp hs
    obtain ⟨ps, hps, hs⟩ := List.mem_flatMap.mp hs
    exact stretch_ok (hall ps hps) s hs
  have hchunks : sentencesLoop U (enData.lang U) (wordIsTz table) (mapSkippedTokens skip (enData.lang U))
      ((closed.map fun s => (writePieces s.1, s.2)).map (·.1) ++ if (writePieces last).isEmpty then [] else [writePieces last]) =
      some ((closed.map (·.1) ++ [last]).flatMap chunksIn) := by
    by_cases he : writePieces last = []
    · have hl := hlastC.2 he
      have h0 : (closed.map fun s => (writePieces s.1, s.2)).map (·.1) = (closed.map (·.1)).map writePieces := by simp [List.map_map, Function.comp_def]
      rw [h0, if_pos (by simp [he]), List.append_nil, sentences_chunks hU _ _ fun ps hps => hall ps (List.mem_append_left _ hps)]
      rw [hl]
      simp [chunksIn, stretches, flushed]
    · have h0 : (closed.map fun s => (writePieces s.1, s.2)).map (·.1) ++ [writePieces last] = (closed.map (·.1) ++ [last]).map writePieces := by
        simp [List.map_map, Function.comp_def]
      rw [if_neg (by simpa using he), h0, sentences_chunks hU _ _ hall]
  unfold translateSearch
  rw [htext, hsplit]
  simp only [Option.bind_eq_bind, Option.bind_some, hchunks]
  rw [chunks_map, chunks_map]
  congr 2
  · exact List.map_congr_left fun s hs => translated_text (hok s hs)
  · exact List.map_congr_left fun s hs => original_text (hok s hs)

end Verif.Lemmas
