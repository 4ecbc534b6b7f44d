import Verif.Lemmas.Rx
import Verif.Lemmas.Whole
import Verif.Lemmas.Search
/-! Helper lemmas: words of a text as runs of characters; patterns that need one of some words. -/
set_option autoImplicit false
namespace Verif.Lemmas
open Verif.Go Verif.Model Verif.Spec

/-! ## Runs -/

def runsAux (q : Char → Bool) : List Char → List Char → List (List Char)
  | [], cur => if cur.isEmpty then [] else [cur.reverse]
  | c :: s, cur => if q c then runsAux q s (c :: cur) else (if cur.isEmpty then [] else [cur.reverse]) ++ runsAux q s []
/-- The longest pieces of a text of characters with `q`. -/
def runs (q : Char → Bool) (s : List Char) : List (List Char) := runsAux q s []

section
variable {q : Char → Bool}

theorem runsAux_sep {c : Char} (hc : q c = false) (b : List Char) : ∀ (a cur : List Char),
    runsAux q (a ++ c :: b) cur = runsAux q a cur ++ runs q b
  | [], cur => by simp [runsAux, hc, runs]
  | x :: a, cur => by
    simp only [List.cons_append, runsAux]
    split
    · exact runsAux_sep hc b a _
    · rw [runsAux_sep hc b a, List.append_assoc]

theorem runs_sep {c : Char} (hc : q c = false) (a b : List Char) : runs q (a ++ c :: b) = runs q a ++ runs q b := runsAux_sep hc b a []

theorem runs_skip {c : Char} (hc : q c = false) (b : List Char) : runs q (c :: b) = runs q b := by
  have := runs_sep hc [] b
  simpa [runs, runsAux] using this

theorem runsAux_take {k : List Char} (hk : ∀ x ∈ k, q x = true) (b : List Char) : ∀ (cur : List Char),
    runsAux q (k ++ b) cur = runsAux q b (k.reverse ++ cur) := by
  induction k with
  | nil => intro cur; rfl
  | cons x k ih =>
    intro cur
    simp only [List.cons_append, runsAux, hk x (by simp), if_true]
    rw [ih (fun y hy => hk y (by simp [hy]))]
    simp

theorem runs_self {k : List Char} (hk : ∀ x ∈ k, q x = true) (hne : k ≠ []) : runs q k = [k] := by
  have := runsAux_take hk [] []
  rw [List.append_nil, List.append_nil] at this
  unfold runs
  rw [this]
  simp [runsAux, hne]

theorem runs_bounded {a k b : List Char} (hk : ∀ x ∈ k, q x = true) (hne : k ≠ [])
    (ha : ∀ c, a.getLast? = some c → q c = false) (hb : ∀ c, b.head? = some c → q c = false) : k ∈ runs q (a ++ k ++ b) := by
  have h1 : k ∈ runs q (k ++ b) := by
    cases b with
    | nil => rw [List.append_nil, runs_self hk hne]; simp
    | cons c b => rw [runs_sep (hb c rfl), runs_self hk hne]; simp
  rcases List.eq_nil_or_concat a with rfl | ⟨a', c, rfl⟩
  · simpa using h1
  · have hc := ha c (by simp)
    have e : a'.concat c ++ k ++ b = a' ++ c :: (k ++ b) := by simp
    rw [e, runs_sep hc]
    exact List.mem_append_right _ h1

theorem runsAux_head : ∀ (s cur : List Char), cur ≠ [] → ∃ t, runsAux q s cur = (cur.reverse ++ s.takeWhile q) :: t
  | [], cur, h => ⟨[], by simp [runsAux, h]⟩
  | c :: s, cur, h => by
    simp only [runsAux]
    split
    · rename_i hc
      obtain ⟨t, ht⟩ := runsAux_head s (c :: cur) (by simp)
      exact ⟨t, by rw [ht]; simp [hc]⟩
    · rename_i hc
      exact ⟨runsAux q s [], by simp [h, hc]⟩

theorem runsAux_prefix : ∀ (a s cur : List Char), ∃ pre cur', runsAux q (a ++ s) cur = pre ++ runsAux q s cur'
  | [], s, cur => ⟨[], cur, rfl⟩
  | c :: a, s, cur => by
    simp only [List.cons_append, runsAux]
    split
    · exact runsAux_prefix a s _
    · obtain ⟨pre, cur', h⟩ := runsAux_prefix a s []
      exact ⟨_ ++ pre, cur', by rw [h, List.append_assoc]⟩

/-- Two neighbours are in one run. -/
theorem runs_pair {x y : Char} (hx : q x = true) (hy : q y = true) (a b : List Char) : ∃ r ∈ runs q (a ++ x :: y :: b), x ∈ r ∧ y ∈ r := by
  obtain ⟨pre, cur', h⟩ := runsAux_prefix (q := q) a (x :: y :: b) []
  have h2 : runsAux q (x :: y :: b) cur' = runsAux q b (y :: x :: cur') := by simp [runsAux, hx, hy]
  obtain ⟨t, ht⟩ := runsAux_head (q := q) b (y :: x :: cur') (by simp)
  refine ⟨(y :: x :: cur').reverse ++ b.takeWhile q, ?_, by simp, by simp⟩
  unfold runs
  rw [h, h2, ht]
  simp

theorem runs_join (hq : q ' ' = false) : ∀ ws : List (List Char), runs q (joinWith [' '] ws) = ws.flatMap (runs q)
  | [] => rfl
  | [x] => by simp [joinWith]
  | x :: y :: r => by
    have : joinWith [' '] (x :: y :: r) = x ++ ' ' :: joinWith [' '] (y :: r) := by simp [joinWith]
    rw [this, runs_sep hq, runs_join hq (y :: r)]
    rfl
end

/-! ## What a match leaves -/

theorem starRun_prev (f : MSt → List MSt) (hf : ∀ s t, t ∈ f s → ∃ m, s.rest = m ++ t.rest ∧ t.prev = lastOr s.prev m) :
    ∀ (n : Nat) (s t : MSt), t ∈ starRun f n s → ∃ m, s.rest = m ++ t.rest ∧ t.prev = lastOr s.prev m := by
  intro n
  induction n with
  | zero => intro s t h; simp [starRun] at h; exact ⟨[], by simp [h, lastOr_nil]⟩
  | succ n ih =>
    intro s t h
    simp only [starRun, List.mem_append, List.mem_flatMap, List.mem_filter, List.mem_singleton] at h
    rcases h with ⟨u, ⟨hu, _⟩, h2⟩ | h
    · obtain ⟨w1, e1, p1⟩ := hf s u hu
      obtain ⟨w2, e2, p2⟩ := ih u t h2
      refine ⟨w1 ++ w2, by rw [e1, e2, List.append_assoc], ?_⟩
      rw [p2, p1]
      unfold lastOr
      rw [List.getLast?_append, Option.or_assoc]
    · exact ⟨[], by simp [h, lastOr_nil]⟩

theorem lastOr_append (p : Option Char) (a b : List Char) : lastOr p (a ++ b) = lastOr (lastOr p a) b := by
  unfold lastOr
  rw [List.getLast?_append, Option.or_assoc]

/-- What a match takes, and the character before the position after it. -/
theorem run_prev (r : Rx) : ∀ (s t : MSt), t ∈ r.run s → ∃ m, s.rest = m ++ t.rest ∧ t.prev = lastOr s.prev m := by
  induction r with
  | eps => intro s t h; simp [Rx.run] at h; exact ⟨[], by simp [h, lastOr_nil]⟩
  | chr p =>
    intro s t h
    unfold Rx.run at h
    split at h
    · rename_i c r hr
      split at h
      · simp at h; exact ⟨[c], by simp [h, hr], by simp [h, lastOr]⟩
      · simp at h
    · simp at h
  | seq a b iha ihb =>
    intro s t h
    simp only [Rx.run, List.mem_flatMap] at h
    obtain ⟨u, hu, h2⟩ := h
    obtain ⟨w1, e1, p1⟩ := iha s u hu
    obtain ⟨w2, e2, p2⟩ := ihb u t h2
    exact ⟨w1 ++ w2, by rw [e1, e2, List.append_assoc], by rw [p2, p1, lastOr_append]⟩
  | alt a b iha ihb =>
    intro s t h
    simp only [Rx.run, List.mem_append] at h
    rcases h with h | h
    · exact iha s t h
    · exact ihb s t h
  | opt a iha =>
    intro s t h
    simp only [Rx.run, List.mem_append, List.mem_singleton] at h
    rcases h with h | h
    · exact iha s t h
    · exact ⟨[], by simp [h, lastOr_nil]⟩
  | star a iha =>
    intro s t h
    exact starRun_prev a.run iha _ s t h
  | grp n a iha =>
    intro s t h
    simp only [Rx.run, List.mem_map] at h
    obtain ⟨u, hu, rfl⟩ := h
    exact iha s u hu
  | bos => intro s t h; unfold Rx.run at h; split at h <;> simp at h; exact ⟨[], by simp [h, lastOr_nil]⟩
  | eos => intro s t h; unfold Rx.run at h; split at h <;> simp at h; exact ⟨[], by simp [h, lastOr_nil]⟩
  | wb => intro s t h; unfold Rx.run at h; split at h <;> simp at h; exact ⟨[], by simp [h, lastOr_nil]⟩

/-! ## Patterns that need a word -/

/-- A character of a word, in ASCII. -/
def wordChar (c : Char) : Bool := c.isAlpha || c.isDigit || c == '_'

/-- Only small ASCII characters. -/
def plainB (s : List Char) : Bool := s.all fun c => decide (c.toNat < 128) && !c.isUpper

/-- After a match of the pattern the position is at a border of a word, if it was before (`b`). -/
def _root_.Verif.Model.Pat.border (b : Bool) : Pat → Bool
  | .eps => b
  | .lit s => match s.getLast? with
    | none => b
    | some c => plainB s && c == ' '
  | .cls neg items => (neg == true && items == [.letter, .mark, .digit, .rng '_' '_']) || (neg == false && items == [.space])
  | .seq a c => c.border (a.border b)
  | .alt a c => a.border b && c.border b
  | .opt a => b && a.border b
  | .star a => b && a.border true
  | .grp _ a => a.border b
  | .bos => true
  | .eos => b

/-- The pattern matches only before a border. -/
def _root_.Verif.Model.Pat.before : Pat → Bool
  | .cls neg items => neg == true && items == [.letter, .mark, .digit, .rng '_' '_']
  | .seq a _ => a.before
  | .alt a c => a.before && c.before
  | .grp _ a => a.before
  | .eos => true
  | _ => false

/-- The pattern matches only before a digit. -/
def _root_.Verif.Model.Pat.digitFirst : Pat → Bool
  | .cls neg items => neg == false && items == [.digit]
  | .seq a _ => a.digitFirst
  | .alt a c => a.digitFirst && c.digitFirst
  | .grp _ a => a.digitFirst
  | _ => false

/-- The last word of a text that is matched literally, and whether something is before it. -/
def lastRun (s : List Char) : List Char := (s.reverse.takeWhile wordChar).reverse

/-- Every match needs one of the words `ws`, or a letter with a digit after it. -/
def _root_.Verif.Model.Pat.needs (ws : List (List Char)) (b : Bool) : Pat → Bool
  | .seq (.lit s) r =>
    (plainB s && (s != lastRun s || b) && ws.contains (lastRun s) && r.before) ||
    (plainB s && (match s.getLast? with | some c => c.isLower | none => false) && r.digitFirst) ||
    r.needs ws ((Pat.lit s).border b)
  | .seq a r => r.needs ws (a.border b)
  | _ => false

/-- The position is at a border. -/
def AtBorder (p : Option Char) : Prop := ∀ c, p = some c → wordChar c = false

/-- Small ASCII characters. -/
def Plain (s : List Char) : Prop := ∀ c ∈ s, c.toNat < 128 ∧ c.isUpper = false

theorem Plain.append_right {a b : List Char} (h : Plain (a ++ b)) : Plain b := fun c hc => h c (by simp [hc])

theorem noWord_char {U : Uni} (hU : AsciiUni U) {c : Char} (hc : c.toNat < 128) :
    (([.letter, .mark, .digit, .rng '_' '_'] : List CItem).any (·.has U c)) = wordChar c := by
  simp only [List.any_cons, List.any_nil, CItem.has, hU.isLetter c hc, hU.isMark c hc, Bool.or_false, Bool.false_or, wordChar]
  have : (decide ('_' ≤ c) && decide (c ≤ '_')) = (c == '_') := by
    rw [Bool.eq_iff_iff]
    simp only [Bool.and_eq_true, decide_eq_true_eq, beq_iff_eq]
    constructor
    · intro ⟨h1, h2⟩
      exact Char.le_antisymm h2 h1
    · rintro rfl; exact ⟨Char.le_refl _, Char.le_refl _⟩
  rw [this, Bool.or_assoc]

theorem space_border {c : Char} (h : isRxSpace c = true) : wordChar c = false := by
  unfold isRxSpace at h
  simp only [Bool.or_eq_true, beq_iff_eq] at h
  rcases h with (((rfl | rfl) | rfl) | rfl) | rfl <;> decide

theorem fold_ascii : ∀ a b : Fin 128, foldEq (Char.ofNat a) (Char.ofNat b) = true → (Char.ofNat a).isUpper = false → (Char.ofNat b).isUpper = false →
    Char.ofNat b = Char.ofNat a := by decide +kernel

theorem fold_plain {c d : Char} (h : foldEq c d = true) (hc : c.toNat < 128) (hcu : c.isUpper = false) (hd : d.toNat < 128) (hdu : d.isUpper = false) : d = c := by
  have := fold_ascii ⟨c.toNat, hc⟩ ⟨d.toNat, hd⟩
  simp only [char_of_nat] at this
  exact this h hcu hdu

theorem lit_sound : ∀ {k : List Char}, plainB k = true → ∀ {s t : MSt}, Plain s.rest → t ∈ (litRx k).run s → s.rest = k ++ t.rest ∧ t.prev = lastOr s.prev k
  | [], _, s, t, _, h => by simp [litRx, Rx.run] at h; simp [h, lastOr_nil]
  | [c], hk, s, t, hp, h => by
    simp only [plainB, List.all_cons, List.all_nil, Bool.and_true, Bool.and_eq_true, decide_eq_true_eq, Bool.not_eq_true'] at hk
    simp only [litRx] at h
    unfold Rx.run at h
    split at h
    · rename_i d r hr
      split at h
      · rename_i hf
        have hd := hp d (by rw [hr]; simp)
        have := fold_plain hf hk.1 hk.2 hd.1 hd.2
        simp only [List.mem_singleton] at h
        subst h; subst this
        exact ⟨by simp [hr], by simp [lastOr]⟩
      · simp at h
    · simp at h
  | c :: c' :: k, hk, s, t, hp, h => by
    have hk2 : plainB (c' :: k) = true := by
      unfold plainB at hk ⊢
      rw [List.all_cons, Bool.and_eq_true] at hk
      exact hk.2
    have hk1 : plainB [c] = true := by
      unfold plainB at hk ⊢
      rw [List.all_cons, Bool.and_eq_true] at hk
      simpa using hk.1
    simp only [litRx] at h
    simp only [Rx.run, List.mem_flatMap] at h
    obtain ⟨u, hu, h⟩ := h
    obtain ⟨e1, p1⟩ := lit_sound (k := [c]) hk1 (s := s) (t := u) hp (by simpa only [litRx, Rx.run] using hu)
    obtain ⟨e2, p2⟩ := lit_sound (k := c' :: k) hk2 (s := u) (t := t) (by rw [e1] at hp; exact hp.append_right) h
    refine ⟨by rw [e1, e2]; rfl, ?_⟩
    rw [p2, p1, ← lastOr_append]
    rfl

theorem plain_rest {U : Uni} {p : Pat} {s t : MSt} (hp : Plain s.rest) (h : t ∈ (p.toRx U).run s) : Plain t.rest := by
  obtain ⟨m, e, _⟩ := run_prev _ s t h
  rw [e] at hp
  exact hp.append_right

theorem star_border {f : MSt → List MSt} (hf : ∀ s t, Plain s.rest → AtBorder s.prev → t ∈ f s → AtBorder t.prev ∧ Plain t.rest) :
    ∀ (n : Nat) (s t : MSt), Plain s.rest → AtBorder s.prev → t ∈ starRun f n s → AtBorder t.prev := by
  intro n
  induction n with
  | zero => intro s t _ hb h; simp [starRun] at h; rw [h]; exact hb
  | succ n ih =>
    intro s t hp hb h
    simp only [starRun, List.mem_append, List.mem_flatMap, List.mem_filter, List.mem_singleton] at h
    rcases h with ⟨u, ⟨hu, _⟩, h2⟩ | h
    · obtain ⟨h3, h4⟩ := hf s u hp hb hu
      exact ih u t h4 h3 h2
    · rw [h]; exact hb

theorem chr_run {f : Char → Bool} {s t : MSt} (h : t ∈ (Rx.chr f).run s) : ∃ c, s.rest = c :: t.rest ∧ f c = true ∧ t.prev = some c := by
  unfold Rx.run at h
  split at h
  · rename_i d r hr
    split at h
    · rename_i hf
      simp only [List.mem_singleton] at h
      subst h
      exact ⟨d, hr, hf, rfl⟩
    · simp at h
  · simp at h

theorem border_sound {U : Uni} (hU : AsciiUni U) : ∀ (p : Pat) (b : Bool) (s t : MSt), p.border b = true → (b = true → AtBorder s.prev) → Plain s.rest →
    t ∈ (p.toRx U).run s → AtBorder t.prev := by
  intro p
  induction p with
  | eps => intro b s t hb hs _ h; simp only [Pat.toRx, Rx.run, List.mem_singleton] at h; rw [h]; exact hs hb
  | lit k =>
    intro b s t hb hs hp h
    simp only [Pat.toRx] at h
    unfold Pat.border at hb
    cases hl : k.getLast? with
    | none =>
      have : k = [] := by simpa using hl
      subst this
      simp only [litRx, Rx.run, List.mem_singleton] at h
      rw [h]; exact hs (by rw [hl] at hb; exact hb)
    | some c =>
      rw [hl] at hb
      simp only [Bool.and_eq_true, beq_iff_eq] at hb
      obtain ⟨_, p1⟩ := lit_sound hb.1 hp h
      rw [p1]
      unfold lastOr
      rw [hl, hb.2]
      intro x hx
      simp only [Option.some_or, Option.some.injEq] at hx
      subst hx
      decide
  | cls neg items =>
    intro b s t hb hs hp h
    obtain ⟨c, e, hc, pr⟩ := chr_run h
    have hpc := hp c (by rw [e]; simp)
    rw [pr]
    intro x hx
    injection hx with hx
    subst hx
    unfold Pat.border at hb
    simp only [Bool.or_eq_true, Bool.and_eq_true, beq_iff_eq] at hb
    rcases hb with ⟨rfl, rfl⟩ | ⟨rfl, rfl⟩
    · rw [noWord_char hU hpc.1] at hc
      simpa using hc
    · simp [CItem.has] at hc
      exact space_border hc
  | seq a c iha ihc =>
    intro b s t hb hs hp h
    simp only [Pat.toRx, Rx.run, List.mem_flatMap] at h
    obtain ⟨u, hu, h⟩ := h
    unfold Pat.border at hb
    exact ihc _ u t hb (fun hab => iha b s u hab hs hp hu) (plain_rest hp hu) h
  | alt a c iha ihc =>
    intro b s t hb hs hp h
    unfold Pat.border at hb
    rw [Bool.and_eq_true] at hb
    simp only [Pat.toRx, Rx.run, List.mem_append] at h
    rcases h with h | h
    · exact iha b s t hb.1 hs hp h
    · exact ihc b s t hb.2 hs hp h
  | opt a iha =>
    intro b s t hb hs hp h
    unfold Pat.border at hb
    rw [Bool.and_eq_true] at hb
    simp only [Pat.toRx, Rx.run, List.mem_append, List.mem_singleton] at h
    rcases h with h | h
    · exact iha b s t hb.2 hs hp h
    · rw [h]; exact hs hb.1
  | star a iha =>
    intro b s t hb hs hp h
    unfold Pat.border at hb
    rw [Bool.and_eq_true] at hb
    simp only [Pat.toRx, Rx.run] at h
    refine star_border ?_ _ s t hp (hs hb.1) h
    intro s t hp hs h
    exact ⟨iha true s t hb.2 (fun _ => hs) hp h, plain_rest hp h⟩
  | grp n a iha =>
    intro b s t hb hs hp h
    unfold Pat.border at hb
    simp only [Pat.toRx, Rx.run, List.mem_map] at h
    obtain ⟨u, hu, rfl⟩ := h
    exact iha b s u hb hs hp hu
  | bos =>
    intro b s t hb hs hp h
    simp only [Pat.toRx] at h
    unfold Rx.run at h
    split at h
    · rename_i hn
      simp only [List.mem_singleton] at h
      rw [h]
      intro c hc
      rw [hc] at hn
      simp at hn
    · simp at h
  | eos =>
    intro b s t hb hs hp h
    simp only [Pat.toRx] at h
    unfold Rx.run at h
    split at h
    · simp only [List.mem_singleton] at h
      rw [h]; exact hs hb
    · simp at h

theorem before_sound {U : Uni} (hU : AsciiUni U) : ∀ (p : Pat) (s t : MSt), p.before = true → Plain s.rest → t ∈ (p.toRx U).run s → AtBorder s.rest.head? := by
  intro p
  induction p with
  | cls neg items =>
    intro s t hb hp h
    obtain ⟨c, e, hc, pr⟩ := chr_run h
    have hpc := hp c (by rw [e]; simp)
    unfold Pat.before at hb
    simp only [Bool.and_eq_true, beq_iff_eq] at hb
    obtain ⟨rfl, rfl⟩ := hb
    rw [noWord_char hU hpc.1] at hc
    rw [e]
    intro x hx
    simp only [List.head?_cons, Option.some.injEq] at hx
    subst hx
    simpa using hc
  | seq a c iha ihc =>
    intro s t hb hp h
    unfold Pat.before at hb
    simp only [Pat.toRx, Rx.run, List.mem_flatMap] at h
    obtain ⟨u, hu, h⟩ := h
    exact iha s u hb hp hu
  | alt a c iha ihc =>
    intro s t hb hp h
    unfold Pat.before at hb
    rw [Bool.and_eq_true] at hb
    simp only [Pat.toRx, Rx.run, List.mem_append] at h
    rcases h with h | h
    · exact iha s t hb.1 hp h
    · exact ihc s t hb.2 hp h
  | grp n a iha =>
    intro s t hb hp h
    unfold Pat.before at hb
    simp only [Pat.toRx, Rx.run, List.mem_map] at h
    obtain ⟨u, hu, rfl⟩ := h
    exact iha s u hb hp hu
  | eos =>
    intro s t hb hp h
    simp only [Pat.toRx] at h
    unfold Rx.run at h
    split at h
    · rename_i he
      have : s.rest = [] := by simpa using he
      rw [this]
      intro c hc
      simp at hc
    · simp at h
  | _ => intro s t hb; simp [Pat.before] at hb

theorem digitFirst_sound {U : Uni} : ∀ (p : Pat) (s t : MSt), p.digitFirst = true → t ∈ (p.toRx U).run s → ∃ c r, s.rest = c :: r ∧ c.isDigit = true := by
  intro p
  induction p with
  | cls neg items =>
    intro s t hb h
    obtain ⟨c, e, hc, pr⟩ := chr_run h
    unfold Pat.digitFirst at hb
    simp only [Bool.and_eq_true, beq_iff_eq] at hb
    obtain ⟨rfl, rfl⟩ := hb
    exact ⟨c, _, e, by simpa [CItem.has] using hc⟩
  | seq a c iha ihc =>
    intro s t hb h
    unfold Pat.digitFirst at hb
    simp only [Pat.toRx, Rx.run, List.mem_flatMap] at h
    obtain ⟨u, hu, h⟩ := h
    exact iha s u hb hu
  | alt a c iha ihc =>
    intro s t hb h
    unfold Pat.digitFirst at hb
    rw [Bool.and_eq_true] at hb
    simp only [Pat.toRx, Rx.run, List.mem_append] at h
    rcases h with h | h
    · exact iha s t hb.1 h
    · exact ihc s t hb.2 h
  | grp n a iha =>
    intro s t hb h
    unfold Pat.digitFirst at hb
    simp only [Pat.toRx, Rx.run, List.mem_map] at h
    obtain ⟨u, hu, rfl⟩ := h
    exact iha s u hb hu
  | _ => intro s t hb; simp [Pat.digitFirst] at hb

/-- The text has one of these words, or a letter with a digit after it. -/
def HasOne (ws : List (List Char)) (s : List Char) : Prop :=
  (∃ w ∈ ws, w ∈ runs wordChar s) ∨ ∃ a x y b, s = a ++ x :: y :: b ∧ x.isLower = true ∧ y.isDigit = true

theorem mem_takeWhile_true {q : Char → Bool} : ∀ {l : List Char} {c : Char}, c ∈ l.takeWhile q → q c = true
  | [], c, h => by simp at h
  | x :: l, c, h => by
    rw [List.takeWhile_cons] at h
    split at h
    · rcases List.mem_cons.mp h with rfl | h
      · assumption
      · exact mem_takeWhile_true h
    · simp at h

theorem lastRun_split (k : List Char) : ∃ a, k = a ++ lastRun k ∧ (∀ c, a.getLast? = some c → wordChar c = false) ∧ ∀ c ∈ lastRun k, wordChar c = true := by
  refine ⟨(k.reverse.dropWhile wordChar).reverse, ?_, ?_, ?_⟩
  · have := List.takeWhile_append_dropWhile (p := wordChar) (l := k.reverse)
    unfold lastRun
    rw [← List.reverse_append, this, List.reverse_reverse]
  · intro c hc
    rw [List.getLast?_reverse] at hc
    exact head_dropWhile wordChar _ c hc
  · intro c hc
    unfold lastRun at hc
    rw [List.mem_reverse] at hc
    exact mem_takeWhile_true hc

theorem needs_sound {U : Uni} (hU : AsciiUni U) {ws : List (List Char)} (hne : [] ∉ ws) : ∀ (p : Pat) (b : Bool) (pre : List Char) (s t : MSt), p.needs ws b = true →
    (b = true → AtBorder s.prev) → s.prev = lastOr none pre → Plain s.rest → t ∈ (p.toRx U).run s → HasOne ws (pre ++ s.rest) := by
  have step : ∀ (a r : Pat) (b : Bool) (pre : List Char) (s t : MSt), 
      (∀ (b : Bool) (pre : List Char) (s t : MSt), r.needs ws b = true →
        (b = true → AtBorder s.prev) → s.prev = lastOr none pre → Plain s.rest → t ∈ (r.toRx U).run s → HasOne ws (pre ++ s.rest)) →
      r.needs ws (a.border b) = true → (b = true → AtBorder s.prev) → s.prev = lastOr none pre → Plain s.rest → t ∈ ((Pat.seq a r).toRx U).run s →
      HasOne ws (pre ++ s.rest) := by
    intro a r b pre s t ih hr hb hpre hp h
    simp only [Pat.toRx, Rx.run, List.mem_flatMap] at h
    obtain ⟨u, hu, h⟩ := h
    obtain ⟨m, e, hpr⟩ := run_prev _ s u hu
    have := ih (a.border b) (pre ++ m) u t hr (fun hab => border_sound hU a b s u hab hb hp hu) (by rw [hpr, hpre, lastOr_append])
      (plain_rest hp hu) h
    rw [e]
    simpa using this
  intro p
  induction p with
  | seq a r iha ihr =>
    intro b pre s t hn hb hpre hp h
    by_cases hl : ∃ k, a = .lit k
    · obtain ⟨k, rfl⟩ := hl
      unfold Pat.needs at hn
      rw [Bool.or_eq_true, Bool.or_eq_true] at hn
      rcases hn with (hn | hn) | hn
      · simp only [Bool.and_eq_true, Bool.or_eq_true, bne_iff_ne, List.contains_iff_mem] at hn
        obtain ⟨⟨⟨hk, hbord⟩, hw⟩, hbef⟩ := hn
        simp only [Pat.toRx, Rx.run, List.mem_flatMap] at h
        obtain ⟨u, hu, h⟩ := h
        obtain ⟨e, pr⟩ := lit_sound hk hp hu
        have hpu : Plain u.rest := by rw [e] at hp; exact hp.append_right
        have hafter := before_sound hU r u t hbef hpu h
        obtain ⟨x, hx, hx2, hx3⟩ := lastRun_split k
        left
        refine ⟨lastRun k, hw, ?_⟩
        have e2 : pre ++ s.rest = (pre ++ x) ++ lastRun k ++ u.rest := by
          rw [e]
          conv => lhs; rw [hx]
          simp
        rw [e2]
        refine runs_bounded hx3 (fun h => hne (h ▸ hw)) ?_ (fun c hc => hafter c hc)
        intro c hc
        rw [List.getLast?_append] at hc
        cases hxl : x.getLast? with
        | some d => rw [hxl] at hc; simp at hc; subst hc; exact hx2 d hxl
        | none =>
          rw [hxl] at hc
          have hx0 : x = [] := by simpa using hxl
          subst hx0
          rcases hbord with hbord | hbord
          · exact absurd (by simpa using hx) hbord
          · have := hb hbord
            rw [hpre] at this
            apply this
            unfold lastOr
            simpa using hc
      · simp only [Bool.and_eq_true] at hn
        obtain ⟨⟨hk, hlow⟩, hdig⟩ := hn
        simp only [Pat.toRx, Rx.run, List.mem_flatMap] at h
        obtain ⟨u, hu, h⟩ := h
        obtain ⟨e, pr⟩ := lit_sound hk hp hu
        obtain ⟨y, rr, e2, hy⟩ := digitFirst_sound r u t hdig h
        cases hkl : k.getLast? with
        | none => rw [hkl] at hlow; simp at hlow
        | some x =>
          rw [hkl] at hlow
          obtain ⟨k', rfl⟩ := List.getLast?_eq_some_iff.mp hkl
          right
          refine ⟨pre ++ k', x, y, rr, ?_, hlow, hy⟩
          rw [e, e2]
          simp
      · exact step _ r b pre s t ihr hn hb hpre hp h
    · have hn' : r.needs ws (a.border b) = true := by
        cases a <;> first | (exact absurd ⟨_, rfl⟩ hl) | (simpa only [Pat.needs] using hn)
      exact step a r b pre s t ihr hn' hb hpre hp h
  | _ => intro b pre s t hn; simp [Pat.needs] at hn

/-- A pattern that needs one of the words does not match a text without them. -/
theorem needs_none {U : Uni} (hU : AsciiUni U) {ws : List (List Char)} (hne : [] ∉ ws) {p : Pat} (hn : p.needs ws false = true) {s : List Char} (hp : Plain s)
    (h : ¬ HasOne ws s) : (p.toRx U).matches s = false := by
  unfold Rx.matches
  rw [find_none]
  · rfl
  · intro a b e
    unfold Rx.Fails
    cases hr : (p.toRx U).run ⟨lastOr none a, b, []⟩ with
    | nil => rfl
    | cons t l =>
      exfalso
      apply h
      have := needs_sound hU hne p false a ⟨lastOr none a, b, []⟩ t hn (by simp) rfl (by rw [e] at hp; exact hp.append_right) (by rw [hr]; simp)
      rw [e]
      exact this

/-- Nothing is rewritten in such a text. -/
theorem simplify_none {U : Uni} (hU : AsciiUni U) {ws : List (List Char)} (hne : [] ∉ ws) {d : LangData} (hd : (d.simplifications.all fun x => x.1.needs ws false) = true)
    {s : List Char} (hp : Plain s) (h : ¬ HasOne ws s) : simplify (d.lang U) s = s := by
  unfold simplify
  have : ∀ (l : List (Pat × List Tmpl)), (l.all fun x => x.1.needs ws false) = true →
      (l.map fun x => (x.1.toRx U, x.2)).foldl (fun s d => if d.1.matches s then replaceAllTmpl d.1 d.2 s else s) s = s := by
    intro l
    induction l with
    | nil => intro _; rfl
    | cons x l ih =>
      intro hl
      rw [List.all_cons, Bool.and_eq_true] at hl
      simp only [List.map_cons, List.foldl_cons]
      rw [needs_none hU hne hl.1 hp h]
      exact ih hl.2
  exact this d.simplifications hd

end Verif.Lemmas
