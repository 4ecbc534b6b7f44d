import Verif.Model.Memory
/-! # C25: the caller's configuration is left alone -/
set_option autoImplicit false
namespace Verif.Props
open Verif.Go Verif.Model

/-- Nothing below `k` is written. -/
def Keeps (k : Nat) (m m' : Mem) : Prop := k ≤ m'.next ∧ m.next ≤ m'.next ∧ ∀ b, b < k → m'.cell b = m.cell b

theorem Keeps.refl {k : Nat} {m : Mem} (h : k ≤ m.next) : Keeps k m m := ⟨h, Nat.le_refl _, fun _ _ => rfl⟩

theorem Keeps.trans {k : Nat} {a b c : Mem} (h1 : Keeps k a b) (h2 : Keeps k b c) : Keeps k a c :=
  ⟨h2.1, Nat.le_trans h1.2.1 h2.2.1, fun x hx => (h2.2.2 x hx).trans (h1.2.2 x hx)⟩

theorem keeps_alloc {k : Nat} {m : Mem} (h : k ≤ m.next) (c : Cell) : Keeps k m (m.alloc c).2 ∧ k ≤ (m.alloc c).1 := by
  refine ⟨⟨Nat.le_succ_of_le h, Nat.le_succ _, ?_⟩, h⟩
  intro b hb
  show (if b = m.next then c else m.cell b) = m.cell b
  rw [if_neg (by omega)]

theorem keeps_write {k : Nat} {m : Mem} (h : k ≤ m.next) {a : Nat} (ha : k ≤ a) (c : Cell) : Keeps k m (m.write a c) := by
  refine ⟨h, Nat.le_refl _, ?_⟩
  intro b hb
  show (if b = a then c else m.cell b) = m.cell b
  rw [if_neg (by omega)]

/-- A slice of new memory (or nil). -/
def Fresh (k : Nat) (s : Slice) : Prop := ∀ a, s.base = some a → k ≤ a

theorem keeps_clone {k : Nat} {m : Mem} (h : k ≤ m.next) (e : Nat) (s : Slice) :
    Keeps k m (m.clone e s).2 ∧ Fresh k (m.clone e s).1 := by
  unfold Mem.clone
  split
  · rename_i hb
    exact ⟨.refl h, by intro a ha; rw [hb] at ha; simp at ha⟩
  · have := keeps_alloc h (.arr (m.slice s ++ List.replicate e []))
    refine ⟨this.1, ?_⟩
    intro a ha
    injection ha with ha
    rw [← ha]; exact this.2

theorem keeps_append {k : Nat} {m : Mem} (h : k ≤ m.next) {s : Slice} (hs : Fresh k s) (xs : List (List Char)) :
    Keeps k m (m.append s xs).2 := by
  unfold Mem.append
  split
  · exact .refl h
  · split
    · exact (keeps_alloc h _).1
    · rename_i a ha
      split
      · split
        · exact keeps_write h (hs a ha) _
        · exact (keeps_alloc h _).1
      · exact .refl h

theorem keeps_sort {k : Nat} {m : Mem} (h : k ≤ m.next) {s : Slice} (hs : Fresh k s)
    (f : List (List Char) → List (List Char)) : Keeps k m (m.sort s f) := by
  unfold Mem.sort
  split
  · exact .refl h
  · rename_i a ha
    split
    · exact keeps_write h (hs a ha) _
    · exact .refl h

theorem keeps_cloneCfg {k : Nat} {m : Mem} (h : k ≤ m.next) (e a : Nat) :
    Keeps k m (cloneCfg m e a).2 ∧ k ≤ (cloneCfg m e a).1 := by
  unfold cloneCfg
  have h1 := (keeps_clone h e (m.cfgAt a).locales).1
  have h2 := (keeps_clone h1.1 e (m.cfgAt a).languages).1
  have h3 := (keeps_clone h2.1 e (m.cfgAt a).defaultLanguages).1
  have h4 := (keeps_clone h3.1 e (m.cfgAt a).requiredParts).1
  have h5 := (keeps_clone h4.1 e (m.cfgAt a).skipTokens).1
  exact ⟨((((h1.trans h2).trans h3).trans h4).trans h5).trans (keeps_alloc h5.1 _).1, (keeps_alloc h5.1 _).2⟩

theorem keeps_initiate {k : Nat} {m : Mem} (h : k ≤ m.next) (e : Nat) (now : Time) (a : Nat) :
    Keeps k m (initiateMem m e now a).2 ∧ k ≤ (initiateMem m e now a).1 := by
  unfold initiateMem
  obtain ⟨h1, h2⟩ := keeps_cloneCfg h e a
  generalize cloneCfg m e a = r at h1 h2 ⊢
  dsimp only
  have h3 : Keeps k r.2 (if (r.2.cfgAt r.1).rest.currentTime.isZero then
      r.2.write r.1 (.cfg { r.2.cfgAt r.1 with rest := { (r.2.cfgAt r.1).rest with currentTime := now.inLoc Loc.utc } })
      else r.2) := by
    split
    · exact keeps_write h1.1 h2 _
    · exact .refl h1.1
  generalize (if (r.2.cfgAt r.1).rest.currentTime.isZero then
      r.2.write r.1 (.cfg { r.2.cfgAt r.1 with rest := { (r.2.cfgAt r.1).rest with currentTime := now.inLoc Loc.utc } })
      else r.2) = m1 at h3 ⊢
  split
  · have h4 := (keeps_alloc h3.1 (.arr [['t']])).1
    exact ⟨((h1.trans h3).trans h4).trans (keeps_write h4.1 h2 _), h2⟩
  · exact ⟨h1.trans h3, h2⟩

theorem keeps_copy {k : Nat} {m : Mem} (h : k ≤ m.next) (e a : Nat) :
    Keeps k m (copyInternal m e a).2 ∧ k ≤ (copyInternal m e a).1 := by
  unfold copyInternal
  have h1 := (keeps_clone h e (m.cfgAt a).requiredParts).1
  have h2 := (keeps_clone h1.1 e (m.cfgAt a).skipTokens).1
  have h3 := (keeps_clone h2.1 e (m.cfgAt a).defaultLanguages).1
  exact ⟨((h1.trans h2).trans h3).trans (keeps_alloc h3.1 _).1, (keeps_alloc h3.1 _).2⟩

theorem keeps_locales {k : Nat} (e i n : Nat) : ∀ {m : Mem}, k ≤ m.next → Keeps k m (localesMem e i n m) := by
  induction n with
  | zero => intro m h; exact .refl h
  | succ n ih =>
    intro m h
    obtain ⟨h1, h2⟩ := keeps_copy h e i
    have h3 : Keeps k m (localeMem m e i) := h1.trans (keeps_write h1.1 h2 _)
    exact h3.trans (ih h3.1)

theorem keeps_parse {k : Nat} {m : Mem} (h : k ≤ m.next) (e : Nat) (now : Time) (a : Option Nat)
    (detected : List (List Char)) (n : Nat) : Keeps k m (parseMem m e now a detected n) := by
  unfold parseMem
  have h0 : Keeps k m (argMem m a).2 := by
    cases a with
    | none => exact (keeps_alloc h _).1
    | some a => exact .refl h
  generalize argMem m a = r0 at h0 ⊢
  dsimp only
  have h1 := keeps_initiate h0.1 e now r0.1
  generalize initiateMem r0.2 e now r0.1 = r1 at h1 ⊢
  have h2 := keeps_copy h1.1.1 e r1.1
  generalize copyInternal r1.2 e r1.1 = r2 at h2 ⊢
  have h3 : Keeps k r2.2 (languagesMem r2.2 e r1.1 detected) := by
    unfold languagesMem
    have := keeps_clone h2.1.1 e (r2.2.cfgAt r1.1).languages
    exact this.1.trans (keeps_append this.1.1 this.2 _)
  exact ((h0.trans (h1.1.trans h2.1)).trans h3).trans (keeps_locales e r2.1 n h3.1)

theorem keeps_initSearch {k : Nat} {m : Mem} (h : k ≤ m.next) (e : Nat) (now : Time) (a : Nat) :
    Keeps k m (initSearchMem m e now a).2 ∧ k ≤ (initSearchMem m e now a).1 := by
  unfold initSearchMem
  have h1 := keeps_initiate h e now a
  dsimp only
  split
  · exact h1
  · exact ⟨h1.1.trans (keeps_write h1.1.1 h1.2 _), h1.2⟩

theorem keeps_entry {k : Nat} {m : Mem} (h : k ≤ m.next) (e : Nat) (now : Time) {i : Nat} (hi : k ≤ i)
    (base : Option Time) (n : Nat) : Keeps k m (parseEntryMem m e now i base n) := by
  unfold parseEntryMem
  obtain ⟨h1, h2⟩ := keeps_copy h e i
  generalize copyInternal m e i = r at h1 h2 ⊢
  dsimp only
  have h3 := h1.trans (keeps_parse h1.1 e now (some r.1) [] n)
  cases base with
  | none => exact h3
  | some t =>
    dsimp only
    generalize parseMem r.2 e now (some r.1) [] n = m1 at h3 ⊢
    have h4 := h3.trans (keeps_write h3.1 h2 (.cfg { m1.cfgAt r.1 with rest := { (m1.cfgAt r.1).rest with currentTime := t } }))
    generalize m1.write r.1 (.cfg { m1.cfgAt r.1 with rest := { (m1.cfgAt r.1).rest with currentTime := t } }) = m2 at h4 ⊢
    have h5 := h4.trans (keeps_write h4.1 hi (.cfg { m2.cfgAt i with rest := { (m2.cfgAt i).rest with currentTime := t } }))
    exact h5.trans (keeps_parse h5.1 e now (some r.1) [] n)

theorem keeps_entries {k : Nat} (e : Nat) (now : Time) {i : Nat} (hi : k ≤ i) (n : Nat) (l : List (Option Time)) :
    ∀ {m : Mem}, k ≤ m.next → Keeps k m (parseEntriesMem e now i n l m) := by
  induction l with
  | nil => intro m h; exact .refl h
  | cons b r ih =>
    intro m h
    have h1 := keeps_entry h e now hi b n
    exact h1.trans (ih h1.1)

theorem keeps_search {k : Nat} {m : Mem} (h : k ≤ m.next) (e : Nat) (now : Time) (a : Nat)
    (f : List (List Char) → List (List Char)) (entries : List (Option Time)) (n : Nat) :
    Keeps k m (searchMem m e now a f entries n) := by
  unfold searchMem
  have h1 := keeps_initSearch h e now a
  generalize initSearchMem m e now a = r at h1 ⊢
  dsimp only
  have h2 : Keeps k r.2 (getLanguagesMem r.2 e (r.2.cfgAt r.1).languages f) := by
    unfold getLanguagesMem
    have := keeps_clone h1.1.1 e (r.2.cfgAt r.1).languages
    exact this.1.trans (keeps_sort this.1.1 this.2 f)
  generalize getLanguagesMem r.2 e (r.2.cfgAt r.1).languages f = m1 at h2 ⊢
  have h3 := (keeps_copy h2.1 e r.1).1
  generalize copyInternal m1 e r.1 = r2 at h3 ⊢
  have h4 := keeps_initSearch h3.1 e now r.1
  generalize initSearchMem r2.2 e now r.1 = r3 at h4 ⊢
  have h5 := keeps_copy h4.1.1 e r3.1
  generalize copyInternal r3.2 e r3.1 = r4 at h5 ⊢
  exact ((((h1.1.trans h2).trans h3).trans h4.1).trans h5.1).trans (keeps_entries e now h5.2 n entries h5.1.1)

/-- The configuration at `a` and the arrays of its slices exist. -/
structure _root_.Verif.Model.Mem.Has (m : Mem) (a : Nat) : Prop where
  cell : a < m.next
  arrays : ∀ s ∈ [(m.cfgAt a).locales, (m.cfgAt a).languages, (m.cfgAt a).defaultLanguages,
    (m.cfgAt a).requiredParts, (m.cfgAt a).skipTokens], ∀ b, s.base = some b → b < m.next

theorem value_keeps {m m' : Mem} (h : Keeps m.next m m') {a : Nat} (ha : Mem.Has m a) : m'.value a = m.value a := by
  have hc : m'.cfgAt a = m.cfgAt a := by unfold Mem.cfgAt; rw [h.2.2 a ha.cell]
  have hs : ∀ s ∈ [(m.cfgAt a).locales, (m.cfgAt a).languages, (m.cfgAt a).defaultLanguages,
      (m.cfgAt a).requiredParts, (m.cfgAt a).skipTokens], m'.slice s = m.slice s := by
    intro s hs
    unfold Mem.slice
    cases hb : s.base with
    | none => rfl
    | some b => dsimp only; rw [h.2.2 b (ha.arrays s hs b hb)]
  unfold Mem.value
  dsimp only
  rw [hc]
  rw [hs _ (by simp), hs _ (by simp), hs _ (by simp), hs _ (by simp), hs _ (by simp)]

/-- **C25, Parse.** Whatever memory looks like, however much room the arrays have, whatever the detector says and
however many locales are tried: after `Parse` every configuration of the caller, with all its lists, is what it was. -/
theorem C25_parse (m : Mem) (extra : Nat) (now : Time) (arg : Option Nat) (detected : List (List Char)) (n : Nat)
    (a : Nat) (ha : Mem.Has m a) : (parseMem m extra now arg detected n).value a = m.value a :=
  value_keeps (keeps_parse (Nat.le_refl _) extra now arg detected n) ha

/-- **C25, Search.** -/
theorem C25_search (m : Mem) (extra : Nat) (now : Time) (arg : Nat) (f : List (List Char) → List (List Char))
    (entries : List (Option Time)) (n : Nat) (a : Nat) (ha : Mem.Has m a) :
    (searchMem m extra now arg f entries n).value a = m.value a :=
  value_keeps (keeps_search (Nat.le_refl _) extra now arg f entries n) ha

/-- A slice whose array exists and has at least the slice's length. -/
def _root_.Verif.Model.Mem.Good (m : Mem) (s : Slice) : Prop :=
  (∀ b, s.base = some b → b < m.next) ∧ (s.base = none → s.len = 0) ∧ (m.slice s).length = s.len

/-- Copying a slice gives the same contents; other slices keep theirs. -/
theorem clone_good {m : Mem} (e : Nat) {s : Slice} (hs : m.Good s) :
    (m.clone e s).2.slice (m.clone e s).1 = m.slice s ∧ (m.clone e s).2.Good (m.clone e s).1 ∧
    (m.clone e s).1.len = s.len ∧ m.next ≤ (m.clone e s).2.next ∧
    (∀ b, b < m.next → (m.clone e s).2.cell b = m.cell b) := by
  unfold Mem.clone
  cases hb : s.base with
  | none => exact ⟨rfl, hs, rfl, Nat.le_refl _, fun _ _ => rfl⟩
  | some b =>
    dsimp only
    have h1 : Mem.slice (m.alloc (.arr (m.slice s ++ List.replicate e []))).2 ⟨some (m.alloc (.arr (m.slice s ++
        List.replicate e []))).1, s.len⟩ = m.slice s := by
      show (match (if m.next = m.next then Cell.arr (m.slice s ++ List.replicate e []) else m.cell m.next) with
        | .arr xs => xs.take s.len | .cfg _ => []) = m.slice s
      rw [if_pos rfl]
      dsimp only
      rw [← hs.2.2, List.take_left]
    refine ⟨h1, ⟨?_, by intro h; simp at h, by rw [h1]; exact hs.2.2⟩, rfl, Nat.le_succ _, ?_⟩
    · intro x hx
      injection hx with hx
      rw [← hx]; exact Nat.lt_succ_self _
    · intro x hx
      show (if x = m.next then _ else m.cell x) = m.cell x
      rw [if_neg (by omega)]

theorem good_keeps {m m' : Mem} (hn : m.next ≤ m'.next) (h : ∀ b, b < m.next → m'.cell b = m.cell b) {s : Slice}
    (hs : m.Good s) : m'.Good s ∧ m'.slice s = m.slice s := by
  have : m'.slice s = m.slice s := by
    unfold Mem.slice
    cases hb : s.base with
    | none => rfl
    | some b => dsimp only; rw [h b (hs.1 b hb)]
  exact ⟨⟨fun b hb => Nat.lt_of_lt_of_le (hs.1 b hb) hn, hs.2.1, by rw [this]; exact hs.2.2⟩, this⟩

/-- The configuration at `a` is complete. -/
structure _root_.Verif.Model.Mem.Sound (m : Mem) (a : Nat) : Prop where
  cell : a < m.next
  locales : m.Good (m.cfgAt a).locales
  languages : m.Good (m.cfgAt a).languages
  defaultLanguages : m.Good (m.cfgAt a).defaultLanguages
  requiredParts : m.Good (m.cfgAt a).requiredParts
  skipTokens : m.Good (m.cfgAt a).skipTokens

theorem cfgAt_of {m : Mem} {a : Nat} {c : CfgCell} (h : m.cell a = .cfg c) : m.cfgAt a = c := by
  unfold Mem.cfgAt; rw [h]

theorem cloneCfg_value {m : Mem} (e : Nat) {a : Nat} (h : Mem.Sound m a) :
    (cloneCfg m e a).2.value (cloneCfg m e a).1 = m.value a ∧ Mem.Sound (cloneCfg m e a).2 (cloneCfg m e a).1 ∧
    (cloneCfg m e a).2.next = (cloneCfg m e a).1 + 1 := by
  unfold cloneCfg
  dsimp only
  -- the five copies
  obtain ⟨a1, a2, -, a4, a5⟩ := clone_good e h.locales
  generalize m.clone e (m.cfgAt a).locales = r1 at a1 a2 a4 a5 ⊢
  have l2 := good_keeps a4 a5 h.languages
  have l3 := good_keeps a4 a5 h.defaultLanguages
  have l4 := good_keeps a4 a5 h.requiredParts
  have l5 := good_keeps a4 a5 h.skipTokens
  obtain ⟨b1, b2, -, b4, b5⟩ := clone_good e l2.1
  generalize r1.2.clone e (m.cfgAt a).languages = r2 at b1 b2 b4 b5 ⊢
  have k1 := good_keeps b4 b5 a2
  have k3 := good_keeps b4 b5 l3.1
  have k4 := good_keeps b4 b5 l4.1
  have k5 := good_keeps b4 b5 l5.1
  obtain ⟨c1, c2, -, c4, c5⟩ := clone_good e k3.1
  generalize r2.2.clone e (m.cfgAt a).defaultLanguages = r3 at c1 c2 c4 c5 ⊢
  have j1 := good_keeps c4 c5 k1.1
  have j2 := good_keeps c4 c5 b2
  have j4 := good_keeps c4 c5 k4.1
  have j5 := good_keeps c4 c5 k5.1
  obtain ⟨d1, d2, -, d4, d5⟩ := clone_good e j4.1
  generalize r3.2.clone e (m.cfgAt a).requiredParts = r4 at d1 d2 d4 d5 ⊢
  have i1 := good_keeps d4 d5 j1.1
  have i2 := good_keeps d4 d5 j2.1
  have i3 := good_keeps d4 d5 c2
  have i5 := good_keeps d4 d5 j5.1
  obtain ⟨e1, e2, -, e4, e5⟩ := clone_good e i5.1
  generalize r4.2.clone e (m.cfgAt a).skipTokens = r5 at e1 e2 e4 e5 ⊢
  have h1 := good_keeps e4 e5 i1.1
  have h2 := good_keeps e4 e5 i2.1
  have h3 := good_keeps e4 e5 i3.1
  have h4 := good_keeps e4 e5 d2
  -- the new cell
  have hcell : ∀ c : Cell, (r5.2.alloc c).2.cell (r5.2.alloc c).1 = c := by
    intro c; show (if r5.2.next = r5.2.next then c else _) = c; rw [if_pos rfl]
  have hkeep : ∀ c : Cell, ∀ b, b < r5.2.next → (r5.2.alloc c).2.cell b = r5.2.cell b := by
    intro c b hb; show (if b = r5.2.next then c else _) = _; rw [if_neg (by omega)]
  have hnext : ∀ c : Cell, r5.2.next ≤ (r5.2.alloc c).2.next := fun c => Nat.le_succ _
  generalize hc : Cell.cfg ⟨r1.1, r2.1, r3.1, r4.1, r5.1, (m.cfgAt a).rest⟩ = c
  have hat : (r5.2.alloc c).2.cfgAt (r5.2.alloc c).1 = ⟨r1.1, r2.1, r3.1, r4.1, r5.1, (m.cfgAt a).rest⟩ := by
    exact cfgAt_of (by rw [hcell, ← hc])
  have g1 := good_keeps (hnext c) (hkeep c) h1.1
  have g2 := good_keeps (hnext c) (hkeep c) h2.1
  have g3 := good_keeps (hnext c) (hkeep c) h3.1
  have g4 := good_keeps (hnext c) (hkeep c) h4.1
  have g5 := good_keeps (hnext c) (hkeep c) e2
  refine ⟨?_, ⟨Nat.lt_succ_self _, by rw [hat]; exact g1.1, by rw [hat]; exact g2.1, by rw [hat]; exact g3.1,
    by rw [hat]; exact g4.1, by rw [hat]; exact g5.1⟩, rfl⟩
  unfold Mem.value
  dsimp only
  rw [hat]
  dsimp only
  rw [g1.2, h1.2, i1.2, j1.2, k1.2, a1, g2.2, h2.2, i2.2, j2.2, b1, l2.2, g3.2, h3.2, i3.2, c1, k3.2, l3.2,
    g4.2, h4.2, d1, j4.2, k4.2, l4.2, g5.2, e1, i5.2, j5.2, k5.2, l5.2]

/-- Overwriting a configuration does not touch lists. -/
theorem slice_cfg {m m' : Mem} {a : Nat} {c c' : CfgCell} (h : m.cell a = .cfg c) (h' : m'.cell a = .cfg c')
    (hk : ∀ b, b ≠ a → b < m.next → m'.cell b = m.cell b) {s : Slice} (hs : m.Good s) : m'.slice s = m.slice s := by
  unfold Mem.slice
  cases hb : s.base with
  | none => rfl
  | some b =>
    dsimp only
    by_cases e : b = a
    · subst e; rw [h, h']
    · rw [hk b e (hs.1 b hb)]

theorem cell_write_same (m : Mem) (a : Nat) (c : Cell) : (m.write a c).cell a = c := by
  show (if a = a then c else _) = c; rw [if_pos rfl]
theorem cell_write_other (m : Mem) {a b : Nat} (c : Cell) (h : b ≠ a) : (m.write a c).cell b = m.cell b := by
  show (if b = a then c else _) = _; rw [if_neg h]
theorem cell_alloc_same (m : Mem) (c : Cell) : (m.alloc c).2.cell m.next = c := by
  show (if m.next = m.next then c else _) = c; rw [if_pos rfl]
theorem cell_alloc_other (m : Mem) {b : Nat} (c : Cell) (h : b < m.next) : (m.alloc c).2.cell b = m.cell b := by
  show (if b = m.next then c else _) = _; rw [if_neg (by omega)]

theorem cloneCfg_cell (m : Mem) (e a : Nat) : ∃ c, (cloneCfg m e a).2.cell (cloneCfg m e a).1 = .cfg c := by
  unfold cloneCfg; exact ⟨_, cell_alloc_same _ _⟩

/-- **C25, the copy.** `Parse` works on a copy equal to the caller's configuration but for the defaults: the current
time and the tokens to skip. -/
theorem C25_copy (m : Mem) (extra : Nat) (now : Time) (a : Nat) (h : Mem.Sound m a) :
    (initiateMem m extra now a).2.value (initiateMem m extra now a).1 = (m.value a).initiate now := by
  obtain ⟨hv, hs, hn⟩ := cloneCfg_value extra h
  obtain ⟨c, hc⟩ := cloneCfg_cell m extra a
  unfold initiateMem
  rw [← hv]
  generalize cloneCfg m extra a = r at hv hs hn hc ⊢
  have hat := cfgAt_of hc
  have hs1 := hs.locales; have hs2 := hs.languages; have hs3 := hs.defaultLanguages
  have hs4 := hs.requiredParts; have hs5 := hs.skipTokens
  rw [hat] at hs1 hs2 hs3 hs4 hs5
  dsimp only
  rw [hat]
  -- the current time
  have key : ∃ m1, (if c.rest.currentTime.isZero then
      r.2.write r.1 (.cfg { c with rest := { c.rest with currentTime := now.inLoc Loc.utc } })
      else r.2) = m1 ∧ m1.next = r.2.next ∧ (∀ b, b ≠ r.1 → m1.cell b = r.2.cell b) ∧
      m1.cell r.1 = .cfg { c with rest := { c.rest with
        currentTime := if c.rest.currentTime.isZero then now.inLoc Loc.utc else c.rest.currentTime } } := by
    by_cases hz : c.rest.currentTime.isZero = true
    · rw [if_pos hz, if_pos hz]
      exact ⟨_, rfl, rfl, fun b hb => cell_write_other _ _ hb, cell_write_same _ _ _⟩
    · rw [if_neg hz, if_neg hz]
      exact ⟨_, rfl, rfl, fun _ _ => rfl, hc⟩
  obtain ⟨m1, hm1, hn1, hk1, hc1⟩ := key
  rw [hm1, cfgAt_of hc1]
  dsimp only
  -- what the result looks like
  have hlen : c.skipTokens.len = 0 ↔ (r.2.slice c.skipTokens).isEmpty = true := by
    rw [← hs5.2.2]; simp
  unfold PCfg.initiate
  by_cases h0 : c.skipTokens.len = 0
  · rw [if_pos h0]
    have hne : r.1 ≠ m1.next := by omega
    generalize hm2 : (m1.alloc (.arr [['t']])).2.write r.1 (.cfg _) = m2
    have hc2 := cell_write_same (m1.alloc (.arr [['t']])).2 r.1 (.cfg { c with
      rest := { c.rest with
        currentTime := if c.rest.currentTime.isZero then now.inLoc Loc.utc else c.rest.currentTime },
      skipTokens := ⟨some (m1.alloc (.arr [['t']])).1, 1⟩ })
    rw [hm2] at hc2
    have hk2 : ∀ b, b ≠ r.1 → b < r.2.next → m2.cell b = r.2.cell b := by
      intro b hb hlt
      rw [← hm2, cell_write_other _ _ hb, cell_alloc_other _ _ (by omega), hk1 b hb]
    have ht : m2.slice ⟨some (m1.alloc (.arr [['t']])).1, 1⟩ = [['t']] := by
      show (match m2.cell m1.next with | .arr xs => xs.take 1 | .cfg _ => []) = [['t']]
      rw [← hm2, cell_write_other _ _ (Ne.symm hne), cell_alloc_same]
      rfl
    have e1 := slice_cfg hc hc2 hk2 hs1
    have e2 := slice_cfg hc hc2 hk2 hs2
    have e3 := slice_cfg hc hc2 hk2 hs3
    have e4 := slice_cfg hc hc2 hk2 hs4
    unfold Mem.value
    dsimp only
    rw [cfgAt_of hc2, hat]
    dsimp only
    rw [e1, e2, e3, e4, ht, if_pos (hlen.mp h0)]
  · rw [if_neg h0]
    have hk2 : ∀ b, b ≠ r.1 → b < r.2.next → m1.cell b = r.2.cell b := fun b hb _ => hk1 b hb
    have e1 := slice_cfg hc hc1 hk2 hs1
    have e2 := slice_cfg hc hc1 hk2 hs2
    have e3 := slice_cfg hc hc1 hk2 hs3
    have e4 := slice_cfg hc hc1 hk2 hs4
    have e5 := slice_cfg hc hc1 hk2 hs5
    unfold Mem.value
    dsimp only
    rw [cfgAt_of hc1, hat]
    dsimp only
    rw [e1, e2, e3, e4, e5, if_neg (fun e => h0 (hlen.mpr e))]

/-- A configuration with a list of languages whose array has room for more: the writes are not harmless. -/
def roomy : Mem where
  next := 2
  cell a := if a = 0 then .cfg { emptyCell with languages := ⟨some 1, 1⟩ } else .arr [['d', 'e'], ['x']]

example : Mem.Has roomy 0 where
  cell := by decide
  arrays := by
    intro s hs b hb
    have : s ∈ [(⟨none, 0⟩ : Slice), ⟨some 1, 1⟩, ⟨none, 0⟩, ⟨none, 0⟩, ⟨none, 0⟩] := hs
    simp only [List.mem_cons, List.not_mem_nil, or_false] at this
    rcases this with rfl | rfl | rfl | rfl | rfl <;> simp at hb
    subst hb; decide

/-- Appending to the caller's list without a copy would write into the caller's array. -/
example : ((roomy.append (roomy.cfgAt 0).languages [['f', 'r']]).2.cell 1) = .arr [['d', 'e'], ['f', 'r']] := rfl

end Verif.Props
