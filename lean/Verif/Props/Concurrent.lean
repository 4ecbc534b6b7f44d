import Verif.Spec.Concurrent
import Verif.Props.Parser
/-! # C34: concurrent calls on one `Parser` -/
set_option autoImplicit false
namespace Verif.Props
open Verif.Go Verif.Model Verif.Spec Verif.Data Verif.Lemmas

/-! ## What is left of a call -/

/-- parser.go:114-167 with the locales known. -/
def finishLocales (P : Parts) (a : Args) (s : ParserSt) (ls : List LocaleInfo) : ParserSt × Except ParseErr DateRes :=
  let c := a.cfg.initiate a.now
  match localeLoop P c c.toInternal s.types (P.sanitize a.str) a.formats ls with
  | some (dt, l) => (if c.tryPrevious then saveUsed s l else s, .ok dt)
  | none => (s, .error .unknownFormat)

def finishLoad (P : Parts) (a : Args) (s : ParserSt) (prev : List LocaleInfo) : ParserSt × Except ParseErr DateRes :=
  let c := a.cfg.initiate a.now
  match applicableGiven P s c c.toInternal (P.sanitize a.str) prev with
  | .error e => (s, .error (.load e))
  | .ok ls => finishLocales P a s ls

/-- What the call does from here on when nobody interferes. -/
def finish (P : Parts) (a : Args) (s : ParserSt) : PC → ParserSt × Except ParseErr DateRes
  | .idle | .called => parse P a.now s (some a.cfg) a.str a.formats
  | .checkTypes n i =>
    match ((s.types.take n).drop i).find? (fun t => decide (t > 5)) with
    | some t => (s, .error (.parserType t))
    | none => parseWithTypes P (filled s) (a.cfg.initiate a.now) a.str a.formats
  | .testTypes => parseWithTypes P (filled s) (a.cfg.initiate a.now) a.str a.formats
  | .fillTypes => parseWithTypes P { s with types := defaultTypes } (a.cfg.initiate a.now) a.str a.formats
  | .config => parseWithTypes P s (a.cfg.initiate a.now) a.str a.formats
  | .previous n i =>
    let c := a.cfg.initiate a.now
    finishLoad P a s
      (checkPrevious P c.toInternal (dateStrings P (P.sanitize a.str)) ((s.used.take n).drop i)).toList
  | .load prev => finishLoad P a s prev
  | .locales ls => finishLocales P a s ls
  | .types l rest n j =>
    let c := a.cfg.initiate a.now
    match typeLoop P (localeCfg c c.toInternal l) l (P.sanitize a.str) a.formats ((s.types.take n).drop j) with
    | some dt => (if c.tryPrevious then saveUsed s l else s, .ok dt)
    | none => finishLocales P a s rest
  | .saveTest l dt => (saveUsed s l, .ok dt)
  | .saveName l dt => ({ s with tracker := l.name :: s.tracker, used := s.used ++ [l] }, .ok dt)
  | .saveLocale l dt => ({ s with used := s.used ++ [l] }, .ok dt)
  | .unlock r => (s, r)
  | .done r => (s, r)

theorem drop_take_cons {α : Type} {l : List α} {n i : Nat} {t : α} (hi : i < n) (h : l[i]? = some t) :
    (l.take n).drop i = t :: (l.take n).drop (i + 1) := by
  have hl : i < l.length := by
    rcases Nat.lt_or_ge i l.length with h' | h'
    · exact h'
    · rw [List.getElem?_eq_none h'] at h; simp at h
  have hl2 : i < (l.take n).length := by rw [List.length_take]; omega
  rw [List.drop_eq_getElem_cons hl2, List.getElem_take]
  congr 1
  rw [List.getElem?_eq_getElem hl] at h
  injection h

theorem drop_take_none {α : Type} {l : List α} {n i : Nat} (h : l[i]? = none) : (l.take n).drop i = [] := by
  rw [List.drop_eq_nil_iff, List.length_take]
  rw [List.getElem?_eq_none_iff] at h
  omega

theorem drop_take_end {α : Type} (l : List α) {n i : Nat} (h : ¬ i < n) : (l.take n).drop i = [] := by
  rw [List.drop_eq_nil_iff, List.length_take]; omega

theorem getElem?_succ_none {α : Type} {l : List α} {i : Nat} (h : l[i]? = none) : l[i + 1]? = none := by
  rw [List.getElem?_eq_none_iff] at h ⊢; omega

theorem applicable_given (P : Parts) (s : ParserSt) (c : PCfg) (cfg : Cfg) (str : List Char) :
    getApplicableLocales P s c cfg str = applicableGiven P s c cfg str (previousLocale P s c cfg str) := rfl

/-- A step does not change what the call will do. -/
theorem step_finish (P : Parts) (a : Args) (s : ParserSt) (pc : PC) (hw : pc.working = true) :
    finish P a (stepCall P a s pc).2 (stepCall P a s pc).1 = finish P a s pc := by
  cases pc with
  | idle => simp [PC.working] at hw
  | called => simp [PC.working] at hw
  | unlock r => simp [PC.working] at hw
  | done r => simp [PC.working] at hw
  | checkTypes n i =>
    simp only [stepCall]
    by_cases hi : i < n
    · rw [if_pos hi]
      cases ht : s.types[i]? with
      | none =>
        dsimp only [finish]
        rw [drop_take_none ht, drop_take_none (getElem?_succ_none ht)]
      | some t =>
        dsimp only
        by_cases h5 : t > 5
        · rw [if_pos h5]
          dsimp only [finish]
          rw [drop_take_cons hi ht, List.find?_cons_of_pos (by simpa using h5)]
        · rw [if_neg h5]
          dsimp only [finish]
          rw [drop_take_cons hi ht, List.find?_cons_of_neg (by simpa using h5)]
    · rw [if_neg hi]
      dsimp only [finish]
      rw [drop_take_end _ hi]; rfl
  | testTypes =>
    simp only [stepCall]
    by_cases h : s.types.isEmpty = true
    · rw [if_pos h]; dsimp only [finish]; unfold filled; rw [if_pos h]
    · rw [if_neg h]; dsimp only [finish]; unfold filled; rw [if_neg h]
  | fillTypes => rfl
  | config =>
    have hr : finish P a s .config = parseWithTypes P s (a.cfg.initiate a.now) a.str a.formats := rfl
    rw [hr]
    simp only [stepCall]
    cases hv : (a.cfg.initiate a.now).validate with
    | error e => simp only [parseWithTypes, hv, finish]
    | ok u =>
      by_cases hf : (!(P.formatted (a.cfg.initiate a.now).toInternal a.str a.formats).isZero) = true
      · simp only [parseWithTypes, hv, hf, if_true, finish]
      · have hrhs : parseWithTypes P s (a.cfg.initiate a.now) a.str a.formats = finishLoad P a s
            (previousLocale P s (a.cfg.initiate a.now) (a.cfg.initiate a.now).toInternal (P.sanitize a.str)) := by
          unfold parseWithTypes
          rw [hv]
          dsimp only
          rw [if_neg hf, applicable_given]
          rfl
        rw [hrhs]
        dsimp only
        rw [if_neg hf]
        unfold previousLocale
        by_cases ht : (a.cfg.initiate a.now).tryPrevious = true
        · rw [if_pos ht, if_pos ht]
          dsimp only [finish]
          rw [List.take_length, List.drop_zero]
        · rw [if_neg ht, if_neg ht]
          rfl
  | previous n i =>
    simp only [stepCall]
    by_cases hi : i < n
    · rw [if_pos hi]
      cases hl : s.used[i]? with
      | none =>
        dsimp only [finish]
        rw [drop_take_none hl, drop_take_none (getElem?_succ_none hl)]
      | some l =>
        dsimp only
        split
        · rename_i h
          dsimp only [finish]
          rw [drop_take_cons hi hl, checkPrevious, if_pos h]; rfl
        · rename_i h
          dsimp only [finish]
          rw [drop_take_cons hi hl, checkPrevious, if_neg h]
    · rw [if_neg hi]
      dsimp only [finish]
      rw [drop_take_end _ hi]; rfl
  | load prev =>
    simp only [stepCall]
    dsimp only [finish]
    unfold finishLoad
    dsimp only
    cases applicableGiven P s (a.cfg.initiate a.now) (a.cfg.initiate a.now).toInternal (P.sanitize a.str) prev <;> rfl
  | locales ls =>
    cases ls with
    | nil => rfl
    | cons l rest =>
      simp only [stepCall]
      dsimp only [finish]
      rw [List.take_length, List.drop_zero]
      show _ = finishLocales P a s (l :: rest)
      unfold finishLocales
      dsimp only
      rw [localeLoop]
      cases ht : typeLoop P (localeCfg (a.cfg.initiate a.now) (a.cfg.initiate a.now).toInternal l) l (P.sanitize a.str)
        a.formats s.types with
      | none => rfl
      | some dt => rfl
  | types l rest n j =>
    simp only [stepCall]
    by_cases hj : j < n
    · rw [if_pos hj]
      cases ht : s.types[j]? with
      | none =>
        dsimp only [finish]
        rw [drop_take_none ht, drop_take_none (getElem?_succ_none ht)]
      | some t =>
        dsimp only
        split
        · rename_i h
          show finish P a s _ = _
          dsimp only [finish]
          rw [drop_take_cons hj ht, typeLoop]
          simp only [h, if_true]
          by_cases hp : (a.cfg.initiate a.now).tryPrevious = true
          · simp only [hp, if_true, finish]
          · simp only [hp, Bool.false_eq_true, if_false, finish]
        · rename_i h
          dsimp only [finish]
          rw [drop_take_cons hj ht, typeLoop]
          simp only [h, Bool.false_eq_true, if_false]
    · rw [if_neg hj]
      dsimp only [finish]
      rw [drop_take_end _ hj]; rfl
  | saveTest l dt =>
    have hr : finish P a s (.saveTest l dt) = (saveUsed s l, .ok dt) := rfl
    rw [hr]
    simp only [stepCall]
    unfold saveUsed
    by_cases h : s.tracker.contains l.name = true
    · rw [if_pos h, if_pos h]; rfl
    · rw [if_neg h, if_neg h]; rfl
  | saveName l dt => rfl
  | saveLocale l dt => rfl

/-- The first step does all of it. -/
theorem start_finish (P : Parts) (a : Args) (s : ParserSt) :
    finish P a s (.checkTypes s.types.length 0) = parse P a.now s (some a.cfg) a.str a.formats := by
  dsimp only [finish]
  rw [List.take_length, List.drop_zero]
  rfl

theorem step_active (P : Parts) (a : Args) (s : ParserSt) (pc : PC) (hw : pc.working = true) :
    (stepCall P a s pc).1.working = true ∨ ∃ r, (stepCall P a s pc).1 = .unlock r := by
  cases pc with
  | idle => simp [PC.working] at hw
  | called => simp [PC.working] at hw
  | unlock r => simp [PC.working] at hw
  | done r => simp [PC.working] at hw
  | locales ls => cases ls <;> simp [stepCall, PC.working]
  | checkTypes n i =>
    simp only [stepCall]
    repeat' split
    all_goals simp [PC.working]
  | types l rest n j =>
    simp only [stepCall]
    repeat' split
    all_goals simp [PC.working]
  | testTypes => simp only [stepCall]; split <;> simp [PC.working]
  | fillTypes => simp [stepCall, PC.working]
  | config => simp only [stepCall]; repeat' split
              all_goals simp [PC.working]
  | previous n i => simp only [stepCall]; repeat' split
                    all_goals simp [PC.working]
  | load prev => simp only [stepCall]; repeat' split
                 all_goals simp [PC.working]
  | saveTest l dt => simp only [stepCall]; split <;> simp [PC.working]
  | saveName l dt => simp [stepCall, PC.working]
  | saveLocale l dt => simp [stepCall, PC.working]

/-! ## The invariant -/

/-- Between `Lock` and the return. -/
def PC.inside (p : PC) : Prop := p.working = true ∨ ∃ r, p = .unlock r

structure ConcInv (P : Parts) (args : Nat → Args) (obj : ParserSt) (seen : List Ev) (s : Sys) (order : List Nat) :
    Prop where
  once : order.Nodup
  mem : ∀ i, i ∈ order ↔ ¬ (s.pc i = .idle ∨ s.pc i = .called)
  invoked : ∀ i, Ev.invoke i ∈ seen ↔ s.pc i ≠ .idle
  returned : ∀ i r, Ev.ret i r ∈ seen ↔ s.pc i = .done r
  result : ∀ earlier i later r, order = earlier ++ i :: later → s.pc i = .done r →
    r = sequentially P obj (earlier.map args) (args i)
  time : ∀ i j r, Before seen (Ev.ret i r) (Ev.invoke j) → j ∈ order → Before order i j
  free : s.lock = none → (∀ i, ¬ PC.inside (s.pc i)) ∧ s.obj = afterCalls P obj (order.map fun i => callOf (args i))
  held : ∀ k, s.lock = some k → PC.inside (s.pc k) ∧ (∀ i, i ≠ k → ¬ PC.inside (s.pc i)) ∧
    ∃ earlier, order = earlier ++ [k] ∧ finish P (args k) s.obj (s.pc k) =
      parse P (args k).now (afterCalls P obj (earlier.map fun i => callOf (args i))) (some (args k).cfg)
        (args k).str (args k).formats

theorem setPC_same (s : Sys) (i : Nat) (p : PC) : s.setPC i p i = p := by simp [Sys.setPC]
theorem setPC_other (s : Sys) {i j : Nat} (p : PC) (h : j ≠ i) : s.setPC i p j = s.pc j := by simp [Sys.setPC, h]

theorem before_append {α : Type} {l : List α} {i j : α} (m : List α) (h : Before l i j) : Before (l ++ m) i j := by
  obtain ⟨a, b, c, rfl⟩ := h
  exact ⟨a, b, c ++ m, by simp⟩

/-- In an appended list: the pair was there before, or the second is the new element. -/
theorem before_snoc {α : Type} {l : List α} {x i j : α} (h : Before (l ++ [x]) i j) :
    Before l i j ∨ (j = x ∧ i ∈ l) := by
  obtain ⟨a, b, c, h⟩ := h
  rcases List.eq_nil_or_concat c with rfl | ⟨c', y, rfl⟩
  · have h' : l ++ [x] = (a ++ i :: b) ++ [j] := by rw [h]; simp
    have := List.append_inj' h' rfl
    right
    refine ⟨by simpa using this.2.symm, ?_⟩
    rw [this.1]; simp
  · have h' : l ++ [x] = (a ++ i :: (b ++ j :: c')) ++ [y] := by rw [h]; simp
    have := List.append_inj' h' rfl
    left
    exact ⟨a, b, c', this.1⟩

theorem before_mem_right {α : Type} {l : List α} {i j : α} (h : Before l i j) : j ∈ l := by
  obtain ⟨a, b, c, rfl⟩ := h; simp
theorem before_mem_left {α : Type} {l : List α} {i j : α} (h : Before l i j) : i ∈ l := by
  obtain ⟨a, b, c, rfl⟩ := h; simp

theorem before_of_mem_snoc {α : Type} {l : List α} {i x : α} (h : i ∈ l) : Before (l ++ [x]) i x := by
  obtain ⟨a, b, rfl⟩ := List.append_of_mem h
  exact ⟨a, b, [], by simp⟩

theorem split_snoc {α : Type} {order earlier later : List α} {i k : α} (h : order ++ [k] = earlier ++ i :: later) :
    (later = [] ∧ i = k ∧ earlier = order) ∨ ∃ later', later = later' ++ [k] ∧ order = earlier ++ i :: later' := by
  rcases List.eq_nil_or_concat later with rfl | ⟨l', y, rfl⟩
  · have := List.append_inj' h rfl
    left
    exact ⟨rfl, by simpa using this.2.symm, this.1.symm⟩
  · have h' : order ++ [k] = (earlier ++ i :: l') ++ [y] := by rw [h]; simp
    have := List.append_inj' h' rfl
    right
    have hy : y = k := by simpa using this.2.symm
    exact ⟨l', by rw [hy, List.concat_eq_append], this.1⟩

theorem afterCalls_append (P : Parts) (s : ParserSt) (a b : List Call) :
    afterCalls P s (a ++ b) = afterCalls P (afterCalls P s a) b := by
  induction a generalizing s with
  | nil => rfl
  | cons c r ih => exact ih _

theorem not_inside_idle : ¬ PC.inside .idle := by rintro (h | ⟨r, h⟩) <;> simp [PC.working] at h
theorem not_inside_called : ¬ PC.inside .called := by rintro (h | ⟨r, h⟩) <;> simp [PC.working] at h
theorem not_inside_done (r : Except ParseErr DateRes) : ¬ PC.inside (.done r) := by
  rintro (h | ⟨r, h⟩) <;> simp [PC.working] at h

theorem ConcInv.start (P : Parts) (args : Nat → Args) (obj : ParserSt) :
    ConcInv P args obj [] ⟨none, obj, fun _ => .idle⟩ [] where
  once := List.nodup_nil
  mem i := by simp
  invoked i := by simp
  returned i r := by simp
  result := by intro e i l r h; simp at h
  time := by intro i j r _ h; simp at h
  free := by intro _; exact ⟨fun i => not_inside_idle, rfl⟩
  held := by intro k h; simp at h

/-- A call is made. -/
theorem ConcInv.invoke {P : Parts} {args : Nat → Args} {obj : ParserSt} {seen : List Ev} {s : Sys} {order : List Nat}
    (I : ConcInv P args obj seen s order) (i : Nat) (h : s.pc i = .idle) :
    ConcInv P args obj (seen ++ [.invoke i]) { s with pc := s.setPC i .called } order where
  once := I.once
  mem j := by
    rw [I.mem j]
    by_cases e : j = i
    · subst e; simp [setPC_same, h]
    · simp [setPC_other s _ e]
  invoked j := by
    by_cases e : j = i
    · subst e; simp [setPC_same]
    · simp [setPC_other s _ e, e, I.invoked j]
  returned j r := by
    by_cases e : j = i
    · subst e
      have := I.returned j r
      rw [h] at this
      simp only [reduceCtorEq, iff_false] at this
      simp [setPC_same, this]
    · simp [setPC_other s _ e, I.returned j r]
  result e j l r ho hd := by
    by_cases hj : j = i
    · subst hj; dsimp only at hd; rw [setPC_same] at hd; simp at hd
    · dsimp only at hd; rw [setPC_other s _ hj] at hd; exact I.result e j l r ho hd
  time j k r hb hk := by
    rcases before_snoc hb with hb | ⟨he, _⟩
    · exact I.time j k r hb hk
    · injection he with he
      subst he
      exact absurd (Or.inl h) ((I.mem k).mp hk)
  free hf := by
    refine ⟨fun j => ?_, (I.free hf).2⟩
    by_cases e : j = i
    · subst e; dsimp only; rw [setPC_same]; exact not_inside_called
    · dsimp only; rw [setPC_other s _ e]; exact (I.free hf).1 j
  held k hk := by
    obtain ⟨h1, h2, h3⟩ := I.held k hk
    have hki : k ≠ i := by rintro rfl; rw [h] at h1; exact not_inside_idle h1
    dsimp only
    rw [setPC_other s _ hki]
    refine ⟨h1, fun j hj => ?_, h3⟩
    by_cases e : j = i
    · subst e; rw [setPC_same]; exact not_inside_called
    · rw [setPC_other s _ e]; exact h2 j hj

/-- The mutex is taken. -/
theorem ConcInv.lock {P : Parts} {args : Nat → Args} {obj : ParserSt} {seen : List Ev} {s : Sys} {order : List Nat}
    (I : ConcInv P args obj seen s order) (i : Nat) (h : s.pc i = .called) (hf : s.lock = none) :
    ConcInv P args obj seen { s with lock := some i, pc := s.setPC i (.checkTypes s.obj.types.length 0) }
      (order ++ [i]) where
  once := by
    rw [List.nodup_append]
    refine ⟨I.once, by simp, ?_⟩
    intro a ha b hb e
    rw [List.mem_singleton] at hb
    subst hb; subst e
    exact absurd (Or.inr h) ((I.mem a).mp ha)
  mem j := by
    rw [List.mem_append, List.mem_singleton, I.mem j]
    by_cases e : j = i
    · subst e; simp [setPC_same]
    · simp [setPC_other s _ e, e]
  invoked j := by
    rw [I.invoked j]
    by_cases e : j = i
    · subst e; simp [setPC_same, h]
    · simp [setPC_other s _ e]
  returned j r := by
    rw [I.returned j r]
    by_cases e : j = i
    · subst e; simp [setPC_same, h]
    · simp [setPC_other s _ e]
  result e j l r ho hd := by
    by_cases hj : j = i
    · subst hj; dsimp only at hd; rw [setPC_same] at hd; simp at hd
    · dsimp only at hd; rw [setPC_other s _ hj] at hd
      rcases split_snoc ho with ⟨_, he, _⟩ | ⟨l', _, ho'⟩
      · exact absurd he hj
      · exact I.result e j l' r ho' hd
  time j k r hb hk := by
    rw [List.mem_append, List.mem_singleton] at hk
    rcases hk with hk | rfl
    · exact before_append _ (I.time j k r hb hk)
    · have hj : Ev.ret j r ∈ seen := before_mem_left hb
      rw [I.returned] at hj
      exact before_of_mem_snoc ((I.mem j).mpr (by simp [hj]))
  free hf := by simp at hf
  held k hk := by
    injection hk with hk
    subst hk
    dsimp only
    rw [setPC_same]
    refine ⟨Or.inl rfl, fun j hj => ?_, order, rfl, ?_⟩
    · rw [setPC_other s _ hj]; exact (I.free hf).1 j
    · rw [start_finish, (I.free hf).2]

/-- A working call holds the mutex. -/
theorem ConcInv.holder {P : Parts} {args : Nat → Args} {obj : ParserSt} {seen : List Ev} {s : Sys} {order : List Nat}
    (I : ConcInv P args obj seen s order) {i : Nat} (h : PC.inside (s.pc i)) : s.lock = some i := by
  cases hl : s.lock with
  | none => exact absurd h ((I.free hl).1 i)
  | some k =>
    by_cases e : i = k
    · rw [e]
    · exact absurd h ((I.held k hl).2.1 i e)

theorem inside_not {p : PC} (h : PC.inside p) : p ≠ .idle ∧ p ≠ .called ∧ ∀ r, p ≠ .done r := by
  refine ⟨?_, ?_, ?_⟩
  · rintro rfl; exact not_inside_idle h
  · rintro rfl; exact not_inside_called h
  · rintro r rfl; exact not_inside_done r h

/-- A call works. -/
theorem ConcInv.work {P : Parts} {args : Nat → Args} {obj : ParserSt} {seen : List Ev} {s : Sys} {order : List Nat}
    (I : ConcInv P args obj seen s order) (i : Nat) (h : (s.pc i).working = true) :
    ConcInv P args obj seen
      { s with obj := (stepCall P (args i) s.obj (s.pc i)).2, pc := s.setPC i (stepCall P (args i) s.obj (s.pc i)).1 }
      order := by
  have hl := I.holder (Or.inl h)
  have hin : PC.inside (stepCall P (args i) s.obj (s.pc i)).1 := step_active P (args i) s.obj (s.pc i) h
  have hn := inside_not hin
  have hn0 := inside_not (p := s.pc i) (Or.inl h)
  refine ⟨I.once, fun j => ?_, fun j => ?_, fun j r => ?_, fun e j l r ho hd => ?_, I.time, fun hf => ?_, fun k hk => ?_⟩
  · rw [I.mem j]
    by_cases e : j = i
    · subst e; simp [setPC_same, hn, hn0]
    · simp [setPC_other s _ e]
  · rw [I.invoked j]
    by_cases e : j = i
    · subst e; simp [setPC_same, hn, hn0]
    · simp [setPC_other s _ e]
  · rw [I.returned j r]
    by_cases e : j = i
    · subst e; simp [setPC_same, hn, hn0]
    · simp [setPC_other s _ e]
  · by_cases hj : j = i
    · subst hj; dsimp only at hd; rw [setPC_same] at hd; exact absurd hd (hn.2.2 r)
    · dsimp only at hd; rw [setPC_other s _ hj] at hd; exact I.result e j l r ho hd
  · dsimp only at hf; rw [hl] at hf; simp at hf
  · have hki : k = i := by dsimp only at hk; rw [hl] at hk; injection hk with hk; exact hk.symm
    subst hki
    obtain ⟨_, h2, e, ho, hfin⟩ := I.held k hl
    dsimp only
    rw [setPC_same]
    refine ⟨hin, fun j hj => ?_, e, ho, ?_⟩
    · rw [setPC_other s _ hj]; exact h2 j hj
    · rw [step_finish P (args k) s.obj (s.pc k) h, hfin]

/-- A call returns. -/
theorem ConcInv.unlock {P : Parts} {args : Nat → Args} {obj : ParserSt} {seen : List Ev} {s : Sys} {order : List Nat}
    (I : ConcInv P args obj seen s order) (i : Nat) (r : Except ParseErr DateRes) (h : s.pc i = .unlock r) :
    ConcInv P args obj (seen ++ [.ret i r]) { s with lock := none, pc := s.setPC i (.done r) } order := by
  have hl := I.holder (i := i) (Or.inr ⟨r, h⟩)
  obtain ⟨_, h2, e, ho, hfin⟩ := I.held i hl
  rw [h] at hfin
  dsimp only [finish] at hfin
  refine ⟨I.once, fun j => ?_, fun j => ?_, fun j r' => ?_, fun e' j l r' ho' hd => ?_, fun j k r' hb hk => ?_,
    fun _ => ?_, fun k hk => ?_⟩
  · rw [I.mem j]
    by_cases e : j = i
    · subst e; simp [setPC_same, h]
    · simp [setPC_other s _ e]
  · rw [List.mem_append, I.invoked j]
    by_cases e : j = i
    · subst e; simp [setPC_same, h]
    · simp [setPC_other s _ e]
  · rw [List.mem_append, I.returned j r']
    by_cases e : j = i
    · subst e
      simp only [h, reduceCtorEq, List.mem_singleton, Ev.ret.injEq, true_and, false_or, setPC_same, PC.done.injEq]
      exact eq_comm
    · simp [setPC_other s _ e, e]
  · by_cases hj : j = i
    · subst hj
      dsimp only at hd; rw [setPC_same] at hd; injection hd with hd
      subst hd
      have hnd := I.once
      rw [ho] at ho'
      rcases split_snoc ho' with ⟨_, _, he⟩ | ⟨l', hl', ho''⟩
      · rw [he]
        unfold sequentially
        rw [List.map_map]
        exact congrArg Prod.snd hfin
      · rw [ho, ho''] at hnd
        rw [List.nodup_append] at hnd
        exact absurd rfl (hnd.2.2 j (by simp) j (by simp))
    · dsimp only at hd; rw [setPC_other s _ hj] at hd; exact I.result e' j l r' ho' hd
  · rcases before_snoc hb with hb | ⟨he, _⟩
    · exact I.time j k r' hb hk
    · simp at he
  · refine ⟨fun j => ?_, ?_⟩
    · dsimp only
      by_cases e : j = i
      · subst e; rw [setPC_same]; exact not_inside_done r
      · rw [setPC_other s _ e]; exact h2 j e
    · dsimp only
      rw [ho, List.map_append, afterCalls_append]
      exact congrArg Prod.fst hfin
  · simp at hk

theorem exec_inv {P : Parts} {args : Nat → Args} {obj : ParserSt} {seen : List Ev} {s : Sys}
    (h : Exec P args obj seen s) : ∃ order, ConcInv P args obj seen s order := by
  induction h with
  | start => exact ⟨[], ConcInv.start P args obj⟩
  | silent e st ih =>
    obtain ⟨order, I⟩ := ih
    cases st with
    | lock i h hf => exact ⟨_, I.lock i h hf⟩
    | work i h => exact ⟨_, I.work i h⟩
  | event e st ih =>
    obtain ⟨order, I⟩ := ih
    cases st with
    | invoke i h => exact ⟨_, I.invoke i h⟩
    | unlock i r h => exact ⟨_, I.unlock i r h⟩

/-- **C34.** Whatever calls of `Parse` run at once on one object, and however their steps interleave: there is an order
of the calls that explains what each returned (linearizability). -/
theorem C34_linearizable (P : Parts) (args : Nat → Args) (obj : ParserSt) (seen : List Ev) (s : Sys)
    (h : Exec P args obj seen s) : ∃ order, Explains P args obj seen order := by
  obtain ⟨order, I⟩ := exec_inv h
  refine ⟨order, I.once, fun i hi => (I.invoked i).mpr fun e => (I.mem i).mp hi (Or.inl e),
    fun i r hr => (I.mem i).mpr ?_, fun e i l r ho hr => I.result e i l r ho ((I.returned i r).mp hr), I.time⟩
  rw [I.returned] at hr
  simp [hr]

/-- **C34, mutual exclusion.** At most one call is working on the object. -/
theorem C34_exclusive (P : Parts) (args : Nat → Args) (obj : ParserSt) (seen : List Ev) (s : Sys)
    (h : Exec P args obj seen s) (i j : Nat) (hi : (s.pc i).working = true) (hj : (s.pc j).working = true) : i = j := by
  obtain ⟨order, I⟩ := exec_inv h
  have h1 := I.holder (Or.inl hi)
  have h2 := I.holder (Or.inl hj)
  rw [h1] at h2
  injection h2

/-! ## No deadlock -/

/-- The call, run on its own, gets to `Unlock`. -/
inductive Ends (P : Parts) (a : Args) : ParserSt → PC → Prop
  | here (s : ParserSt) (r : Except ParseErr DateRes) : Ends P a s (.unlock r)
  | step {s : ParserSt} {pc : PC} (hw : pc.working = true)
      (h : Ends P a (stepCall P a s pc).2 (stepCall P a s pc).1) : Ends P a s pc

theorem ends_save (P : Parts) (a : Args) (s : ParserSt) (l : LocaleInfo) (dt : DateRes) : Ends P a s (.saveTest l dt) := by
  refine .step rfl ?_
  simp only [stepCall]
  split
  · exact .here _ _
  · exact .step rfl (.step rfl (.here _ _))

theorem ends_types (P : Parts) (a : Args) (s : ParserSt) (l : LocaleInfo) (rest : List LocaleInfo)
    (hr : Ends P a s (.locales rest)) (n : Nat) : ∀ k j, n - j = k → Ends P a s (.types l rest n j) := by
  intro k
  induction k with
  | zero =>
    intro j hj
    refine .step rfl ?_
    simp only [stepCall]
    rw [if_neg (by omega)]
    exact hr
  | succ k ih =>
    intro j hj
    refine .step rfl ?_
    simp only [stepCall]
    rw [if_pos (by omega)]
    cases s.types[j]? with
    | none => exact ih (j + 1) (by omega)
    | some t =>
      dsimp only
      split
      · dsimp only
        split
        · exact ends_save P a s l _
        · exact .here _ _
      · exact ih (j + 1) (by omega)

theorem ends_locales (P : Parts) (a : Args) (s : ParserSt) (ls : List LocaleInfo) : Ends P a s (.locales ls) := by
  induction ls with
  | nil => exact .step rfl (.here _ _)
  | cons l r ih => exact .step rfl (ends_types P a s l r ih _ _ 0 rfl)

theorem ends_load (P : Parts) (a : Args) (s : ParserSt) (prev : List LocaleInfo) : Ends P a s (.load prev) := by
  refine .step rfl ?_
  simp only [stepCall]
  split
  · exact .here _ _
  · exact ends_locales P a s _

theorem ends_previous (P : Parts) (a : Args) (s : ParserSt) (n : Nat) : ∀ k i, n - i = k → Ends P a s (.previous n i) := by
  intro k
  induction k with
  | zero =>
    intro i hi
    refine .step rfl ?_
    simp only [stepCall]
    rw [if_neg (by omega)]
    exact ends_load P a s _
  | succ k ih =>
    intro i hi
    refine .step rfl ?_
    simp only [stepCall]
    rw [if_pos (by omega)]
    cases s.used[i]? with
    | none => exact ih (i + 1) (by omega)
    | some l =>
      dsimp only
      split
      · exact ends_load P a s _
      · exact ih (i + 1) (by omega)

theorem ends_config (P : Parts) (a : Args) (s : ParserSt) : Ends P a s .config := by
  refine .step rfl ?_
  simp only [stepCall]
  split
  · exact .here _ _
  · split
    · exact .here _ _
    · split
      · exact ends_previous P a s _ _ 0 rfl
      · exact ends_load P a s _

theorem ends_testTypes (P : Parts) (a : Args) (s : ParserSt) : Ends P a s .testTypes := by
  refine .step rfl ?_
  simp only [stepCall]
  split
  · exact .step rfl (ends_config P a _)
  · exact ends_config P a s

theorem ends_checkTypes (P : Parts) (a : Args) (s : ParserSt) (n : Nat) :
    ∀ k i, n - i = k → Ends P a s (.checkTypes n i) := by
  intro k
  induction k with
  | zero =>
    intro i hi
    refine .step rfl ?_
    simp only [stepCall]
    rw [if_neg (by omega)]
    exact ends_testTypes P a s
  | succ k ih =>
    intro i hi
    refine .step rfl ?_
    simp only [stepCall]
    rw [if_pos (by omega)]
    cases s.types[i]? with
    | none => exact ih (i + 1) (by omega)
    | some t =>
      dsimp only
      split
      · exact .here _ _
      · exact ih (i + 1) (by omega)

theorem ends_inside (P : Parts) (a : Args) (s : ParserSt) (pc : PC) (h : PC.inside pc) : Ends P a s pc := by
  rcases h with h | ⟨r, rfl⟩
  · cases pc with
    | idle => simp [PC.working] at h
    | called => simp [PC.working] at h
    | unlock r => simp [PC.working] at h
    | done r => simp [PC.working] at h
    | checkTypes n i => exact ends_checkTypes P a s n _ i rfl
    | testTypes => exact ends_testTypes P a s
    | fillTypes => exact .step rfl (ends_config P a _)
    | config => exact ends_config P a s
    | previous n i => exact ends_previous P a s n _ i rfl
    | load prev => exact ends_load P a s prev
    | locales ls => exact ends_locales P a s ls
    | types l rest n j => exact ends_types P a s l rest (ends_locales P a s rest) n _ j rfl
    | saveTest l dt => exact ends_save P a s l dt
    | saveName l dt => exact .step rfl (.step rfl (.here _ _))
    | saveLocale l dt => exact .step rfl (.here _ _)
  · exact .here _ _

/-- What is seen only grows, and other calls stay where they are, while one call finishes. -/
theorem exec_finish {P : Parts} {args : Nat → Args} {obj : ParserSt} {i : Nat} {o : ParserSt} {pc : PC}
    (h : Ends P (args i) o pc) : ∀ {seen : List Ev} {s : Sys}, Exec P args obj seen s → s.obj = o → s.pc i = pc →
      ∃ r s', Exec P args obj (seen ++ [.ret i r]) s' ∧ s'.lock = none ∧ ∀ j, j ≠ i → s'.pc j = s.pc j := by
  induction h with
  | here o r =>
    intro seen s e _ hp
    exact ⟨r, _, .event e (.unlock s i r hp), rfl, fun j hj => setPC_other s _ hj⟩
  | @step o pc hw hnext ih =>
    intro seen s e ho hp
    subst ho; subst hp
    obtain ⟨r, s', h1, h2, h3⟩ := ih (.silent e (.work s i hw)) rfl (setPC_same s i _)
    exact ⟨r, s', h1, h2, fun j hj => by rw [h3 j hj]; exact setPC_other s _ hj⟩

/-- **C34, no deadlock.** From every state that can come about, every call that was made can still return. -/
theorem C34_no_deadlock (P : Parts) (args : Nat → Args) (obj : ParserSt) (seen : List Ev) (s : Sys)
    (h : Exec P args obj seen s) (i : Nat) (hi : Ev.invoke i ∈ seen) :
    ∃ more s', Exec P args obj (seen ++ more) s' ∧ ∃ r, Ev.ret i r ∈ seen ++ more := by
  obtain ⟨order, I⟩ := exec_inv h
  rw [I.invoked] at hi
  -- a call that has the mutex, or can take it, returns
  have key : ∀ {seen : List Ev} {s : Sys}, Exec P args obj seen s → PC.inside (s.pc i) ∨ (s.pc i = .called ∧ s.lock = none) →
      ∃ more s', Exec P args obj (seen ++ more) s' ∧ ∃ r, Ev.ret i r ∈ seen ++ more := by
    intro seen s e hc
    rcases hc with hc | ⟨hc, hf⟩
    · obtain ⟨r, s', h1, _, _⟩ := exec_finish (i := i) (ends_inside P (args i) s.obj (s.pc i) hc) e rfl rfl
      exact ⟨_, s', h1, r, by simp⟩
    · have e' := Exec.silent e (SysStep.lock s i hc hf)
      obtain ⟨r, s', h1, _, _⟩ := exec_finish (i := i) (ends_inside P (args i) s.obj _ (Or.inl rfl)) e' rfl (setPC_same s i _)
      exact ⟨_, s', h1, r, by simp⟩
  by_cases hin : PC.inside (s.pc i)
  · exact key h (Or.inl hin)
  · cases hp : s.pc i with
    | idle => exact absurd hp hi
    | done r => exact ⟨[], s, by simpa using h, r, by simpa using (I.returned i r).mpr hp⟩
    | called =>
      cases hl : s.lock with
      | none => exact key h (Or.inr ⟨hp, hl⟩)
      | some k =>
        obtain ⟨hk, _, _⟩ := I.held k hl
        have hki : i ≠ k := by rintro rfl; rw [hp] at hk; exact not_inside_called hk
        obtain ⟨r, s', h1, h2, h3⟩ := exec_finish (i := k) (ends_inside P (args k) s.obj (s.pc k) hk) h rfl rfl
        obtain ⟨more, s2, h4, r2, h5⟩ := key h1 (Or.inr ⟨by rw [h3 i hki, hp], h2⟩)
        rw [List.append_assoc] at h4 h5
        exact ⟨_, s2, h4, r2, h5⟩
    | unlock r => rw [hp] at hin; exact absurd (Or.inr ⟨r, rfl⟩) hin
    | _ => rw [hp] at hin; exact absurd (Or.inl rfl) hin

/-! ## No duplicates at any moment -/

/-- What holds of the object at every step of a call. -/
def SaveOK (s : ParserSt) (pc : PC) : Prop :=
  (s.used.map (·.name)).Nodup ∧
  match pc with
  | .saveName l _ => (∀ x, x ∈ s.tracker ↔ x ∈ s.used.map (·.name)) ∧ l.name ∉ s.tracker
  | .saveLocale l _ => (∀ x, x ∈ s.tracker ↔ x = l.name ∨ x ∈ s.used.map (·.name)) ∧ l.name ∉ s.used.map (·.name)
  | _ => ∀ x, x ∈ s.tracker ↔ x ∈ s.used.map (·.name)

theorem saveOK_step (P : Parts) (a : Args) (s : ParserSt) (pc : PC) (h : SaveOK s pc) :
    SaveOK (stepCall P a s pc).2 (stepCall P a s pc).1 := by
  cases pc with
  | idle => exact h
  | called => exact h
  | unlock r => exact h
  | done r => exact h
  | checkTypes n i => simp only [stepCall]; repeat' split
                      all_goals exact h
  | testTypes => simp only [stepCall]; split <;> exact h
  | fillTypes => exact h
  | config => simp only [stepCall]; repeat' split
              all_goals exact h
  | previous n i => simp only [stepCall]; repeat' split
                    all_goals exact h
  | load prev => simp only [stepCall]; split <;> exact h
  | locales ls => cases ls <;> exact h
  | types l rest n j =>
    simp only [stepCall]
    split
    · split
      · split
        · dsimp only
          split
          · exact h
          · exact h
        · exact h
      · exact h
    · exact h
  | saveTest l dt =>
    simp only [stepCall]
    split
    · exact h
    · rename_i hc
      exact ⟨h.1, h.2, by simpa using hc⟩
  | saveName l dt =>
    refine ⟨h.1, fun x => ?_, fun e => h.2.2 ((h.2.1 _).mpr e)⟩
    show x ∈ l.name :: s.tracker ↔ _
    rw [List.mem_cons, h.2.1 x]; rfl
  | saveLocale l dt =>
    refine ⟨?_, fun x => ?_⟩
    · show ((s.used ++ [l]).map (·.name)).Nodup
      rw [List.map_append, List.nodup_append]
      refine ⟨h.1, by simp, ?_⟩
      intro x hx y hy e
      simp only [List.map_cons, List.map_nil, List.mem_singleton] at hy
      subst hy; subst e
      exact h.2.2 hx
    · show x ∈ s.tracker ↔ x ∈ (s.used ++ [l]).map (·.name)
      rw [h.2.1 x]; simp [or_comm]

/-- **C34, no duplicates.** At every moment, also in the middle of calls, the object remembers each locale once. -/
theorem C34_no_duplicates (P : Parts) (args : Nat → Args) (detect : Option (List Char → List Name)) (kinds : List Kind)
    (seen : List Ev) (s : Sys) (h : Exec P args (newParser detect (kinds.map Kind.code)) seen s) :
    (s.obj.used.map (·.name)).Nodup := by
  suffices hs : (s.lock = none → SaveOK s.obj .idle) ∧ ∀ k, s.lock = some k → SaveOK s.obj (s.pc k) by
    cases hl : s.lock with
    | none => exact (hs.1 hl).1
    | some k => exact (hs.2 k hl).1
  induction h with
  | start => exact ⟨fun _ => by simp [SaveOK, newParser], fun k hk => by simp at hk⟩
  | silent e st ih =>
    obtain ⟨order, I⟩ := exec_inv e
    cases st with
    | lock i h hf =>
      refine ⟨fun h => by simp at h, fun k hk => ?_⟩
      injection hk with hk
      subst hk
      dsimp only
      rw [setPC_same]
      exact ih.1 hf
    | work i h =>
      rename_i s0
      have hl := I.holder (Or.inl h)
      refine ⟨fun h' => by dsimp only at h'; rw [hl] at h'; simp at h', fun k hk => ?_⟩
      have hki : k = i := by dsimp only at hk; rw [hl] at hk; injection hk with hk; exact hk.symm
      subst hki
      dsimp only
      rw [setPC_same]
      exact saveOK_step P (args k) _ _ (ih.2 k hl)
  | event e st ih =>
    obtain ⟨order, I⟩ := exec_inv e
    cases st with
    | invoke i h =>
      rename_i s0
      refine ⟨ih.1, fun k hk => ?_⟩
      dsimp only
      have hki : k ≠ i := by rintro rfl; have := (I.held k hk).1; rw [h] at this; exact not_inside_idle this
      rw [setPC_other s0 _ hki]
      exact ih.2 k hk
    | unlock i r h =>
      have hl := I.holder (i := i) (Or.inr ⟨r, h⟩)
      have := ih.2 i hl
      rw [h] at this
      exact ⟨fun _ => this, fun k hk => by simp at hk⟩

/-! ## A concrete case -/

/-- Two calls at once, a French and an English one. -/
def twoCalls (i : Nat) : Args :=
  let c := someCall (if i = 0 then "fr" else "en") true
  ⟨c.now, c.cfg, c.str, c.formats⟩

/-- Both are made; the second gets the mutex first and is in the middle of its work. -/
example : ∃ s, Exec someParts twoCalls (newParser none []) [.invoke 0, .invoke 1] s ∧ (s.pc 1).working = true ∧
    (s.pc 0 = .called) := by
  have e1 := Exec.event (Exec.start (P := someParts) (args := twoCalls) (obj := newParser none [])) (.invoke _ 0 rfl)
  have e2 := Exec.event e1 (.invoke _ 1 rfl)
  have e3 := Exec.silent e2 (.lock _ 1 rfl rfl)
  have e4 := Exec.silent e3 (.work _ 1 rfl)
  exact ⟨_, e4, rfl, rfl⟩

/-- The order matters: the English call returns another locale after the French one than alone. -/
example : localeOf (sequentially someParts (newParser none []) [] (twoCalls 1)) = "en".toList ∧
    localeOf (sequentially someParts (newParser none []) [twoCalls 0] (twoCalls 1)) = "fr".toList := by
  decide +kernel

end Verif.Props
