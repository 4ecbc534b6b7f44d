import Verif.Spec.SharedChain
import Verif.Spec.DemoCalendars
/-! # C54: calls on different parsers at the same time -/
set_option autoImplicit false
namespace Verif.Props
open Verif.Go Verif.Model Verif.Spec

theorem readBuf_write (f : Nat → Char) (s : List Char) (p : Nat) : readBuf (writeBuf f p s) p s.length = s := by
  have key : ∀ (t : List Char) (d : List Char) (k : Nat), s = d ++ t → k = p + d.length →
      readBuf (writeBuf f p s) k t.length = t := by
    intro t
    induction t with
    | nil => intro d k _ _; rfl
    | cons c t ih =>
      intro d k e hk
      rw [List.length_cons, readBuf]
      congr 1
      · unfold writeBuf
        have : ¬ k < p := by omega
        rw [if_neg this, hk, e]
        simp
      · exact ih (d ++ [c]) (k + 1) (by simp [e]) (by simp; omega)
  exact key s [] p rfl (by simp)

/-- The links between the stages point to the chain's own buffers. -/
def LinksOK (k : Nat) (m : ChainMem) : Prop := ∀ j, 0 < j → j < k → (m.link j).buf = .mid j

theorem setLink_link (m : ChainMem) (j : Nat) (l : ChainLink) (x : Nat) :
    (m.setLink j l).link x = if x = j then l else m.link x := rfl
theorem setBuf_cells (m : ChainMem) (b : Buf) (f : Nat → Char) (x : Buf) :
    (m.setBuf b f).cells x = if x = b then f else m.cells x := rfl
theorem setLink_cells (m : ChainMem) (j : Nat) (l : ChainLink) (x : Buf) : (m.setLink j l).cells x = m.cells x := rfl
theorem setBuf_link (m : ChainMem) (b : Buf) (f : Nat → Char) (x : Nat) : (m.setBuf b f).link x = m.link x := rfl

theorem step_links (fs : List (List Char → List Char)) (i : Nat) (s : List Char) (m : ChainMem) (pc : NormPC)
    (h : LinksOK fs.length m) : LinksOK fs.length (normStep fs i s m pc).2 := by
  intro j h0 hk
  have hj := h j h0 hk
  cases pc with
  | reset a =>
    simp only [normStep]
    split
    · simp only [setLink_link]
      split
      · rename_i e; subst e; exact hj
      · exact hj
    · exact hj
  | setSrc =>
    simp only [normStep, setLink_link, setBuf_link]
    rw [if_neg (by omega)]; exact hj
  | setDst =>
    simp only [normStep, setLink_link]
    rw [if_neg (by omega)]; exact hj
  | run a =>
    simp only [normStep]
    split
    · exact hj
    · simp only [setLink_link, setBuf_link]
      split
      · rename_i e; subst e
        rw [if_neg (by omega)]; exact hj
      · split
        · rename_i e; subst e; exact hj
        · exact hj
  | finish => exact hj
  | done r => exact hj

theorem run_links (fs : List (List Char → List Char)) (texts : Nat → List Char) (sched : List Nat) : ∀ S : NormSys,
    LinksOK fs.length S.mem → LinksOK fs.length (S.run fs texts sched).mem := by
  induction sched with
  | nil => intro S h; exact h
  | cons i sched ih => intro S h; exact ih _ (step_links fs i _ _ _ h)

/-- Call `i` doing `n` steps with nobody in between. -/
def alone (fs : List (List Char → List Char)) (i : Nat) (s : List Char) : Nat → NormPC × ChainMem → NormPC × ChainMem
  | 0, x => x
  | n + 1, x => alone fs i s n (normStep fs i s x.2 x.1)

theorem run_alone (fs : List (List Char → List Char)) (texts : Nat → List Char) (i n : Nat) : ∀ S : NormSys,
    ((S.run fs texts (List.replicate n i)).pc i, (S.run fs texts (List.replicate n i)).mem) =
      alone fs i (texts i) n (S.pc i, S.mem) := by
  induction n with
  | zero => intro S; rfl
  | succ n ih =>
    intro S
    have := ih (S.step fs texts i)
    rw [List.replicate_succ]
    show ((NormSys.run fs texts (S.step fs texts i) (List.replicate n i)).pc i, _) = _
    rw [alone]
    simp only [NormSys.step, if_true] at this ⊢
    exact this

theorem alone_add (fs : List (List Char → List Char)) (i : Nat) (s : List Char) (a b : Nat) : ∀ x,
    alone fs i s (a + b) x = alone fs i s b (alone fs i s a x) := by
  induction a with
  | zero => intro x; simp [alone]
  | succ a ih => intro x; rw [Nat.succ_add, alone, alone, ih]

theorem alone_done (fs : List (List Char → List Char)) (i : Nat) (s : List Char) (n : Nat) (r : Option (List Char)) (m : ChainMem) :
    alone fs i s n (.done r, m) = (.done r, m) := by
  induction n with
  | zero => rfl
  | succ n ih => rw [alone]; exact ih

/-- `Reset` on its own. -/
theorem reset_all (fs : List (List Char → List Char)) (i : Nat) (s : List Char) (m : ChainMem) : ∀ (d j : Nat),
    j + d = fs.length + 1 → ∃ m', alone fs i s d (.reset j, m) = (.reset (fs.length + 1), m') ∧ m'.cells = m.cells ∧
      (∀ x, (m'.link x).buf = (m.link x).buf) ∧
      ∀ x, (x < j → (m'.link x).p = (m.link x).p ∧ (m'.link x).n = (m.link x).n) ∧
        (j ≤ x → x ≤ fs.length → (m'.link x).p = 0 ∧ (m'.link x).n = 0) := by
  intro d
  induction d generalizing m with
  | zero =>
    intro j h
    have : j = fs.length + 1 := by omega
    subst this
    exact ⟨m, rfl, rfl, fun _ => rfl, fun x => ⟨fun _ => ⟨rfl, rfl⟩, fun h1 h2 => by omega⟩⟩
  | succ d ih =>
    intro j h
    rw [alone]
    have e : normStep fs i s m (.reset j) = (.reset (j + 1), m.setLink j { m.link j with p := 0, n := 0 }) := by
      simp only [normStep]; rw [if_pos (by omega)]
    simp only [e]
    obtain ⟨m', h1, h2, h3, h4⟩ := ih (m.setLink j { m.link j with p := 0, n := 0 }) (j + 1) (by omega)
    refine ⟨m', h1, h2, ?_, ?_⟩
    · intro x
      rw [h3 x, setLink_link]
      split
      · rename_i e; subst e; rfl
      · rfl
    · intro x
      obtain ⟨a, b⟩ := h4 x
      constructor
      · intro hx
        have := a (by omega)
        rw [setLink_link, if_neg (by omega)] at this
        exact this
      · intro hx hx'
        by_cases e : x = j
        · subst e
          have := a (by omega)
          rw [setLink_link, if_pos rfl] at this
          exact this
        · exact b (by omega) hx'

/-- Before stage `j`: its link has the text `x`, the later links are empty. -/
structure AtStage (k i j : Nat) (x : List Char) (first : Nat) (m : ChainMem) : Prop where
  text : readBuf (m.cells (m.link j).buf) 0 x.length = x
  p : (m.link j).p = 0
  n : (m.link j).n = x.length
  later : ∀ t, j < t → t ≤ k → (m.link t).p = 0 ∧ (m.link t).n = 0
  own : j ≤ k → ∀ t, j ≤ t → t ≤ k → t ≠ 0 → (m.link t).buf = if t = k then .dst i else .mid t
  src : j = 0 → ∃ a, (m.link 0).buf = .src a
  first : 0 < j → (m.link 0).p = first

theorem stage_step (fs : List (List Char → List Char)) (i : Nat) (s x : List Char) (j first : Nat) (f : List Char → List Char)
    (hf : fs[j]? = some f) (m : ChainMem) (h : AtStage fs.length i j x first m) (h0 : j = 0 → first = x.length) :
    ∃ m', normStep fs i s m (.run j) = (.run (j + 1), m') ∧ AtStage fs.length i (j + 1) (f x) first m' := by
  have hj : j < fs.length := by
    rcases Nat.lt_or_ge j fs.length with h | h
    · exact h
    · rw [List.getElem?_eq_none h] at hf; simp at hf
  have hl := h.later (j + 1) (by omega) (by omega)
  have hread : readBuf (m.cells (m.link j).buf) (m.link j).p ((m.link j).n - (m.link j).p) = x := by
    rw [h.p, h.n, Nat.sub_zero, h.text]
  refine ⟨_, by simp only [normStep]; rw [hf], ?_⟩
  simp only [hread]
  constructor
  · have e : (j + 1 = j) = False := by simp
    simp only [setLink_link, setLink_cells, setBuf_cells, e, if_false, if_true]
    rw [hl.2, readBuf_write]
  · simp only [setLink_link]
    rw [if_neg (by omega), if_pos trivial]
    exact hl.1
  · simp only [setLink_link]
    rw [if_neg (by omega), if_pos trivial]
    simp [hl.2]
  · intro t h1 h2
    simp only [setLink_link, setBuf_link]
    rw [if_neg (by omega), if_neg (by omega)]
    exact h.later t (by omega) h2
  · intro _ t h1 h2 h3
    simp only [setLink_link, setBuf_link]
    rw [if_neg (by omega)]
    split
    · rename_i e
      subst e
      exact h.own (by omega) (j + 1) (by omega) h2 h3
    · exact h.own (by omega) t (by omega) h2 h3
  · intro e; omega
  · intro _
    simp only [setLink_link, setBuf_link]
    by_cases hj0 : j = 0
    · subst hj0
      rw [if_pos rfl, if_pos rfl]
      rw [h0 rfl]
      exact h.n
    · rw [if_neg (by omega), if_neg (by omega)]
      exact h.first (by omega)

theorem stages_all (fs : List (List Char → List Char)) (i : Nat) (s : List Char) (first : Nat) : ∀ (gs : List (List Char → List Char)) (pre : List (List Char → List Char)),
    fs = pre ++ gs → ∀ (x : List Char) (m : ChainMem), AtStage fs.length i pre.length x first m → (pre = [] → first = x.length) →
    ∃ m', alone fs i s gs.length (.run pre.length, m) = (.run fs.length, m') ∧ AtStage fs.length i fs.length (stages gs x) first m' := by
  intro gs
  induction gs with
  | nil =>
    intro pre e x m h _
    have : fs.length = pre.length := by rw [e]; simp
    rw [this] at h ⊢
    exact ⟨m, rfl, h⟩
  | cons f gs ih =>
    intro pre e x m h h0
    have hf : fs[pre.length]? = some f := by rw [e]; simp
    obtain ⟨m1, e1, h1⟩ := stage_step fs i s x pre.length first f hf m h (fun e => h0 (List.length_eq_zero_iff.mp e))
    rw [List.length_cons, alone]
    simp only [e1]
    have := ih (pre ++ [f]) (by rw [e]; simp) (f x) m1 (by simpa using h1) (fun e => by simp at e)
    simpa [stages] using this

/-- From the moment the output is attached: the text waiting in the first link is what is transformed. -/
theorem after_src (fs : List (List Char → List Char)) (hne : fs ≠ []) (i a : Nat) (s x : List Char) (m : ChainMem) (hm : LinksOK fs.length m)
    (hb : (m.link 0).buf = .src a) (hp : (m.link 0).p = 0) (hn : (m.link 0).n = x.length)
    (ht : readBuf (m.cells (.src a)) 0 x.length = x) (hz : ∀ t, 0 < t → t ≤ fs.length → (m.link t).p = 0 ∧ (m.link t).n = 0) :
    ∃ n m', alone fs i s n (.setDst, m) = (.done (if x.length = s.length then some (stages fs x) else none), m') := by
  have hk : 0 < fs.length := List.length_pos_iff.mpr hne
  have hat : AtStage fs.length i 0 x x.length (normStep fs i s m .setDst).2 := by
    simp only [normStep]
    constructor
    · simp only [setLink_link, setLink_cells]
      rw [if_neg (by omega), hb]; exact ht
    · simp only [setLink_link]
      rw [if_neg (by omega)]; exact hp
    · simp only [setLink_link]
      rw [if_neg (by omega)]; exact hn
    · intro t h1 h2
      simp only [setLink_link]
      split
      · rename_i e; subst e
        exact ⟨(hz _ h1 h2).1, rfl⟩
      · exact hz t h1 h2
    · intro _ t h1 h2 h3
      simp only [setLink_link]
      split
      · rfl
      · exact hm t (by omega) (by omega)
    · intro _
      simp only [setLink_link]
      rw [if_neg (by omega)]
      exact ⟨a, hb⟩
    · intro h; omega
  obtain ⟨m', e, h⟩ := stages_all fs i s x.length fs [] rfl x _ hat (fun _ => rfl)
  refine ⟨1 + (fs.length + 2), m', ?_⟩
  rw [alone_add, alone_add]
  have e0 : alone fs i s 1 (.setDst, m) = (.run 0, (normStep fs i s m .setDst).2) := rfl
  rw [e0]
  simp only [List.length_nil] at e
  rw [e]
  have e1 : normStep fs i s m' (.run fs.length) = (.finish, m') := by
    simp only [normStep]; rw [List.getElem?_eq_none (Nat.le_refl _)]
  show alone fs i s 1 (normStep fs i s m' (.run fs.length)) = _
  rw [e1]
  have hbuf := h.own (Nat.le_refl _) fs.length (Nat.le_refl _) (Nat.le_refl _) (by omega)
  rw [if_pos rfl] at hbuf
  show normStep fs i s m' .finish = _
  simp only [normStep]
  have htext := h.text
  rw [hbuf] at htext
  rw [h.first hk, h.n, htext]

/-- `Reset` and the input attached. -/
theorem begin (fs : List (List Char → List Char)) (i : Nat) (s : List Char) (m : ChainMem) (hm : LinksOK fs.length m) :
    ∃ n m', alone fs i s n (.reset 0, m) = (.setDst, m') ∧ LinksOK fs.length m' ∧ (m'.link 0).buf = .src i ∧ (m'.link 0).p = 0 ∧
      (m'.link 0).n = s.length ∧ readBuf (m'.cells (.src i)) 0 s.length = s ∧
      ∀ t, 0 < t → t ≤ fs.length → (m'.link t).p = 0 ∧ (m'.link t).n = 0 := by
  obtain ⟨m1, h1, h2, h3, h4⟩ := reset_all fs i s m (fs.length + 1) 0 (by omega)
  refine ⟨fs.length + 1 + 2, (normStep fs i s m1 .setSrc).2, ?_, ?_, ?_⟩
  · rw [alone_add, h1]
    have : normStep fs i s m1 (.reset (fs.length + 1)) = (.setSrc, m1) := by
      simp only [normStep]; rw [if_neg (by omega)]
    show alone fs i s 1 (normStep fs i s m1 (.reset (fs.length + 1))) = _
    rw [this]
    rfl
  · apply step_links
    intro j a b
    rw [h3 j]; exact hm j a b
  · simp only [normStep, setLink_link, setLink_cells, setBuf_cells, setBuf_link, if_true]
    refine ⟨trivial, trivial, trivial, readBuf_write _ _ _, ?_⟩
    intro t a b
    rw [if_neg (by omega)]
    exact (h4 t).2 (by omega) b

theorem start_links (k : Nat) : LinksOK k NormSys.start.mem := fun _ _ _ => rfl

/-- **C54, undisturbed.** Whatever other calls did before, finished or not, and in whatever state they left the shared
transformer: a call that is not disturbed while it uses it gets its own text, transformed. -/
theorem C54_undisturbed_partial (fs : List (List Char → List Char)) (hne : fs ≠ []) (texts : Nat → List Char) (before : List Nat) (i : Nat)
    (hi : i ∉ before) :
    ∃ n, ∀ more, ((NormSys.start.run fs texts (before ++ List.replicate (n + more) i)).pc i) = .done (some (stages fs (texts i))) := by
  have hpc : ∀ (sched : List Nat) (S : NormSys), i ∉ sched → (S.run fs texts sched).pc i = S.pc i := by
    intro sched
    induction sched with
    | nil => intro S _; rfl
    | cons a sched ih =>
      intro S h
      simp only [List.mem_cons, not_or] at h
      show (NormSys.run fs texts (S.step fs texts a) sched).pc i = _
      rw [ih _ h.2]
      simp [NormSys.step, h.1]
  have hm := run_links fs texts before _ (start_links fs.length)
  obtain ⟨n1, m1, e1, l1, b1, p1, q1, t1, z1⟩ := begin fs i (texts i) _ hm
  obtain ⟨n2, m2, e2⟩ := after_src fs hne i i (texts i) (texts i) m1 l1 b1 p1 q1 t1 z1
  refine ⟨n1 + n2, fun more => ?_⟩
  have hr := run_alone fs texts i (n1 + n2 + more) (NormSys.start.run fs texts before)
  rw [hpc before _ hi, show NormSys.start.pc i = .reset 0 from rfl, alone_add, alone_add, e1, e2, alone_done] at hr
  have happ : NormSys.start.run fs texts (before ++ List.replicate (n1 + n2 + more) i) =
      (NormSys.start.run fs texts before).run fs texts (List.replicate (n1 + n2 + more) i) := by
    unfold NormSys.run; rw [List.foldl_append]
  rw [happ]
  have := congrArg Prod.fst hr
  simpa using this

/-- Interleaved with another call, a call can get the text of the other. -/
theorem chain_mixes (fs : List (List Char → List Char)) (hne : fs ≠ []) (texts : Nat → List Char)
    (hlen : (texts 0).length = (texts 1).length) :
    ∃ sched, (NormSys.start.run fs texts sched).pc 0 = .done (some (stages fs (texts 1))) := by
  -- call 0 up to its input
  obtain ⟨n0, m0, e0, l0, _⟩ := begin fs 0 (texts 0) _ (start_links fs.length)
  have r0 := run_alone fs texts 0 n0 NormSys.start
  rw [show NormSys.start.pc 0 = .reset 0 from rfl, e0] at r0
  -- call 1 up to its input
  obtain ⟨n1, m1, e1, l1, b1, p1, q1, t1, z1⟩ := begin fs 1 (texts 1) m0 l0
  have r1 := run_alone fs texts 1 n1 (NormSys.start.run fs texts (List.replicate n0 0))
  have hpc : ∀ (n a b : Nat) (S : NormSys), a ≠ b → (S.run fs texts (List.replicate n a)).pc b = S.pc b := by
    intro n
    induction n with
    | zero => intro a b S _; rfl
    | succ n ih =>
      intro a b S h
      rw [List.replicate_succ]
      show (NormSys.run fs texts (S.step fs texts a) (List.replicate n a)).pc b = _
      rw [ih _ _ _ h]
      simp [NormSys.step, Ne.symm h]
  rw [hpc n0 0 1 _ (by decide), show NormSys.start.pc 1 = .reset 0 from rfl, (Prod.mk.inj r0).2, e1] at r1
  -- call 0 to the end
  obtain ⟨n2, m2, e2⟩ := after_src fs hne 0 1 (texts 0) (texts 1) m1 l1 b1 p1 q1 t1 z1
  rw [if_pos hlen.symm] at e2
  have r2 := run_alone fs texts 0 n2 ((NormSys.start.run fs texts (List.replicate n0 0)).run fs texts (List.replicate n1 1))
  rw [hpc n1 1 0 _ (by decide), (Prod.mk.inj r0).1, (Prod.mk.inj r1).2, e2] at r2
  refine ⟨List.replicate n0 0 ++ (List.replicate n1 1 ++ List.replicate n2 0), ?_⟩
  have : NormSys.start.run fs texts (List.replicate n0 0 ++ (List.replicate n1 1 ++ List.replicate n2 0)) =
      ((NormSys.start.run fs texts (List.replicate n0 0)).run fs texts (List.replicate n1 1)).run fs texts (List.replicate n2 0) := by
    unfold NormSys.run; rw [List.foldl_append, List.foldl_append]
  rw [this]
  exact (Prod.mk.inj r2).1

/-- What `NormalizeUnicode` returns decides what `ParseJalali` returns. -/
theorem jalali_with (E : Env) (lib : JalaliLib) (c : Option PCfg) (s t : List Char) :
    E.parseJalaliWith lib c s (E.uni.nfkc t) = E.parseJalali lib c t := rfl

/-- **C54 is false of the code.** Whatever two texts of equal length are given to two calls of `ParseJalali` at the same
time: there is an interleaving in which the first call returns what it should return for the text of the other call. -/
theorem C54_other_text (E : Env) (fs : List (List Char → List Char)) (hne : fs ≠ []) (hE : ∀ s, E.uni.nfkc s = stages fs s)
    (lib : JalaliLib) (c : Option PCfg) (texts : Nat → List Char) (hlen : (texts 0).length = (texts 1).length) :
    ∃ sched got, (NormSys.start.run fs texts sched).pc 0 = .done (some got) ∧
      E.parseJalaliWith lib c (texts 0) got = E.parseJalali lib c (texts 1) := by
  obtain ⟨sched, h⟩ := chain_mixes fs hne texts hlen
  exact ⟨sched, _, h, by rw [← hE, jalali_with]⟩

/-- … while undisturbed it returns what it should. -/
theorem C54_own_text_partial (E : Env) (fs : List (List Char → List Char)) (hne : fs ≠ []) (hE : ∀ s, E.uni.nfkc s = stages fs s)
    (lib : JalaliLib) (c : Option PCfg) (texts : Nat → List Char) (before : List Nat) (i : Nat) (hi : i ∉ before) :
    ∃ n got, (NormSys.start.run fs texts (before ++ List.replicate n i)).pc i = .done (some got) ∧
      E.parseJalaliWith lib c (texts i) got = E.parseJalali lib c (texts i) := by
  obtain ⟨n, h⟩ := C54_undisturbed_partial fs hne texts before i hi
  exact ⟨n, _, h 0, by rw [← hE, jalali_with]⟩

def jalaliSeconds (r : Except Fault DateRes) : Option Int :=
  match r with
  | .ok d => some d.time.sec
  | .error _ => none

/-- Two texts of equal length that denote different days; the hypotheses of the theorems are met. -/
example : (∀ s, persianUni.nfkc s = stages [id, fun s => s.map plainLetter, id] s) ∧
    "1394/01/05".toList.length = "1395/02/06".toList.length ∧
    jalaliSeconds (({ demoEnv with uni := persianUni } : Env).parseJalali demoJalali none "1394/01/05".toList) ≠
      jalaliSeconds (({ demoEnv with uni := persianUni } : Env).parseJalali demoJalali none "1395/02/06".toList) ∧
    jalaliSeconds (({ demoEnv with uni := persianUni } : Env).parseJalali demoJalali none "1395/02/06".toList) ≠ none := by
  refine ⟨fun s => rfl, by decide, ?_, ?_⟩ <;> decide +kernel

end Verif.Props
