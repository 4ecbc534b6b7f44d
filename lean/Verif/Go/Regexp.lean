import Verif.Go.Strings
/-!
# Go's `regexp` package: the documented leftmost-first semantics

Patterns are given as syntax; matching is backtracking in order of preference (greedy operators first try
to take more), as documented for RE2 and Go.  Text is a list of code points.
-/
set_option autoImplicit false
namespace Verif.Go

/-- Regular expression syntax (the constructs the library uses). -/
inductive Rx where
  | eps
  | chr (p : Char → Bool)
  | seq (a b : Rx)
  | alt (a b : Rx)
  | opt (a : Rx)
  | star (a : Rx)
  | grp (n : Nat) (a : Rx)
  /-- `^` -/
  | bos
  /-- `$` -/
  | eos
  /-- `\b` (ASCII word boundary) -/
  | wb

/-- State of a match: the character before the position, the text from there, the groups captured. -/
structure MSt where
  prev : Option Char
  rest : List Char
  caps : List (Nat × List Char) := []
deriving DecidableEq

/-- `\w` -/
def isWordC (c : Char) : Bool := c.isAlphanum || c == '_'
/-- `\s` -/
def isRxSpace (c : Char) : Bool := c == ' ' || c == '\t' || c == '\n' || c == '\x0c' || c == '\r'

def optWord : Option Char → Bool
  | some c => isWordC c
  | none => false

/-- Greedy repetition; iterations that consume nothing are not repeated. -/
def starRun (f : MSt → List MSt) : Nat → MSt → List MSt
  | 0, s => [s]
  | n + 1, s => ((f s).filter fun t => t.rest.length < s.rest.length).flatMap (starRun f n) ++ [s]

/-- All ways to match at a position, in order of preference. -/
def Rx.run : Rx → MSt → List MSt
  | .eps, s => [s]
  | .chr p, s => match s.rest with
    | c :: r => if p c then [{ s with prev := some c, rest := r }] else []
    | [] => []
  | .seq a b, s => (a.run s).flatMap b.run
  | .alt a b, s => a.run s ++ b.run s
  | .opt a, s => a.run s ++ [s]
  | .star a, s => starRun a.run s.rest.length s
  | .grp n a, s => (a.run s).map fun t =>
      { t with caps := (n, s.rest.take (s.rest.length - t.rest.length)) :: t.caps }
  | .bos, s => if s.prev.isNone then [s] else []
  | .eos, s => if s.rest.isEmpty then [s] else []
  | .wb, s => if optWord s.prev != optWord s.rest.head? then [s] else []

/-- `a{n}` -/
def Rx.rep (a : Rx) : Nat → Rx
  | 0 => .eps
  | n + 1 => .seq a (a.rep n)
/-- `a+` -/
def Rx.plus (a : Rx) : Rx := .seq a (.star a)
def Rx.lit : List Char → Rx
  | [] => .eps
  | c :: r => .seq (.chr (· == c)) (Rx.lit r)
def Rx.alts : List Rx → Rx
  | [] => .alt (.chr fun _ => false) (.chr fun _ => false)
  | [a] => a
  | a :: r => .alt a (Rx.alts r)
def Rx.seqs : List Rx → Rx
  | [] => .eps
  | a :: r => .seq a (Rx.seqs r)
def Rx.digit : Rx := .chr Char.isDigit
def Rx.space : Rx := .chr isRxSpace

/-- Text of a captured group (empty if it took no part), the last time it was captured. -/
def MSt.cap (s : MSt) (n : Nat) : List Char := ((s.caps.find? (·.1 == n)).map (·.2)).getD []

/-- A match found in a text: what comes before it, the state after it. -/
structure RxMatch where
  before : List Char
  text : List Char
  after : MSt

/-- Leftmost match starting at or after a position. -/
def Rx.find (r : Rx) (prev : Option Char) : List Char → Option RxMatch
  | [] => match r.run ⟨prev, [], []⟩ with
    | t :: _ => some ⟨[], [], t⟩
    | [] => none
  | c :: cs => match r.run ⟨prev, c :: cs, []⟩ with
    | t :: _ => some ⟨[], (c :: cs).take ((c :: cs).length - t.rest.length), t⟩
    | [] => (r.find (some c) cs).map fun m => { m with before := c :: m.before }

/-- `rx.FindStringSubmatch`. -/
def Rx.findFirst (r : Rx) (s : List Char) : Option RxMatch := r.find none s
/-- `rx.MatchString`. -/
def Rx.matches (r : Rx) (s : List Char) : Bool := (r.find none s).isSome

/-- `rx.FindAllStringSubmatch(s, -1)` for patterns that never match the empty string; with the text
after the last match. -/
def Rx.findAllFuel (r : Rx) : Nat → Option Char → List Char → List RxMatch × List Char
  | 0, _, s => ([], s)
  | n + 1, prev, s => match r.find prev s with
    | none => ([], s)
    | some m =>
      if m.text.isEmpty then ([], s)
      else
        let x := r.findAllFuel n m.after.prev m.after.rest
        (m :: x.1, x.2)

def Rx.findAll (r : Rx) (s : List Char) : List RxMatch × List Char := r.findAllFuel (s.length + 1) none s

/-- `rx.ReplaceAllString(s, "")`, for patterns that never match the empty string. -/
def Rx.deleteAll (r : Rx) (s : List Char) : List Char :=
  let x := r.findAll s
  (x.1.map (·.before)).flatten ++ x.2

/-- `rx.Split(s, -1)`, for patterns that never match the empty string. -/
def Rx.split (r : Rx) (s : List Char) : List (List Char) :=
  let x := r.findAll s
  x.1.map (·.before) ++ [x.2]

/-! ## Facts -/

/-- The first, i.e. preferred, way to match. -/
def Rx.First (r : Rx) (s t : MSt) : Prop := ∃ l, r.run s = t :: l
/-- No match at this position. -/
def Rx.Fails (r : Rx) (s : MSt) : Prop := r.run s = []

theorem Rx.First.unique {r : Rx} {s t u : MSt} (h : r.First s t) (h' : r.First s u) : t = u := by
  obtain ⟨l, h⟩ := h
  obtain ⟨l', h'⟩ := h'
  rw [h] at h'
  cases h'; rfl

theorem Rx.First.seq {a b : Rx} {s t u : MSt} (h1 : a.First s t) (h2 : b.First t u) : (Rx.seq a b).First s u := by
  obtain ⟨l, h1⟩ := h1
  obtain ⟨l', h2⟩ := h2
  refine ⟨l' ++ l.flatMap b.run, ?_⟩
  simp [Rx.run, h1, h2]

theorem Rx.First.left {a b : Rx} {s t : MSt} (h : a.First s t) : (Rx.alt a b).First s t := by
  obtain ⟨l, h⟩ := h
  exact ⟨l ++ b.run s, by simp [Rx.run, h]⟩

theorem Rx.First.right {a b : Rx} {s t : MSt} (h : a.Fails s) (h' : b.First s t) : (Rx.alt a b).First s t := by
  obtain ⟨l, h'⟩ := h'
  exact ⟨l, by simp [Rx.run, show a.run s = [] from h, h']⟩

theorem Rx.First.some {a : Rx} {s t : MSt} (h : a.First s t) : (Rx.opt a).First s t := by
  obtain ⟨l, h⟩ := h
  exact ⟨l ++ [s], by simp [Rx.run, h]⟩

theorem Rx.First.none {a : Rx} {s : MSt} (h : a.Fails s) : (Rx.opt a).First s s :=
  ⟨[], by simp [Rx.run, show a.run s = [] from h]⟩

theorem Rx.First.eps (s : MSt) : Rx.eps.First s s := ⟨[], rfl⟩

theorem Rx.First.chr {p : Char → Bool} {prev : Option Char} {c : Char} {r : List Char}
    {caps : List (Nat × List Char)} (h : p c = true) : (Rx.chr p).First ⟨prev, c :: r, caps⟩ ⟨Option.some c, r, caps⟩ :=
  ⟨[], by simp [Rx.run, h]⟩

theorem Rx.First.grp {a : Rx} {n : Nat} {s t : MSt} (h : a.First s t) :
    (Rx.grp n a).First s { t with caps := (n, s.rest.take (s.rest.length - t.rest.length)) :: t.caps } := by
  obtain ⟨l, h⟩ := h
  exact ⟨_, by simp only [Rx.run, h, List.map_cons]; rfl⟩

theorem Rx.Fails.chr {p : Char → Bool} {s : MSt} (h : ∀ c, s.rest.head? = Option.some c → p c = false) :
    (Rx.chr p).Fails s := by
  unfold Rx.Fails Rx.run
  cases hr : s.rest with
  | nil => rfl
  | cons c r => simp [h c (by simp [hr])]

theorem Rx.Fails.seq_left {a b : Rx} {s : MSt} (h : a.Fails s) : (Rx.seq a b).Fails s := by
  unfold Rx.Fails at h
  simp [Rx.Fails, Rx.run, h]

theorem Rx.Fails.alt {a b : Rx} {s : MSt} (h : a.Fails s) (h' : b.Fails s) : (Rx.alt a b).Fails s := by
  unfold Rx.Fails at h h'
  simp [Rx.Fails, Rx.run, h, h']

theorem Rx.Fails.grp {a : Rx} {n : Nat} {s : MSt} (h : a.Fails s) : (Rx.grp n a).Fails s := by
  unfold Rx.Fails at h
  simp [Rx.Fails, Rx.run, h]

/-- When `a` matches in exactly one way. -/
theorem Rx.seq_one {a b : Rx} {s t : MSt} (h : a.run s = [t]) : (Rx.seq a b).run s = b.run t := by
  simp [Rx.run, h]

/-- What a match consumes is a piece of the text. -/
theorem starRun_suffix (f : MSt → List MSt)
    (hf : ∀ s t, t ∈ f s → ∃ w, s.rest = w ++ t.rest) :
    ∀ (n : Nat) (s t : MSt), t ∈ starRun f n s → ∃ w, s.rest = w ++ t.rest := by
  intro n
  induction n with
  | zero => intro s t h; simp [starRun] at h; exact ⟨[], by simp [h]⟩
  | succ n ih =>
    intro s t h
    simp only [starRun, List.mem_append, List.mem_flatMap, List.mem_filter, List.mem_singleton] at h
    rcases h with ⟨u, ⟨hu, _⟩, h2⟩ | h
    · obtain ⟨w1, e1⟩ := hf s u hu
      obtain ⟨w2, e2⟩ := ih u t h2
      exact ⟨w1 ++ w2, by rw [e1, e2, List.append_assoc]⟩
    · exact ⟨[], by simp [h]⟩

theorem Rx.run_suffix (r : Rx) : ∀ (s t : MSt), t ∈ r.run s → ∃ w, s.rest = w ++ t.rest := by
  induction r with
  | eps => intro s t h; simp [Rx.run] at h; exact ⟨[], by simp [h]⟩
  | chr p =>
    intro s t h
    unfold Rx.run at h
    split at h
    · rename_i c r hr
      split at h
      · simp at h; exact ⟨[c], by simp [h, hr]⟩
      · simp at h
    · simp at h
  | seq a b iha ihb =>
    intro s t h
    simp only [Rx.run, List.mem_flatMap] at h
    obtain ⟨u, hu, h2⟩ := h
    obtain ⟨w1, e1⟩ := iha s u hu
    obtain ⟨w2, e2⟩ := ihb u t h2
    exact ⟨w1 ++ w2, by rw [e1, e2, List.append_assoc]⟩
  | alt a b iha ihb =>
    intro s t h
    simp only [Rx.run, List.mem_append] at h
    rcases h with h | h
    · exact iha s t h
    · exact ihb s t h
  | opt a iha =>
    intro s t h
    simp only [Rx.run, List.mem_append, List.mem_singleton] at h
    rcases h with h | h
    · exact iha s t h
    · exact ⟨[], by simp [h]⟩
  | star a iha =>
    intro s t h
    exact starRun_suffix a.run iha _ s t h
  | grp n a iha =>
    intro s t h
    simp only [Rx.run, List.mem_map] at h
    obtain ⟨u, hu, rfl⟩ := h
    exact iha s u hu
  | bos => intro s t h; unfold Rx.run at h; split at h <;> simp at h; exact ⟨[], by simp [h]⟩
  | eos => intro s t h; unfold Rx.run at h; split at h <;> simp at h; exact ⟨[], by simp [h]⟩
  | wb => intro s t h; unfold Rx.run at h; split at h <;> simp at h; exact ⟨[], by simp [h]⟩

/-- A pattern that can only match at the beginning. -/
theorem Rx.find_bos (r : Rx) (s : List Char) :
    (Rx.seq .bos r).findFirst s =
      match r.run ⟨none, s, []⟩ with
      | t :: _ => some ⟨[], s.take (s.length - t.rest.length), t⟩
      | [] => none := by
  have later : ∀ (cs : List Char) (c : Char), (Rx.seq .bos r).find (Option.some c) cs = none := by
    intro cs
    induction cs with
    | nil => intro c; rfl
    | cons d ds ih => intro c; simp [Rx.find, Rx.run, ih]
  unfold Rx.findFirst
  cases s with
  | nil =>
    unfold Rx.find
    have : (Rx.seq .bos r).run ⟨none, [], []⟩ = r.run ⟨none, [], []⟩ := by simp [Rx.run]
    rw [this]
    cases r.run ⟨none, [], []⟩ <;> simp
  | cons c cs =>
    unfold Rx.find
    have : (Rx.seq .bos r).run ⟨none, c :: cs, []⟩ = r.run ⟨none, c :: cs, []⟩ := by simp [Rx.run]
    rw [this, later]
    cases r.run ⟨none, c :: cs, []⟩ <;> rfl

end Verif.Go
