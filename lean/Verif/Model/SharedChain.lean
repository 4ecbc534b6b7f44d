import Verif.Model.Calendars
/-!
# The Unicode transformer all goroutines share

strutil.go:15-17: `unicodeTransformer` and `nfkcTransformer` are package variables holding a `transform.Chain`, an object
with a mutable array of links.  `transform.String` (called in strutil.go:61 and 79) resets the links, points the first at
its input and the last at its output, runs the stages, and reads from the links how much was done.  No lock protects it:
the mutex of a `Parser` (parser.go:70) serialises the calls on that object only, `ParseJalali` and `ParseHijri`
(jalali-parser.go:12, hijri-parser.go:12) take none, and `Search` calls the language detector (detector.go:76) without.

golang.org/x/text/transform is not in the repository; its `chain` and `String` are modelled from their published
source.  Simplifications: texts shorter than the buffers (128 bytes), so that every stage takes all it is given in one
turn; a stage is one step; memory is sequentially consistent.  (The real program has data races, so that more can
happen, not less.)
-/
set_option autoImplicit false
namespace Verif.Model
open Verif.Go

/-- Buffers: each call has its own for input and output; those between the stages belong to the chain. -/
inductive Buf where
  | src (i : Nat)
  | dst (i : Nat)
  | mid (j : Nat)
deriving DecidableEq

/-- transform.go `link`: `b[p:n]` is waiting for the stage. -/
structure ChainLink where
  buf : Buf
  p : Nat
  n : Nat

/-- The chain object and the memory its links point to. -/
structure ChainMem where
  link : Nat → ChainLink
  cells : Buf → Nat → Char

/-- Where a call of `transform.String` is. -/
inductive NormPC where
  /-- `Reset`: the links from `j` on are still to be reset -/
  | reset (j : Nat)
  /-- `srcL.b, srcL.p, srcL.n = src, 0, len(src)` -/
  | setSrc
  /-- `dstL.b, dstL.n = dst, 0` -/
  | setDst
  /-- stage `j` is next -/
  | run (j : Nat)
  /-- `return dstL.n, srcL.p, err` -/
  | finish
  /-- the text returned; `none`: not all input was taken, `String` goes on (not modelled) -/
  | done (r : Option (List Char))

/-- The text in a buffer from `p` on, `k` characters. -/
def readBuf (f : Nat → Char) (p : Nat) : Nat → List Char
  | 0 => []
  | k + 1 => f p :: readBuf f (p + 1) k

/-- Writing a text into a buffer at position `p`. -/
def writeBuf (f : Nat → Char) (p : Nat) (s : List Char) : Nat → Char := fun x => if x < p then f x else s.getD (x - p) (f x)

def ChainMem.setLink (m : ChainMem) (j : Nat) (l : ChainLink) : ChainMem := { m with link := fun x => if x = j then l else m.link x }
def ChainMem.setBuf (m : ChainMem) (b : Buf) (f : Nat → Char) : ChainMem := { m with cells := fun x => if x = b then f else m.cells x }

/-- One step of call `i`, which was given the text `s`; `fs` are the stages. -/
def normStep (fs : List (List Char → List Char)) (i : Nat) (s : List Char) (m : ChainMem) : NormPC → NormPC × ChainMem
  | .reset j =>
    if j ≤ fs.length then (.reset (j + 1), m.setLink j { m.link j with p := 0, n := 0 }) else (.setSrc, m)
  | .setSrc => (.setDst, (m.setBuf (.src i) (writeBuf (m.cells (.src i)) 0 s)).setLink 0 ⟨.src i, 0, s.length⟩)
  | .setDst => (.run 0, m.setLink fs.length { m.link fs.length with buf := .dst i, n := 0 })
  | .run j =>
    match fs[j]? with
    | none => (.finish, m)
    | some f =>
      let a := m.link j
      let b := m.link (j + 1)
      let y := f (readBuf (m.cells a.buf) a.p (a.n - a.p))
      let m := m.setBuf b.buf (writeBuf (m.cells b.buf) b.n y)
      let m := m.setLink (j + 1) { b with n := b.n + y.length }
      (.run (j + 1), m.setLink j (if j = 0 then { a with p := a.n } else { a with p := 0, n := 0 }))
  | .finish =>
    (.done (if (m.link 0).p = s.length then some (readBuf (m.cells (.dst i)) 0 (m.link fs.length).n) else none), m)
  | .done r => (.done r, m)

/-- The chain and any number of calls. -/
structure NormSys where
  mem : ChainMem
  pc : Nat → NormPC

/-- One step of call `i`. -/
def NormSys.step (fs : List (List Char → List Char)) (texts : Nat → List Char) (S : NormSys) (i : Nat) : NormSys :=
  { mem := (normStep fs i (texts i) S.mem (S.pc i)).2
    pc := fun k => if k = i then (normStep fs i (texts i) S.mem (S.pc i)).1 else S.pc k }

/-- What happens when the calls take turns as the schedule says. -/
def NormSys.run (fs : List (List Char → List Char)) (texts : Nat → List Char) (S : NormSys) (sched : List Nat) : NormSys :=
  sched.foldl (NormSys.step fs texts) S

/-- No call has begun; the chain was made by `transform.Chain`; fresh buffers hold zeros. -/
def NormSys.start : NormSys :=
  { mem := { link := fun j => ⟨.mid j, 0, 0⟩, cells := fun _ _ => '\x00' }, pc := fun _ => .reset 0 }

/-- jalali-parser.go:12-39 `ParseJalali` when `NormalizeUnicode` (called once, in jalali/parser.go:19) returned `t`. -/
def Env.parseJalaliWith (E : Env) (lib : JalaliLib) (c : Option PCfg) (str t : List Char) : Except Fault DateRes :=
  ({ E with uni := { E.uni with nfkc := fun _ => t } } : Env).parseJalali lib c str

end Verif.Model
