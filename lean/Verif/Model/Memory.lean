import Verif.Model.Parser
/-!
# Memory: what `Parse` and `Search` write

The pure model (`Model/Parser.lean`) cannot say that the caller's configuration stays as it is, because nothing in it can
change.  Here configurations live in memory: a configuration is a cell with five slices, a slice points to an array
cell, `append` and sorting write arrays in place.  Modelled are all writes of config.go, parser.go, search.go and of
language.GetLanguages to configurations and slices of strings; what is computed with them is left out.
-/
set_option autoImplicit false
namespace Verif.Model
open Verif.Go Verif.Data

/-- A `[]string`: its array (`none` for nil) and its length. -/
structure Slice where
  base : Option Nat
  len : Nat

/-- A configuration in memory (`Configuration` or `setting.Configuration`): slices, and the other fields. -/
structure CfgCell where
  locales : Slice
  languages : Slice
  defaultLanguages : Slice
  requiredParts : Slice
  skipTokens : Slice
  /-- the fields that are not slices; its list fields are not used -/
  rest : PCfg

inductive Cell where
  /-- an array, with its whole capacity -/
  | arr (xs : List (List Char))
  | cfg (c : CfgCell)

structure Mem where
  next : Nat
  cell : Nat → Cell

/-- A new cell. -/
def Mem.alloc (m : Mem) (c : Cell) : Nat × Mem :=
  (m.next, { next := m.next + 1, cell := fun a => if a = m.next then c else m.cell a })

/-- Overwriting a cell. -/
def Mem.write (m : Mem) (a : Nat) (c : Cell) : Mem := { m with cell := fun b => if b = a then c else m.cell b }

/-- The contents of a slice. -/
def Mem.slice (m : Mem) (s : Slice) : List (List Char) :=
  match s.base with
  | none => []
  | some a => match m.cell a with
    | .arr xs => xs.take s.len
    | .cfg _ => []

/-- An empty configuration. -/
def emptyCell : CfgCell := ⟨⟨none, 0⟩, ⟨none, 0⟩, ⟨none, 0⟩, ⟨none, 0⟩, ⟨none, 0⟩, {}⟩

/-- The configuration at an address. -/
def Mem.cfgAt (m : Mem) (a : Nat) : CfgCell :=
  match m.cell a with
  | .cfg c => c
  | .arr _ => emptyCell

/-- The configuration at an address, with the contents of its slices. -/
def Mem.value (m : Mem) (a : Nat) : PCfg :=
  let c := m.cfgAt a
  { c.rest with
    locales := m.slice c.locales
    languages := m.slice c.languages
    defaultLanguages := m.slice c.defaultLanguages
    requiredParts := m.slice c.requiredParts
    skipTokens := m.slice c.skipTokens }

/-- `slices.Clone`: nil stays nil; the runtime may give the new array `extra` places more. -/
def Mem.clone (m : Mem) (extra : Nat) (s : Slice) : Slice × Mem :=
  match s.base with
  | none => (s, m)
  | some _ =>
    let r := m.alloc (.arr (m.slice s ++ List.replicate extra []))
    (⟨some r.1, s.len⟩, r.2)

/-- `append(s, xs...)`: in place if the array has room. -/
def Mem.append (m : Mem) (s : Slice) (xs : List (List Char)) : Slice × Mem :=
  if xs.isEmpty then (s, m)
  else match s.base with
    | none => let r := m.alloc (.arr xs); (⟨some r.1, xs.length⟩, r.2)
    | some a =>
      match m.cell a with
      | .arr ys =>
        if s.len + xs.length ≤ ys.length then
          (⟨some a, s.len + xs.length⟩, m.write a (.arr (ys.take s.len ++ xs ++ ys.drop (s.len + xs.length))))
        else
          let r := m.alloc (.arr (ys.take s.len ++ xs))
          (⟨some r.1, s.len + xs.length⟩, r.2)
      | .cfg _ => (s, m)

/-- `sort.Slice(s, …)`: the places of the slice are rearranged in place. -/
def Mem.sort (m : Mem) (s : Slice) (f : List (List Char) → List (List Char)) : Mem :=
  match s.base with
  | none => m
  | some a =>
    match m.cell a with
    | .arr ys => m.write a (.arr (f (ys.take s.len) ++ ys.drop s.len))
    | .cfg _ => m

/-- config.go:154-174 `Clone`. -/
def cloneCfg (m : Mem) (extra : Nat) (a : Nat) : Nat × Mem :=
  let c := m.cfgAt a
  let r1 := m.clone extra c.locales
  let r2 := r1.2.clone extra c.languages
  let r3 := r2.2.clone extra c.defaultLanguages
  let r4 := r3.2.clone extra c.requiredParts
  let r5 := r4.2.clone extra c.skipTokens
  r5.2.alloc (.cfg ⟨r1.1, r2.1, r3.1, r4.1, r5.1, c.rest⟩)

/-- config.go:205-217 `initiate`: assignments to fields of the clone. -/
def initiateMem (m : Mem) (extra : Nat) (now : Time) (a : Nat) : Nat × Mem :=
  let r := cloneCfg m extra a
  let c := r.2.cfgAt r.1
  let m1 := if c.rest.currentTime.isZero then
    r.2.write r.1 (.cfg { c with rest := { c.rest with currentTime := now.inLoc Loc.utc } }) else r.2
  let c1 := m1.cfgAt r.1
  if c1.skipTokens.len = 0 then
    let r2 := m1.alloc (.arr [['t']])
    (r.1, r2.2.write r.1 (.cfg { c1 with skipTokens := ⟨some r2.1, 1⟩ }))
  else (r.1, m1)

/-- config.go:219-233 `toInternalConfig`, setting/config.go:54-69 `Clone`, config.go:235-249 `configFromInternal`:
a new configuration with copies of three slices. -/
def copyInternal (m : Mem) (extra : Nat) (a : Nat) : Nat × Mem :=
  let c := m.cfgAt a
  let r1 := m.clone extra c.requiredParts
  let r2 := r1.2.clone extra c.skipTokens
  let r3 := r2.2.clone extra c.defaultLanguages
  r3.2.alloc (.cfg ⟨⟨none, 0⟩, ⟨none, 0⟩, r3.1, r1.1, r2.1, c.rest⟩)

/-- parser.go:238-242: `languages := slices.Clone(cfg.Languages)`, `append(languages, detectionResults...)`. -/
def languagesMem (m : Mem) (extra : Nat) (a : Nat) (detected : List (List Char)) : Mem :=
  let r := m.clone extra (m.cfgAt a).languages
  (r.2.append r.1 detected).2

/-- parser.go:126-128: `lCfg := iCfg.Clone()`, `lCfg.DateOrder = dateOrder`. -/
def localeMem (m : Mem) (extra : Nat) (i : Nat) : Mem :=
  let r := copyInternal m extra i
  r.2.write r.1 (.cfg (r.2.cfgAt r.1))

/-- … for each locale. -/
def localesMem (extra : Nat) (i : Nat) : Nat → Mem → Mem
  | 0, m => m
  | n + 1, m => localesMem extra i n (localeMem m extra i)

/-- parser.go:92-94: nil is replaced by an empty configuration. -/
def argMem (m : Mem) : Option Nat → Nat × Mem
  | some a => (a, m)
  | none => m.alloc (.cfg emptyCell)

/-- parser.go:68-168 `Parse` on the configuration at `a` (`none`: nil), trying `n` locales. -/
def parseMem (m : Mem) (extra : Nat) (now : Time) (a : Option Nat) (detected : List (List Char)) (n : Nat) : Mem :=
  let r0 := argMem m a
  let r1 := initiateMem r0.2 extra now r0.1
  let r2 := copyInternal r1.2 extra r1.1
  localesMem extra r2.1 n (languagesMem r2.2 extra r1.1 detected)

/-- search.go:123-141 `initSearchConfig`. -/
def initSearchMem (m : Mem) (extra : Nat) (now : Time) (a : Nat) : Nat × Mem :=
  let hadTime := !(m.cfgAt a).rest.currentTime.isZero
  let r := initiateMem m extra now a
  let c := r.2.cfgAt r.1
  if hadTime then r
  else (r.1, r.2.write r.1 (.cfg { c with rest := { c.rest with currentTime := Time.zero } }))

/-- internal/language/languages.go:44-74 `GetLanguages` without locales: a clone, sorted in place. -/
def getLanguagesMem (m : Mem) (extra : Nat) (s : Slice) (f : List (List Char) → List (List Char)) : Mem :=
  let r := m.clone extra s
  r.2.sort r.1 f

/-- search.go:214-232 `parseEntry`: `Parse` with a configuration of its own, again with `CurrentTime` set in it and in
`iCfg`. -/
def parseEntryMem (m : Mem) (extra : Nat) (now : Time) (i : Nat) (base : Option Time) (n : Nat) : Mem :=
  let r := copyInternal m extra i
  let m1 := parseMem r.2 extra now (some r.1) [] n
  match base with
  | none => m1
  | some t =>
    let c := m1.cfgAt r.1
    let m2 := m1.write r.1 (.cfg { c with rest := { c.rest with currentTime := t } })
    let ci := m2.cfgAt i
    let m3 := m2.write i (.cfg { ci with rest := { ci.rest with currentTime := t } })
    parseMem m3 extra now (some r.1) [] n

/-- search.go:143-212 `parseFoundObjects`: one step per entry parsed. -/
def parseEntriesMem (extra : Nat) (now : Time) (i n : Nat) : List (Option Time) → Mem → Mem
  | [], m => m
  | b :: r, m => parseEntriesMem extra now i n r (parseEntryMem m extra now i b n)

/-- search.go:46-121 `Search`: `initSearchConfig`, `GetLanguages`, then `SearchWithLanguage` with the result. -/
def searchMem (m : Mem) (extra : Nat) (now : Time) (a : Nat) (f : List (List Char) → List (List Char))
    (entries : List (Option Time)) (n : Nat) : Mem :=
  let r := initSearchMem m extra now a
  let m1 := getLanguagesMem r.2 extra (r.2.cfgAt r.1).languages f
  let r2 := copyInternal m1 extra r.1
  let r3 := initSearchMem r2.2 extra now r.1
  let r4 := copyInternal r3.2 extra r3.1
  parseEntriesMem extra now r4.1 n entries r4.2

end Verif.Model
