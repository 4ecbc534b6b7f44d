import Verif.Model.Language
/-!
# Patterns of the locale data as syntax

The regular expressions of /repo/internal/data, as the generator (tools/gen_langs.py) reads them.  All begin with `(?i)`.
-/
set_option autoImplicit false
namespace Verif.Model
open Verif.Go

/-- An element of a character class. -/
inductive CItem where
  | rng (lo hi : Char)
  /-- `\d` -/
  | digit
  /-- `\s` -/
  | space
  /-- `\pL` -/
  | letter
  /-- `\pM` -/
  | mark
deriving DecidableEq

def CItem.has (U : Uni) (c : Char) : CItem → Bool
  | .rng lo hi => lo ≤ c && c ≤ hi
  | .digit => c.isDigit
  | .space => isRxSpace c
  | .letter => U.isLetter c
  | .mark => U.isMark c

/-- Characters equal to an ASCII character under Go's simple case folding: both cases, and for `k` and `s` also U+212A and U+017F.
Characters beyond ASCII that have several cases are written as classes (tools/gen_langs.py), so they are not met here. -/
def foldEq (c d : Char) : Bool :=
  d == c || d == c.toLower || d == c.toUpper || ((c == 'k' || c == 'K') && d == '\u212a') || ((c == 's' || c == 'S') && d == '\u017f')

/-- A pattern. -/
inductive Pat where
  | eps
  /-- a text, ignoring case -/
  | lit (s : List Char)
  | cls (neg : Bool) (items : List CItem)
  | seq (a b : Pat)
  | alt (a b : Pat)
  | opt (a : Pat)
  | star (a : Pat)
  | grp (n : Nat) (a : Pat)
  /-- `^`, `\A` -/
  | bos
  /-- `$`, `\z` -/
  | eos
deriving DecidableEq

def litRx : List Char → Rx
  | [] => .eps
  | [c] => .chr (foldEq c)
  | c :: r => .seq (.chr (foldEq c)) (litRx r)

def Pat.toRx (U : Uni) : Pat → Rx
  | .eps => .eps
  | .lit s => litRx s
  | .cls neg items => .chr fun c => items.any (·.has U c) != neg
  | .seq a b => .seq (a.toRx U) (b.toRx U)
  | .alt a b => .alt (a.toRx U) (b.toRx U)
  | .opt a => .opt (a.toRx U)
  | .star a => .star (a.toRx U)
  | .grp n a => .grp n (a.toRx U)
  | .bos => .bos
  | .eos => .eos

def Pat.plus (a : Pat) : Pat := .seq a (.star a)
def Pat.seqs : List Pat → Pat
  | [] => .eps
  | [a] => a
  | a :: r => .seq a (Pat.seqs r)
def Pat.alts : List Pat → Pat
  | [] => .eps
  | [a] => a
  | a :: r => .alt a (Pat.alts r)
/-- `a{0,n}` -/
def Pat.upTo (a : Pat) : Nat → Pat
  | 0 => .eps
  | n + 1 => .opt (.seq a (a.upTo n))
/-- `a{m,n}` -/
def Pat.rep (a : Pat) : Nat → Nat → Pat
  | 0, n => a.upTo n
  | m + 1, n => .seq a (a.rep m (n - 1))

/-- `\d+[.,]?\d*` -/
def Pat.number : Pat := .seqs [.plus (.cls false [.digit]), .opt (.cls false [.rng '.' '.', .rng ',' ',']), .star (.cls false [.digit])]
/-- `[^\pL\pM\d_]` -/
def Pat.noWord : Pat := .cls true [.letter, .mark, .digit, .rng '_' '_']

/-- A locale as data: patterns as syntax. -/
structure LangData where
  name : List Char
  noWordSpacing : Bool := false
  splitterGroup : Nat := 0
  abbreviations : List (List Char) := []
  simplifications : List (Pat × List Tmpl) := []
  translations : List (List Char × List (List Char)) := []
  relativeType : List (List Char × List Char) := []
  relativeRegexes : List (Pat × List Tmpl) := []
  rxCombined : Option (Pat × Nat) := none
  rxExact : Option Pat := none
  knownWords : List (List Char) := []

def LangData.lang (U : Uni) (d : LangData) : Lang where
  name := d.name
  noWordSpacing := d.noWordSpacing
  splitterGroup := d.splitterGroup
  abbreviations := d.abbreviations
  simplifications := d.simplifications.map fun x => (x.1.toRx U, x.2)
  translations := d.translations
  relativeType := d.relativeType
  relativeRegexes := d.relativeRegexes.map fun x => (x.1.toRx U, x.2)
  rxCombined := d.rxCombined.map fun x => (x.1.toRx U, x.2)
  rxExact := d.rxExact.map (·.toRx U)
  knownWords := d.knownWords

/-! ## merge -/

/-- Byte order of strings; the same as the order of code points. -/
def strLe : List Char → List Char → Bool
  | [], _ => true
  | _ :: _, [] => false
  | a :: s, b :: t => if a = b then strLe s t else decide (a.toNat < b.toNat)
/-- `slices.Compact`. -/
def compact : List (List Char) → List (List Char)
  | a :: b :: r => if a = b then compact (b :: r) else a :: compact (b :: r)
  | l => l
/-- 00-locale-data.go:55-61: the translations of a word of the parent. -/
def mergeWords (own parent : List (List Char)) : List (List Char) := compact ((own ++ parent).mergeSort strLe)

/-- 00-locale-data.go:32-80 `merge`: a locale with its parent.  The pairs of a map are in any order with different keys.
`Name`, `DateOrder`, `NoWordSpacing` and `KnownWords` are the child's own. -/
def mergeLang (parent : Option LangData) (child : LangData) : LangData :=
  match parent with
  | none => child
  | some p => { child with
      abbreviations := child.abbreviations ++ p.abbreviations
      simplifications := child.simplifications ++ p.simplifications
      relativeRegexes := child.relativeRegexes ++ p.relativeRegexes
      splitterGroup := if child.splitterGroup = 0 then p.splitterGroup else child.splitterGroup
      translations := p.translations.map (fun x => (x.1, mergeWords ((child.translations.lookup x.1).getD []) x.2)) ++
        child.translations.filter (fun x => (p.translations.lookup x.1).isNone)
      relativeType := p.relativeType ++ child.relativeType.filter (fun x => (p.relativeType.lookup x.1).isNone)
      rxCombined := if child.rxCombined.isNone then p.rxCombined else child.rxCombined
      rxExact := if child.rxExact.isNone then p.rxExact else child.rxExact }

end Verif.Model
