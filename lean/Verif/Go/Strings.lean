/-!
# Pieces of Go's `strings`, `unicode`

Strings are lists of Unicode characters.  Case mapping is ASCII only; the comments at the use sites
say why this is enough there.
-/
set_option autoImplicit false
namespace Verif.Go

/-- How a Go function can fail to return a value. -/
inductive Fault where
  | error    -- returned a non-nil error
  | diverge  -- a loop without a bound did not stop
  | panic    -- run-time panic
deriving DecidableEq, Repr

/-- `unicode.IsSpace`. -/
def isSpace (c : Char) : Bool :=
  c == '\t' || c == '\n' || c == '\x0b' || c == '\x0c' || c == '\r' || c == ' ' ||
  c == '\u0085' || c == '\u00a0' || c == '\u1680' || ('\u2000' ≤ c && c ≤ '\u200a') ||
  c == '\u2028' || c == '\u2029' || c == '\u202f' || c == '\u205f' || c == '\u3000'

/-- `strings.Fields`: maximal runs of non-space characters. -/
def fieldsAux : List Char → List Char → List (List Char)
  | [], cur => if cur.isEmpty then [] else [cur.reverse]
  | c :: cs, cur =>
    if isSpace c then
      (if cur.isEmpty then fieldsAux cs [] else cur.reverse :: fieldsAux cs [])
    else fieldsAux cs (c :: cur)

/-- `strings.Fields(s)`. -/
def fields (s : List Char) : List (List Char) := fieldsAux s []

/-- `strings.Join(parts, sep)`. -/
def joinWith (sep : List Char) : List (List Char) → List Char
  | [] => []
  | [x] => x
  | x :: y :: r => x ++ sep ++ joinWith sep (y :: r)

/-- `strings.TrimSpace`. -/
def trimSpace (s : List Char) : List Char :=
  ((s.dropWhile isSpace).reverse.dropWhile isSpace).reverse

/-- `strings.Contains(s, sub)`. -/
def containsStr (sub : List Char) : List Char → Bool
  | [] => sub.isEmpty
  | c :: cs => sub.isPrefixOf (c :: cs) || containsStr sub cs

/-- ASCII part of `unicode.ToLower`. -/
def toLowerC (c : Char) : Char := if 'A' ≤ c ∧ c ≤ 'Z' then Char.ofNat (c.toNat + 32) else c
/-- ASCII part of `unicode.ToUpper`. -/
def toUpperC (c : Char) : Char := if 'a' ≤ c ∧ c ≤ 'z' then Char.ofNat (c.toNat - 32) else c
/-- `strings.ToLower` on ASCII text. -/
def toLower (s : List Char) : List Char := s.map toLowerC
/-- `strings.ToUpper` on ASCII text. -/
def toUpper (s : List Char) : List Char := s.map toUpperC

end Verif.Go
