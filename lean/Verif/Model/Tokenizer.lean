/-! # internal/parser/tokenizer/tokenizer.go -/
set_option autoImplicit false
namespace Verif.Model

/-- tokenizer.go:14-21 `TokenType`. -/
inductive TokType where
  | null | digit | letter | other
deriving DecidableEq, Repr

/-- tokenizer.go:23-26 `Token`. -/
structure Tok where
  text : List Char
  typ : TokType
deriving DecidableEq, Repr

/-- tokenizer.go:10, 70 membership in `digits` or `:`. -/
def isDigitTok (c : Char) : Bool := ('0' ≤ c && c ≤ '9') || c == ':'
/-- tokenizer.go:11, 72 membership in `letters`. -/
def isLetterTok (c : Char) : Bool := ('a' ≤ c && c ≤ 'z') || ('A' ≤ c && c ≤ 'Z')

/-- tokenizer.go:69-84 `compareChars`: type of the first character and whether a token ends between
the two. -/
def compareChars (r1 r2 : Char) : TokType × Bool :=
  if isDigitTok r1 then (.digit, !isDigitTok r2)
  else if isLetterTok r1 then (.letter, !isLetterTok r2)
  else (.other, isDigitTok r2 || isLetterTok r2)

/-- tokenizer.go:43-64, the loop of `Tokenize`; `text` is the current token reversed, `prev` the
previous character, `first` the first character of `text`. -/
def tokLoop : (first prev : Char) → (text : List Char) → List Char → List Tok
  | first, _, text, [] => [⟨text.reverse, (compareChars first '\x00').1⟩]
  | first, prev, text, cur :: rest =>
    let r := compareChars prev cur
    if r.2 then ⟨text.reverse, r.1⟩ :: tokLoop cur cur [cur] rest
    else tokLoop first cur (cur :: text) rest

/-- tokenizer.go:32-67 `Tokenize`. -/
def tokenize : List Char → List Tok
  | [] => []
  | c :: cs => tokLoop c c [c] cs

end Verif.Model
