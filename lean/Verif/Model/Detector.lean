import Verif.Model.Language
import Verif.Model.Whole
/-!
# Language detection and `Search`: internal/language/detector.go, languages.go, applicable-check.go, search.go

`none` as the result of a function returning `Option` is a panic, unless said otherwise.
-/
set_option autoImplicit false
namespace Verif.Model
open Verif.Go Verif.Data

/-- What the detection gets from outside: Unicode tables, `norm.NFKD` followed by `norm.NFKC`, the time zone table, and
`data.GetLocaleData` (the locale data and its `Charset`; none: not known). -/
structure DetectEnv where
  uni : Uni
  /-- strutil.go:16 `nfkcTransformer` -/
  compose : List Char → List Char
  table : List TzEntry
  data : Name → Option (Lang × List Char)

/-- language/00-constant.go:55 `commonCharset`. -/
def commonCharset : List Char := "0123456789()\\-/.,:' ".toList

/-- strutil.go:77-88 `NormalizeCharset`. -/
def normalizeCharset (E : DetectEnv) (str : List Char) : List Char :=
  sanitizeSpaces (E.uni.lower (deleteStr ['.'] (normalizeApostrophe (E.compose str))))

/-- languages.go:89-126: the characters of `charset` in no charset of another language.  (Go keeps them in a map and lists
them in random order; only whether a character is among them matters.) -/
def uniqueChars (E : DetectEnv) (languages : List Name) (language : Name) (charset : List Char) : List Char :=
  charset.filter fun c => languages.all fun other =>
    other == language || match E.data other with
      | none => true
      | some (_, cs) => !cs.contains c

/-- languages.go:84-131 `GetUniqueCharsets`: a map, as pairs with different keys. -/
def getUniqueCharsets (E : DetectEnv) (languages : List Name) : List (Name × List Char) :=
  languages.eraseDups.filterMap fun l => (E.data l).map fun d => (l, uniqueChars E languages l d.2)

/-- search.go:143-167 `initUniqueCharsets`: the field `uniqueCharsets` (an empty list for nil) afterwards. -/
def initUniqueCharsets (E : DetectEnv) (languages : List Name) (unique : List (Name × List Char)) : List (Name × List Char) :=
  if unique.length != languages.length || languages.any fun l => (unique.lookup l).isNone then getUniqueCharsets E languages
  else unique

/-- detector.go:74-128 `getLanguageCandidates`. -/
def getLanguageCandidates (E : DetectEnv) (str : List Char) (languages : List Name) (unique : List (Name × List Char)) :
    Option (List Name) :=
  let str := normalizeCharset E str
  if str.all commonCharset.contains then languages.head?.map fun l => [l]
  else
    match languages.find? fun l => ((unique.lookup l).getD []).any str.contains with
    | some l => some [l]
    | none => some (languages.filter fun l => match E.data l with
        | none => false
        | some d => d.2.any str.contains)

/-- applicable-check.go:93-103: the counts of one token. -/
def tokenCounts (U : Uni) (L : Lang) (token : List Char) : Nat × Nat :=
  match L.translations.lookup token with
  | some translations =>
    if token.length ≥ 2 then (if translations.isEmpty then (0, 1) else (1, 0))
    else if isNumberOnly U token then (0, 1) else (0, 0)
  | none => if isNumberOnly U token then (0, 1) else (0, 0)

/-- applicable-check.go:68-106 `CountApplicability`. -/
def countApplicability (E : DetectEnv) (L : Lang) (skip : List (List Char)) (str : List Char) (stripTimezone : Bool) :
    Option (Nat × Nat) := do
  let str := if stripTimezone then (popTzOffset E.table str).1 else str
  let sentences ← splitSentence E.uni L (simplify L str)
  let tokens := (sentences.flatMap fun s => simpleSplit E.uni L s false skip).eraseDups
  pure ((tokens.map fun t => (tokenCounts E.uni L t).1).sum, (tokens.map fun t => (tokenCounts E.uni L t).2).sum)

/-- detector.go:25-44: the score of a candidate, `some none` if it is left out. -/
def candidateScore (E : DetectEnv) (skip : List (List Char)) (str : List Char) (l : Name) : Option (Option (Nat × Nat)) :=
  match E.data l with
  | none => some none
  | some d => do
    let n ← countApplicability E d.1 skip str false
    if n.1 > 0 || n.2 > 0 then some (some n)
    else
      let n ← countApplicability E d.1 skip str true
      if n.1 > 0 || n.2 > 0 then some (some n) else some none

/-- detector.go:25-44: the loop over the candidates. -/
def scoreLoop (E : DetectEnv) (skip : List (List Char)) (str : List Char) : List Name → Option (List (Name × (Nat × Nat)))
  | [] => some []
  | l :: r => do
    let sc ← candidateScore E skip str l
    let rest ← scoreLoop E skip str r
    match sc with
    | some n => some ((l, n) :: rest)
    | none => some rest

/-- detector.go:56-69: the order of the scores, strict. -/
def scoreLt (a b : Nat × Nat) : Bool := if a.1 != b.1 then decide (a.1 > b.1) else decide (a.2 > b.2)

/-- detector.go:56-71: the head after the stable sort, i.e. the first with no better one. -/
def bestScore : List (Name × (Nat × Nat)) → Option (Name × (Nat × Nat))
  | [] => none
  | x :: r =>
    match bestScore r with
    | none => some x
    | some y => if scoreLt y.2 x.2 then some y else some x

/-- detector.go:13-72 `DetectFullTextLanguage`; the outer `none` is a panic, the inner one the error. -/
def detectFullTextLanguage (E : DetectEnv) (skip : List (List Char)) (defaults : List Name) (str : List Char)
    (languages : List Name) (unique : List (Name × List Char)) : Option (Option Name) := do
  let candidates ← getLanguageCandidates E str languages unique
  match candidates with
  | [l] => some (some l)
  | _ =>
    let scores ← scoreLoop E skip (E.uni.normalizeString str) candidates
    match bestScore scores with
    | some b => some (some b.1)
    | none => some defaults.head?

/-! ## search.go -/

/-- search.go:124-141 `initSearchConfig`. -/
def initSearchConfig (now : Time) (c : Option PCfg) : Except CfgErr PCfg :=
  let c := c.getD {}
  let c' := c.initiate now
  match c'.validate with
  | .error e => .error e
  | .ok () => .ok { c' with currentTime := if c.currentTime.isZero then Time.zero else c'.currentTime }

inductive SearchErr where
  | config (e : CfgErr) | load (e : LoadErr) | notDetected | unknownLanguage
deriving DecidableEq

/-- What `Search` needs besides the detection: the clock, the words that are time zones, and `p.Parse` with a
configuration made from the internal one (`configFromInternal`), for any state `σ` of the parser. -/
structure SearchWorld (σ D : Type) extends DetectEnv where
  now : Time
  isTz : List Char → Bool
  parser : PCfg → SearchEnv σ Time D
  /-- `DetectLanguagesFunction` -/
  detect : Option (List Char → List Name)

/-- The fields of `Parser` a search reads and writes: what `Parse` keeps, and `uniqueCharsets`. -/
structure SearchSt (σ : Type) where
  parser : σ
  unique : List (Name × List Char) := []

section
variable {σ D : Type}

/-- search.go:83-122 `SearchWithLanguage`. -/
def searchIn (W : SearchWorld σ D) (c : Option PCfg) (lang : Name) (text : List Char) (s : σ) :
    Option (Except SearchErr (List (ParsedSearch D × List Char))) :=
  match initSearchConfig W.now c with
  | .error e => some (.error (.config e))
  | .ok c =>
    match W.data lang with
    | none => some (.error .unknownLanguage)
    | some d => do
      let r ← searchWithLanguage W.uni (W.parser c) d.1 W.isTz c.skipTokens lang text
        (s, if c.currentTime.isZero then none else some c.currentTime)
      pure (.ok r)

/-- search.go:58-66: the languages of a search. -/
def searchLanguages (W : SearchWorld σ D) (c : PCfg) (text : List Char) : Except LoadErr (List Name) :=
  getLanguages c.locales
    (if c.languages.isEmpty then (match W.detect with | some f => f text | none => c.languages) else c.languages)
    c.useGivenOrder

/-- search.go:49-79 `Search`: the field `uniqueCharsets` afterwards, and the language with the dates and their texts. -/
def search (W : SearchWorld σ D) (st : SearchSt σ) (c : Option PCfg) (text : List Char) :
    Option (List (Name × List Char) × Except SearchErr (Name × List (ParsedSearch D × List Char))) :=
  match initSearchConfig W.now c with
  | .error e => some (st.unique, .error (.config e))
  | .ok c =>
    match searchLanguages W c text with
    | .error e => some (st.unique, .error (.load e))
    | .ok languages =>
      let unique := initUniqueCharsets W.toDetectEnv languages st.unique
      do
        match ← detectFullTextLanguage W.toDetectEnv c.skipTokens c.defaultLanguages text languages unique with
        | none => some (unique, .error .notDetected)
        | some lang =>
          match ← searchIn W (some c) lang text st.parser with
          | .error e => some (unique, .error e)
          | .ok r => some (unique, .ok (lang, r))

end

end Verif.Model
