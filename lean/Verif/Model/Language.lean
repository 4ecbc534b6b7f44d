import Verif.Go.Regexp
import Verif.Model.Strutil
import Verif.Model.Digit
import Verif.Model.Permutation
import Verif.Model.Search
/-!
# internal/language: splitting, translating, checking

A locale is given by its data (`Lang`); Unicode tables by `Uni`.  Texts are lists of characters; byte offsets of Go are
positions in these lists (the order is the same).  `none` as the result of a function returning `Option` is a panic.
-/
set_option autoImplicit false
namespace Verif.Model
open Verif.Go

/-- What is used of Go's `unicode`, `strings` and `golang.org/x/text` that depends on Unicode tables. -/
structure Uni where
  /-- strutil.go:58-66 `NormalizeUnicode` -/
  nfkc : List Char → List Char
  /-- `strings.ToLower` -/
  lower : List Char → List Char
  /-- `unicode.IsDigit` -/
  isDigit : Char → Bool
  /-- `unicode.IsNumber` -/
  isNumber : Char → Bool
  /-- `\pL` -/
  isLetter : Char → Bool
  /-- `\pM` -/
  isMark : Char → Bool

/-- strutil.go:92-97 `NormalizeString`. -/
def Uni.normalizeString (U : Uni) (s : List Char) : List Char := sanitizeSpaces (U.lower (U.nfkc s))

/-- A piece of a replacement template. -/
inductive Tmpl where
  | lit (s : List Char)
  | ref (n : Nat)

/-- `regexp.Expand`. -/
def expandTmpl (m : MSt) (t : List Tmpl) : List Char :=
  t.flatMap fun
    | .lit s => s
    | .ref n => m.cap n

/-- `rx.ReplaceAllString`, for patterns that never match the empty string. -/
def replaceAllTmpl (rx : Rx) (t : List Tmpl) (s : List Char) : List Char :=
  let r := rx.findAll s
  (r.1.flatMap fun m => m.before ++ expandTmpl m.after t) ++ r.2

/-- data/00-locale-data.go:11-25 `LocaleData`: the fields used here.  Maps are lists of pairs with different keys. -/
structure Lang where
  name : List Char
  noWordSpacing : Bool := false
  splitterGroup : Nat := 0
  abbreviations : List (List Char) := []
  simplifications : List (Rx × List Tmpl) := []
  translations : List (List Char × List (List Char)) := []
  relativeType : List (List Char × List Char) := []
  relativeRegexes : List (Rx × List Tmpl) := []
  /-- with its number of groups -/
  rxCombined : Option (Rx × Nat) := none
  rxExact : Option Rx := none
  knownWords : List (List Char) := []

/-! ## utils.go -/

/-- 00-constant.go:53 `alwaysKeptTokens`. -/
def alwaysKept (s : List Char) : Bool := [['+'], [':'], ['.'], [' '], ['-'], ['/']].contains s
/-- 00-constant.go:52 `dashes`. -/
def isDash (s : List Char) : Bool := [['-'], ['—', '—'], ['—'], ['～']].contains s
/-- 00-constant.go:54 `freshnessWords`. -/
def freshnessWords : List (List Char) :=
  [['d','a','y'], ['w','e','e','k'], ['m','o','n','t','h'], ['y','e','a','r'], ['h','o','u','r'], ['m','i','n','u','t','e'],
   ['s','e','c','o','n','d']]
/-- 00-constant.go:55 `langWithDigitAbbrs`. -/
def langWithDigitAbbrs : List (List Char) := [['f','i'], ['c','s'], ['h','u'], ['d','e'], ['d','a']]

/-- utils.go:12-23 `mapSkippedTokens`. -/
def mapSkippedTokens (skip : List (List Char)) (L : Lang) : List (List Char) :=
  if L.name = ['f','i'] then skip.filter (· != ['t']) else skip

/-- utils.go:31-41: the loop of `join`; `left` is the token before. -/
def joinLoop (sep : List Char) : List Char → List (List Char) → List Char
  | _, [] => []
  | left, right :: r =>
    (if !alwaysKept left && !alwaysKept right then sep else []) ++ right ++ joinLoop sep right r
/-- utils.go:25-44 `join`. -/
def joinTokens (sep : List Char) : List (List Char) → List Char
  | [] => []
  | t :: r => trimSpace (t ++ joinLoop sep t r)

/-- utils.go:46-56 `translateWord`. -/
def Lang.translateWord (L : Lang) (w : List Char) : Option (List (List Char)) :=
  match L.relativeType.lookup w with
  | some t => some [t]
  | none => L.translations.lookup w
/-- utils.go:58-61 `isInDictionary`. -/
def Lang.inDictionary (L : Lang) (w : List Char) : Bool := (L.translateWord w).isSome

/-- strutil.go:147-155 `IsNumberOnly`. -/
def isNumberOnly (U : Uni) (s : List Char) : Bool := s.all U.isDigit

/-! ## split.go -/

/-- split.go:253-258 `tokenShouldBeCaptured`: the two patterns ask for a text without line feed that contains a letter
or an ASCII digit. -/
def shouldCapture (U : Uni) (token : List Char) (keep : Bool) : Bool :=
  keep || alwaysKept token ||
    (!token.contains '\n' && token.any fun c => c.isAlphanum || U.isLetter c)

/-- split.go:226-239: the loop; the current group reversed. -/
def numeralLoop (U : Uni) : Bool → List Char → List Char → List (List Char)
  | _, group, [] => [group.reverse]
  | cur, group, r :: rest =>
    if cur != U.isDigit r then group.reverse :: numeralLoop U (U.isDigit r) [r] rest
    else numeralLoop U cur (r :: group) rest
/-- split.go:223-251 `splitByNumerals`. -/
def splitByNumerals (U : Uni) (str : List Char) (keep : Bool) : List (List Char) :=
  let tokens := match str with
    | [] => [[]]
    | r :: rest => numeralLoop U (U.isDigit r) [r] rest
  tokens.filter fun t => shouldCapture U t keep

/-- split.go:208-221 `checkKnownWordNeighbor`, the character being the neighbour. -/
def neighborOk (U : Uni) : Option Char → Bool
  | none => true
  | some r => r == '_' || U.isNumber r || !(U.isLetter r || U.isMark r || U.isNumber r)

/-- `strings.Index`. -/
def indexStr (sub : List Char) : List Char → Option Nat
  | [] => if sub.isEmpty then some 0 else none
  | c :: s => if sub.isPrefixOf (c :: s) then some 0 else (indexStr sub s).map (· + 1)

/-- split.go:173-205: the loop over the known words; the candidate: its position and the word. -/
def knownLoop (U : Uni) (noWordSpacing : Bool) (str : List Char) :
    List (List Char) → Option (Nat × List Char) → Option (Nat × List Char)
  | [], cand => cand
  | w :: rest, cand =>
    match indexStr w str with
    | none => knownLoop U noWordSpacing str rest cand
    | some pos =>
      if noWordSpacing || (neighborOk U (str.take pos).getLast? && neighborOk U (str.drop (pos + w.length)).head?) then
        let cand := match cand with
          | none => some (pos, w)
          | some (p, v) => if pos < p then some (pos, w) else some (p, v)
        if pos = 0 then cand else knownLoop U noWordSpacing str rest cand
      else knownLoop U noWordSpacing str rest cand

/-- split.go:167-206 `findMatchingKnownWord`. -/
def findKnown (U : Uni) (L : Lang) (str : List Char) : Option (Nat × List Char) :=
  if (trimSpace str).isEmpty then none else knownLoop U L.noWordSpacing str L.knownWords none

/-- split.go:139-165 `splitByKnownWords`; recursion on a shorter text (known words are not empty). -/
def splitByKnownFuel (U : Uni) (L : Lang) (keep : Bool) : Nat → List Char → List (List Char)
  | 0, _ => []
  | n + 1, str =>
    match findKnown U L str with
    | none => if shouldCapture U str keep then splitByNumerals U str keep else []
    | some (pos, w) =>
      let unparsed := str.take pos
      let unknown := str.drop (pos + w.length)
      (if !unparsed.isEmpty && shouldCapture U unparsed keep then splitByNumerals U unparsed keep else []) ++
      (if shouldCapture U w keep then [w] else []) ++
      (if !unknown.isEmpty then splitByKnownFuel U L keep n unknown else [])
def splitByKnown (U : Uni) (L : Lang) (keep : Bool) (str : List Char) : List (List Char) :=
  splitByKnownFuel U L keep (str.length + 1) str

/-- 00-constant.go:20 `splitSeparator`. -/
def splitSeparator : List Char := ['|', '#', '=', '#', '=', '#', '|']

/-- split.go:99-137 `splitWithRegex`: the loop, for a pattern with `k` groups that never matches the empty string.  Each
turn matches in the rest as if it were the whole text. -/
def splitWithRegexFuel (rx : Rx) (k : Nat) : Nat → List Char → List Char
  | 0, s => s
  | n + 1, s =>
    match rx.findFirst s with
    | none => s
    | some m =>
      m.before ++
      (if k = 1 then splitSeparator ++ m.after.cap 1 ++ splitSeparator
       else if k = 3 then m.after.cap 1 ++ splitSeparator ++ m.after.cap 2 ++ splitSeparator ++ m.after.cap 3
       else splitSeparator ++ m.text ++ splitSeparator) ++
      splitWithRegexFuel rx k n m.after.rest
def splitWithRegex (rx : Rx) (k : Nat) (s : List Char) : List Char := splitWithRegexFuel rx k (s.length + 1) s

/-- split.go:24-34: the tokens before they are filtered. -/
def splitRaw (U : Uni) (L : Lang) (str : List Char) (keep : Bool) : List (List Char) :=
  let str := match L.rxCombined with
    | some (rx, k) => splitWithRegex rx k str
    | none => str
  (splitStr splitSeparator str).flatMap fun token =>
    if (L.rxExact.map (·.matches token)).getD false then [token] else splitByKnown U L keep token

/-- split.go:18-48 `Split`. -/
def splitText (U : Uni) (L : Lang) (str : List Char) (keep : Bool) (skip : List (List Char)) : List (List Char) :=
  (splitRaw U L str keep).filter fun token => !token.isEmpty && !skip.contains (trimSpace token)

/-- 00-constant.go:27 `rxNumeral`. -/
def rxNumeral : Rx := .grp 1 (.plus .digit)

/-- split.go:262-283: cutting out the numbers. -/
def numeralCut (str : List Char) : List (List Char) :=
  let r := rxNumeral.findAll str
  ((r.1.flatMap fun m => [m.before, m.text]) ++ [r.2]).filter (!·.isEmpty)
/-- split.go:260-286 `simpleSplit`. -/
def simpleSplit (U : Uni) (L : Lang) (str : List Char) (keep : Bool) (skip : List (List Char)) : List (List Char) :=
  (numeralCut str).flatMap fun token => splitText U L token keep skip

/-! ## Sentences -/

/-- `[^\s.]*` in group 1 -/
def rxEndWord : Rx := .grp 1 (.star (.chr fun c => !isRxSpace c && c != '.'))
/-- `[…]+` -/
def rxTerm (cs : List Char) : Rx := .plus (.chr cs.contains)
/-- `(?:\s|$)` -/
def rxGap : Rx := .alt .space .eos

/-- 00-constant.go:36-49 `rxSentenceSplitters`. -/
def sentenceRx : Nat → Rx
  | 2 => .alt (.seqs [rxEndWord, rxTerm ['.', '!', '?', ';', '…', '\r', '\n'],
      .grp 2 (.alt (.seq (.star .space) (.star (.chr ['¡', '¿'].contains))) .eos)]) (.plus (.chr ['¡', '¿'].contains))
  | 3 => .seqs [rxEndWord, rxTerm ['|', '!', '?', ';', '\r', '\n'], .plus rxGap]
  | 4 => .seqs [rxEndWord, rxTerm ['。', '…', '‥', '.', '!', '?', '？', '！', ';', '\r', '\n'], .plus rxGap]
  | 5 => .seqs [rxEndWord, rxTerm ['\r', '\n']]
  | 6 => .seqs [rxEndWord, rxTerm ['\r', '\n', '؟', '!', '.', '…'], .plus rxGap]
  | _ => .seqs [rxEndWord, rxTerm ['.', '!', '?', ';', '…', '\r', '\n'], .star rxGap]

/-- split.go:61-85: the loop over the matches; `acc` is the text since `lastPosition`.  Group 1 is at the start of the
match; without it the slice expression panics. -/
def sentenceLoop (U : Uni) (L : Lang) (acc : List Char) : List RxMatch → List Char → Option (List (List Char))
  | [], last =>
    let s := trimSpace (acc ++ last)
    some (if s.isEmpty then [] else [s])
  | m :: rest, last =>
    match (m.after.caps.find? (·.1 == 1)).map (·.2) with
    | none => none
    | some eos =>
      if L.abbreviations.contains eos || (langWithDigitAbbrs.contains L.name && isNumberOnly U eos) then
        sentenceLoop U L (acc ++ m.before ++ m.text) rest last
      else
        let s := trimSpace (acc ++ m.before ++ eos)
        (sentenceLoop U L [] rest last).map fun r => if s.isEmpty then r else s :: r

/-- split.go:50-97 `SplitSentence`. -/
def splitSentence (U : Uni) (L : Lang) (str : List Char) : Option (List (List Char)) :=
  let g := if L.splitterGroup < 1 ∨ L.splitterGroup > 6 then 1 else L.splitterGroup
  let r := (sentenceRx g).findAll str
  sentenceLoop U L [] r.1 r.2

/-! ## translate.go -/

/-- translate.go:97-105 `Simplify`. -/
def simplify (L : Lang) (str : List Char) : List Char :=
  L.simplifications.foldl (fun s d => if d.1.matches s then replaceAllTmpl d.1 d.2 s else s) str

/-- translate.go:107-127 `clearFutureWords`. -/
def clearFutureWords (words : List (List Char)) : List (List Char) :=
  if words.any freshnessWords.contains then words else words.filter (· != ['i', 'n'])

/-- translate.go:19-21: what is split. -/
def normalizeToken (U : Uni) (s : List Char) : List Char := normalizeDigits U.isDigit (U.normalizeString s)

/-- translate.go:28-62: the translations of one token. -/
def translateToken (L : Lang) (skip : List (List Char)) (keep : Bool) (token : List Char) : List (List Char) :=
  if skip.contains token then [[]]
  else match L.relativeRegexes.find? (·.1.matches token) with
    | some d => [replaceAllTmpl d.1 d.2 token]
    | none => match L.translateWord token with
      | some ts => ts.map fun t => if t.isEmpty && keep then token else t
      | none => [token]

/-- translate.go:69-84: finishing one permutation. -/
def finishTokens (keep : Bool) (tokens : List (List Char)) : List Char :=
  let tokens := if tokens.contains ['i', 'n'] then clearFutureWords tokens else tokens
  joinTokens (if keep then [] else [' ']) (tokens.filter (!·.isEmpty))

/-- translate.go:14-87 `Translate`; `skip` are the configured tokens to skip. -/
def translate (U : Uni) (L : Lang) (skip : List (List Char)) (str : List Char) (keep : Bool) : Option (List (List Char)) :=
  let skip := mapSkippedTokens skip L
  let tokens := splitText U L (simplify L (normalizeToken U str)) keep skip
  (createPermutation (tokens.map (translateToken L skip keep))).map (·.map (finishTokens keep))

/-! ## applicable-check.go -/

/-- applicable-check.go:16-65 `IsApplicable` (`stripTimezone` is false). -/
def isApplicable (U : Uni) (L : Lang) (skip : List (List Char)) (str : List Char) : Bool :=
  let skip := mapSkippedTokens skip L
  let tokens := splitText U L (simplify L (normalizeToken U str)) false skip
  (tokens.filter alwaysKept).length != tokens.length &&
  tokens.all fun token => isNumberOnly U token || L.inDictionary token || skip.contains token ||
    (L.rxExact.map (·.matches token)).getD false

/-! ## translate-search.go -/

/-- translate-search.go:182-188 `wordSplit`. -/
def wordSplit (U : Uni) (L : Lang) (skip : List (List Char)) (str : List Char) : List (List Char) :=
  if L.noWordSpacing then simpleSplit U L str true skip else fields str

/-- 00-constant.go:24 `rxSpaces.ReplaceAllString(str, " ")`: each longest run of two or more of `\s` becomes a space;
the run so far reversed. -/
def collapseLoop : List Char → List Char → List Char
  | run, [] => if run.length ≥ 2 then [' '] else run.reverse
  | run, c :: s =>
    if isRxSpace c then collapseLoop (c :: run) s
    else (if run.length ≥ 2 then [' '] else run.reverse) ++ c :: collapseLoop [] s
def collapseSpaces (s : List Char) : List Char := collapseLoop [] s

/-- translate-search.go:190-198 `joinChunk`. -/
def joinChunk (L : Lang) (chunk : List (List Char)) : List Char :=
  if L.noWordSpacing then joinTokens [] chunk else collapseSpaces (joinWith [' '] chunk)

/-- translate-search.go:200-208 `filterChunk`. -/
def filterChunk (chunk : List (List Char)) : List (List Char) := chunk.filter (!·.isEmpty)

/-- translate-search.go:210-216 `tokenWithDigitsIsOk`. -/
def digitsOk (L : Lang) (token : List Char) : Bool :=
  if L.noWordSpacing then token.any fun c => c.isDigit || c == '.' || c == ':' || c == '-' || c == '/'
  else token.any Char.isDigit

/-- translate-search.go:218-230 `insertSlice`. -/
def insertSlice (list : List (List Char)) (i : Nat) (s : List Char) : List (List Char) :=
  list.take i ++ s :: list.drop i

/-- translate-search.go:131-147, 150-166: the loop over the tokens of one text that puts empty tokens into the list of
the other; `eq` compares. -/
def alignLoop (eq : List Char → List Char → Bool) : Nat → Bool → List (List Char) → List (List Char) → List (List Char)
  | _, _, [], grow => grow
  | i, addEmpty, token :: rest, grow =>
    match grow[i]? with
    | some g =>
      if eq token g then alignLoop eq (i + 1) false rest grow
      else if !addEmpty then alignLoop eq (i + 1) true rest grow
      else alignLoop eq (i + 1) true rest (insertSlice grow i [])
    | none => alignLoop eq (i + 1) addEmpty rest (grow ++ [[]])

/-- translate-search.go:232-249 `removeEmptySliceItem`. -/
def removeEmpty (list : List (List Char)) : Option (List (List Char)) :=
  if list.contains [] then some (list.erase []) else none

/-- translate-search.go:169-180: the last loop; each turn removes something. -/
def evenLoop : Nat → List (List Char) → List (List Char) → List (List Char) × List (List Char)
  | 0, o, s => (o, s)
  | n + 1, o, s =>
    if o.length = s.length then (o, s)
    else if o.length > s.length then
      match removeEmpty o with
      | some o' => evenLoop n o' s
      | none => (o, s)
    else
      match removeEmpty s with
      | some s' => evenLoop n o s'
      | none => (o, s)

/-- translate-search.go:111-180 `simplifySplitAlign`. -/
def simplifySplitAlign (U : Uni) (L : Lang) (skip : List (List Char)) (str : List Char) :
    List (List Char) × List (List Char) :=
  let simplified := simplify L (normalizeToken U str)
  let o := wordSplit U L skip str
  let s := wordSplit U L skip simplified
  if o.length = s.length then (o, s)
  else
    let r := if o.length < s.length then
        (alignLoop (fun token g => token == normalizeToken U g) 0 false s o, s)
      else (o, alignLoop (fun token g => normalizeToken U token == g) 0 false o s)
    evenLoop (r.1.length + r.2.length) r.1 r.2

/-- `s[n:]` with `n` counting bytes; bytes of a character cut in two are read as U+FFFD. -/
def dropBytes : Nat → List Char → List Char
  | 0, s => s
  | _, [] => []
  | n + 1, c :: s =>
    if c.utf8Size ≤ n + 1 then dropBytes (n + 1 - c.utf8Size) s
    else List.replicate (c.utf8Size - (n + 1)) '\ufffd' ++ s

/-- `len(s)` in bytes. -/
def byteLen (s : List Char) : Nat := (s.map Char.utf8Size).sum

/-- translate-search.go:46: what is trimmed. -/
def searchPunct : List Char := ['(', ')', '"', '\'', '{', '}', '[', ']', ',', '.', '،']

/-- translate-search.go:24 `joinUnusable`. -/
def joinUnusable (L : Lang) : Bool := L.name == ['z', 'h'] || L.name == ['j', 'a']

/-- translate-search.go:79-83, 91-95: the finished chunks, the original one with each permutation of the translation. -/
def flushChunk (oc : List (List Char)) (tc : List (List (List Char))) :
    Option (List (List (List Char) × List (List Char))) :=
  (createPermutation tc).map (·.map fun p => (oc, p))

/-- translate-search.go:34-88: the loop over the tokens of a sentence; then 90-96.  `original` are the original tokens
from this one on, `word :: rest` the simplified ones; an index out of range is a panic. -/
def chunkLoop (L : Lang) (isTz : List Char → Bool) : List (List Char) → List (List Char) → Bool →
    (oc : List (List Char)) → (tc : List (List (List Char))) → Option (List (List (List Char) × List (List Char)))
  | _, [], _, oc, tc => if tc.isEmpty then some [] else flushChunk oc tc
  | original, word :: rest, skipNext, oc, tc =>
    if skipNext then chunkLoop L isTz original.tail rest false oc tc
    else
      let joined := joinChunk L [word, rest.headD []]
      let cleaned := trimChars word searchPunct
      if word.isEmpty || word == [' '] then do
        let o ← original[0]?
        chunkLoop L isTz original.tail rest false (oc ++ [o]) (tc ++ [[word]])
      else if L.inDictionary joined && !isDash word && !joinUnusable L then do
        let o ← original[0]?
        let o' ← original[1]?
        chunkLoop L isTz original.tail rest true (oc ++ [joinChunk L [o, o']]) (tc ++ [(L.translateWord joined).getD []])
      else if L.inDictionary word && !isDash word then do
        let o ← original[0]?
        chunkLoop L isTz original.tail rest false (oc ++ [o]) (tc ++ [(L.translateWord word).getD []])
      else if L.inDictionary cleaned && !isDash word then do
        let o ← original[0]?
        chunkLoop L isTz original.tail rest false (oc ++ [o])
          (tc ++ [((L.translateWord cleaned).getD []).map (· ++ dropBytes (byteLen cleaned) word)])
      else if digitsOk L word then do
        let o ← original[0]?
        chunkLoop L isTz original.tail rest false (oc ++ [o]) (tc ++ [[word]])
      else if tc.isEmpty then chunkLoop L isTz original.tail rest false oc tc
      else do
        let o ← original[0]?
        if isTz o then chunkLoop L isTz original.tail rest false (oc ++ [o]) (tc ++ [[word]])
        else
          let done ← flushChunk oc tc
          let more ← chunkLoop L isTz original.tail rest false [] []
          pure (done ++ more)

/-- translate-search.go:26-97: the loop over the sentences. -/
def sentencesLoop (U : Uni) (L : Lang) (isTz : List Char → Bool) (skip : List (List Char)) :
    List (List Char) → Option (List (List (List Char) × List (List Char)))
  | [] => some []
  | s :: rest => do
    let r := simplifySplitAlign U L skip s
    let a ← chunkLoop L isTz r.1 r.2 false [] []
    let b ← sentencesLoop U L isTz skip rest
    pure (a ++ b)

/-- translate-search.go:15-109 `TranslateSearch`: the translated and the original chunks. -/
def translateSearch (U : Uni) (L : Lang) (isTz : List Char → Bool) (skip : List (List Char)) (str : List Char) :
    Option (List (List Char) × List (List Char)) := do
  let skip := mapSkippedTokens skip L
  let sentences ← splitSentence U L str
  let chunks ← sentencesLoop U L isTz skip sentences
  pure (chunks.map fun c => joinChunk L (filterChunk (clearFutureWords c.2)),
    chunks.map fun c => joinChunk L (filterChunk c.1))

/-! ## search.go: SearchWithLanguage -/

/-- search.go:83-122 `SearchWithLanguage`, from the translation on (the configuration is valid, the language is known):
the dates found and their texts.  `env` is the parser with the configuration made from the internal one. -/
def searchWithLanguage {σ τ D : Type} (U : Uni) (env : SearchEnv σ τ D) (L : Lang) (isTz : List Char → Bool)
    (skip : List (List Char)) (lang : List Char) (str : List Char) (st : σ × Option τ) :
    Option (List (ParsedSearch D × List Char)) := do
  let (translation, original) ← translateSearch U L isTz skip str
  let useTranslation := !(lang == ['v', 'i'] || lang == ['h', 'u'])
  let (_, parsed, subStrings) ← parseFoundObjects env useTranslation translation original st
  if parsed.length ≤ subStrings.length then some (parsed.zip subStrings) else none

end Verif.Model
