import Verif.Model.Whole
/-!
# Parse with its faults shown

The model of `Model.Language` and `Model.Whole` gives the unbounded loops of the code a bound that is large enough and hides
panics behind default values.  Here are the same functions once more, without bounds: `.error .diverge` is a loop that comes
back to the state it was in, and so never ends; `.error .panic` is a panic; `.error .error` does not leave the parsers.
-/
set_option autoImplicit false
namespace Verif.Model
open Verif.Go Verif.Data

/-- Whether a group took part in a match. -/
def hasCap (s : MSt) (n : Nat) : Bool := s.caps.any (·.1 == n)

/-- The groups of which split.go:109-128 takes the text. -/
def groupsRead (k : Nat) : List Nat := if k = 1 then [1] else if k = 3 then [1, 2, 3] else []

/-- split.go:99-137 `splitWithRegex`.  A group that took no part is at the position −1, which panics; an empty match at the
beginning leaves the text as it is. -/
def splitWithRegexC (rx : Rx) (k : Nat) (s : List Char) : Except Fault (List Char) :=
  match rx.findFirst s with
  | none => .ok s
  | some m =>
    if !(groupsRead k).all (hasCap m.after) then .error .panic
    else if m.after.rest.length < s.length then
      match splitWithRegexC rx k m.after.rest with
      | .error f => .error f
      | .ok r => .ok (m.before ++
          (if k = 1 then splitSeparator ++ m.after.cap 1 ++ splitSeparator
           else if k = 3 then m.after.cap 1 ++ splitSeparator ++ m.after.cap 2 ++ splitSeparator ++ m.after.cap 3
           else splitSeparator ++ m.text ++ splitSeparator) ++ r)
    else .error .diverge
termination_by s.length
decreasing_by assumption

/-- split.go:139-165 `splitByKnownWords`: the recursion comes back to the same text if an empty word is found at its
beginning. -/
def splitByKnownC (U : Uni) (L : Lang) (keep : Bool) (str : List Char) : Except Fault (List (List Char)) :=
  match findKnown U L str with
  | none => .ok (if shouldCapture U str keep then splitByNumerals U str keep else [])
  | some (pos, w) =>
    let unparsed := str.take pos
    let unknown := str.drop (pos + w.length)
    let front := (if !unparsed.isEmpty && shouldCapture U unparsed keep then splitByNumerals U unparsed keep else []) ++
      (if shouldCapture U w keep then [w] else [])
    if unknown.isEmpty then .ok front
    else if (str.drop (pos + w.length)).length < str.length then
      match splitByKnownC U L keep (str.drop (pos + w.length)) with
      | .error f => .error f
      | .ok r => .ok (front ++ r)
    else .error .diverge
termination_by str.length
decreasing_by assumption

/-- split.go:26-34: the loop over the tokens. -/
def splitTokensC (U : Uni) (L : Lang) (keep : Bool) : List (List Char) → Except Fault (List (List Char))
  | [] => .ok []
  | token :: r =>
    match (if (L.rxExact.map (·.matches token)).getD false then .ok [token] else splitByKnownC U L keep token) with
    | .error f => .error f
    | .ok a => match splitTokensC U L keep r with
      | .error f => .error f
      | .ok b => .ok (a ++ b)

/-- split.go:18-48 `Split`. -/
def splitTextC (U : Uni) (L : Lang) (str : List Char) (keep : Bool) (skip : List (List Char)) : Except Fault (List (List Char)) :=
  match (match L.rxCombined with
    | some (rx, k) => splitWithRegexC rx k str
    | none => .ok str) with
  | .error f => .error f
  | .ok str => match splitTokensC U L keep (splitStr splitSeparator str) with
    | .error f => .error f
    | .ok tokens => .ok (tokens.filter fun token => !token.isEmpty && !skip.contains (trimSpace token))

/-- translate.go:14-87 `Translate`. -/
def translateC (U : Uni) (L : Lang) (skip : List (List Char)) (str : List Char) (keep : Bool) : Except Fault (List (List Char)) :=
  let skip := mapSkippedTokens skip L
  match splitTextC U L (simplify L (normalizeToken U str)) keep skip with
  | .error f => .error f
  | .ok tokens => match createPermutation (tokens.map (translateToken L skip keep)) with
    | none => .error .panic
    | some l => .ok (l.map (finishTokens keep))

/-- applicable-check.go:16-65 `IsApplicable`. -/
def isApplicableC (U : Uni) (L : Lang) (skip : List (List Char)) (str : List Char) : Except Fault Bool :=
  let skip := mapSkippedTokens skip L
  match splitTextC U L (simplify L (normalizeToken U str)) false skip with
  | .error f => .error f
  | .ok tokens => .ok ((tokens.filter alwaysKept).length != tokens.length &&
      tokens.all fun token => isNumberOnly U token || L.inDictionary token || skip.contains token ||
        (L.rxExact.map (·.matches token)).getD false)

/-- An error of a parser is a date not found; other faults go on. -/
def dateOr : Except Fault DateRes → Except Fault DateRes
  | .error .error => .ok DateRes.zero
  | r => r

/-- parser.go:190-201 `tryAbsoluteTime`. -/
def tryAbsoluteC (E : Env) (cfg : Cfg) : List (List Char) → Except Fault DateRes
  | [] => .ok DateRes.zero
  | t :: r =>
    if (stripTz E.parts t).1 != [] then
      match dateOr (absoluteParse cfg E.now E.monthFirst (stripTz E.parts t).1 (stripTz E.parts t).2) with
      | .error f => .error f
      | .ok dt =>
        let dt := applyTimezone cfg dt (stripTz E.parts t).2
        if !dt.isZero then .ok dt else tryAbsoluteC E cfg r
    else tryAbsoluteC E cfg r

/-- parser.go:203-214 `tryNoSpacesTime`. -/
def tryNospaceC (E : Env) (cfg : Cfg) : List (List Char) → Except Fault DateRes
  | [] => .ok DateRes.zero
  | t :: r =>
    if (stripTz E.parts t).1 != [] then
      match dateOr (nospaceParse cfg E.now.year (stripTz E.parts t).1) with
      | .error f => .error f
      | .ok dt =>
        let dt := applyTimezone cfg dt (stripTz E.parts t).2
        if !dt.isZero then .ok dt else tryNospaceC E cfg r
    else tryNospaceC E cfg r

/-- A condition that may fault, for the first element that meets it. -/
def anyC {α : Type} (f : α → Except Fault Bool) : List α → Except Fault Bool
  | [] => .ok false
  | x :: r => match f x with
    | .error e => .error e
    | .ok true => .ok true
    | .ok false => anyC f r

/-- `language.IsApplicable` for a locale. -/
def Env.applicableC (E : Env) (cfg : Cfg) (l : LocaleInfo) (str : List Char) : Except Fault Bool :=
  isApplicableC E.uni (E.lang l.name) cfg.skipTokens str
/-- `language.Translate` for a locale. -/
def Env.translateC (E : Env) (cfg : Cfg) (l : LocaleInfo) (str : List Char) (keep : Bool) : Except Fault (List (List Char)) :=
  Model.translateC E.uni (E.lang l.name) cfg.skipTokens str keep

/-- parser.go:283-293 `checkPreviousLocales`. -/
def checkPreviousC (E : Env) (cfg : Cfg) (strs : List (List Char)) : List LocaleInfo → Except Fault (Option LocaleInfo)
  | [] => .ok none
  | l :: r => match anyC (E.applicableC cfg l) strs with
    | .error f => .error f
    | .ok true => .ok (some l)
    | .ok false => checkPreviousC E cfg strs r

/-- parser.go:247-265: the loop over the loaded locales. -/
def applicableLoopC (E : Env) (cfg : Cfg) (strs : List (List Char)) :
    List LocaleInfo → (results : List LocaleInfo) → (tracker : List Name) → Except Fault (List LocaleInfo × List Name)
  | [], results, tracker => .ok (results, tracker)
  | l :: r, results, tracker =>
    if tracker.contains l.name then applicableLoopC E cfg strs r results tracker
    else match anyC (E.applicableC cfg l) strs with
      | .error f => .error f
      | .ok true => applicableLoopC E cfg strs r (results ++ [l]) (l.name :: tracker)
      | .ok false => applicableLoopC E cfg strs r results tracker

/-- parser.go:216-281 `getApplicableLocales`. -/
def getApplicableLocalesC (E : Env) (s : ParserSt) (c : PCfg) (cfg : Cfg) (str : List Char) :
    Except Fault (Except LoadErr (List LocaleInfo)) :=
  match (if c.tryPrevious then checkPreviousC E cfg (dateStrings E.parts str) s.used else .ok none) with
  | .error f => .error f
  | .ok p =>
    let prev := p.toList
    match getLocales c.locales (languagesFor E.parts s c str) c.region c.useGivenOrder false with
    | .error .notFound =>
      .ok (.ok (prev ++ (defaultLocales c).filter fun l => !(prev.map (·.name)).contains l.name))
    | .error e => .ok (.error e)
    | .ok L =>
      match applicableLoopC E cfg (dateStrings E.parts str) (localeInfos L) prev (prev.map (·.name)) with
      | .error f => .error f
      | .ok r => .ok (.ok (r.1 ++ (defaultLocales c).filter fun l => !r.2.contains l.name))

/-- parser.go:134-149: one parser type. -/
def tryTypeC (E : Env) (cfg : Cfg) (l : LocaleInfo) (str : List Char) (formats : List (List Char)) : Nat → Except Fault DateRes
  | 0 => .ok (E.parts.timestamp cfg str false)
  | 1 => .ok (E.parts.timestamp cfg str true)
  | 2 => match E.translateC cfg l str false with
    | .error f => .error f
    | .ok ts => .ok (tryRelative E.parts cfg ts)
  | 3 => match E.translateC cfg l str true with
    | .error f => .error f
    | .ok ts => .ok (tryCustom E.parts cfg formats ts)
  | 4 => match E.translateC cfg l str false with
    | .error f => .error f
    | .ok ts => tryAbsoluteC E cfg ts
  | 5 => match E.translateC cfg l str false with
    | .error f => .error f
    | .ok ts => tryNospaceC E cfg ts
  | _ => .ok DateRes.zero

/-- parser.go:134-163: the loop over the parser types. -/
def typeLoopC (E : Env) (cfg : Cfg) (l : LocaleInfo) (str : List Char) (formats : List (List Char)) :
    List Nat → Except Fault (Option DateRes)
  | [] => .ok none
  | t :: r => match tryTypeC E cfg l str formats t with
    | .error f => .error f
    | .ok dt => if !dt.isZero then .ok (some { dt with locale := l.name }) else typeLoopC E cfg l str formats r

/-- parser.go:115-164: the loop over the locales. -/
def localeLoopC (E : Env) (c : PCfg) (cfg : Cfg) (types : List Nat) (str : List Char) (formats : List (List Char)) :
    List LocaleInfo → Except Fault (Option (DateRes × LocaleInfo))
  | [] => .ok none
  | l :: r => match typeLoopC E (localeCfg c cfg l) l str formats types with
    | .error f => .error f
    | .ok (some dt) => .ok (some (dt, l))
    | .ok none => localeLoopC E c cfg types str formats r

/-- parser.go:97-167. -/
def parseWithTypesC (E : Env) (s : ParserSt) (c : PCfg) (str : List Char) (formats : List (List Char)) :
    Except Fault (ParserSt × Except ParseErr DateRes) :=
  match c.validate with
  | .error e => .ok (s, .error (.config e))
  | .ok () =>
    let cfg := c.toInternal
    let f := E.parts.formatted cfg str formats
    if !f.isZero then .ok (s, .ok f)
    else
      let str := E.parts.sanitize str
      match getApplicableLocalesC E s c cfg str with
      | .error f => .error f
      | .ok (.error e) => .ok (s, .error (.load e))
      | .ok (.ok ls) =>
        match localeLoopC E c cfg s.types str formats ls with
        | .error f => .error f
        | .ok (some (dt, l)) => .ok (if c.tryPrevious then saveUsed s l else s, .ok dt)
        | .ok none => .ok (s, .error .unknownFormat)

/-- parser.go:68-168 `Parse`. -/
def Env.parseC (E : Env) (s : ParserSt) (c : Option PCfg) (str : List Char) (formats : List (List Char)) :
    Except Fault (ParserSt × Except ParseErr DateRes) :=
  match s.types.find? (fun t => decide (t > 5)) with
  | some t => .ok (s, .error (.parserType t))
  | none =>
    parseWithTypesC E (if s.types.isEmpty then { s with types := defaultTypes } else s)
      ((c.getD {}).initiate E.now) str formats

end Verif.Model
