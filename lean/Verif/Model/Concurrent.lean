import Verif.Model.Parser
/-!
# Concurrent calls of `Parse` on one `Parser`

Each call is a small program whose steps read or write the shared `Parser` object one field (or one element) at a
time.  Steps of different calls interleave arbitrarily; the only thing that holds a call back is the mutex
(parser.go:26-27, 70-72).  Nothing in the steps says that a call may run only while it holds the mutex: that is proved.

Simplification: memory is sequentially consistent (Go's race free programs are), and the work between two accesses to
the object, which is pure, is part of the step before.
-/
set_option autoImplicit false
namespace Verif.Model
open Verif.Go Verif.Data

/-- What one call of `Parse` is given; `now` is what `time.Now` returns during it. -/
structure Args where
  now : Time
  cfg : PCfg
  str : List Char
  formats : List (List Char)

/-- Where a call is. -/
inductive PC where
  /-- not yet called -/
  | idle
  /-- parser.go:71 `p.Lock()` -/
  | called
  /-- parser.go:75-79: the check of the parser types; `n` of them, next is `i` -/
  | checkTypes (n i : Nat)
  /-- parser.go:81: `len(p.ParserTypes) == 0` -/
  | testTypes
  /-- parser.go:82-89: the default list is stored -/
  | fillTypes
  /-- parser.go:92-112: configuration, the caller's formats, sanitising -/
  | config
  /-- parser.go:284-290: the loop over the remembered locales; `n` of them, next is `i` -/
  | previous (n i : Nat)
  /-- parser.go:238-281: loading -/
  | load (prev : List LocaleInfo)
  /-- parser.go:119-133: the loop over the locales -/
  | locales (ls : List LocaleInfo)
  /-- parser.go:135-152: the loop over the parser types for locale `l`; `n` of them, next is `j` -/
  | types (l : LocaleInfo) (rest : List LocaleInfo) (n j : Nat)
  /-- parser.go:300: is the locale in the tracker? -/
  | saveTest (l : LocaleInfo) (dt : DateRes)
  /-- parser.go:301 -/
  | saveName (l : LocaleInfo) (dt : DateRes)
  /-- parser.go:302 -/
  | saveLocale (l : LocaleInfo) (dt : DateRes)
  /-- parser.go:72 `p.Unlock()` -/
  | unlock (r : Except ParseErr DateRes)
  /-- returned -/
  | done (r : Except ParseErr DateRes)

/-- In the middle of the work: neither before `Lock` nor at `Unlock` or after. -/
def PC.working : PC → Bool
  | .idle | .called | .unlock _ | .done _ => false
  | _ => true

/-- parser.go:216-281 once the remembered locale is known. -/
def applicableGiven (P : Parts) (s : ParserSt) (c : PCfg) (cfg : Cfg) (str : List Char) (prev : List LocaleInfo) :
    Except LoadErr (List LocaleInfo) :=
  match getLocales c.locales (languagesFor P s c str) c.region c.useGivenOrder false with
  | .error .notFound =>
    .ok (prev ++ (defaultLocales c).filter fun l => !(prev.map (·.name)).contains l.name)
  | .error e => .error e
  | .ok L =>
    let r := applicableLoop P cfg (dateStrings P str) (localeInfos L) prev (prev.map (·.name))
    .ok (r.1 ++ (defaultLocales c).filter fun l => !r.2.contains l.name)

/-- One step of a call that is working, on the object as it is at that moment. -/
def stepCall (P : Parts) (a : Args) (s : ParserSt) : PC → PC × ParserSt
  | .checkTypes n i =>
    if i < n then
      match s.types[i]? with
      | some t => if t > 5 then (.unlock (.error (.parserType t)), s) else (.checkTypes n (i + 1), s)
      | none => (.checkTypes n (i + 1), s)
    else (.testTypes, s)
  | .testTypes => if s.types.isEmpty then (.fillTypes, s) else (.config, s)
  | .fillTypes => (.config, { s with types := defaultTypes })
  | .config =>
    let c := a.cfg.initiate a.now
    match c.validate with
    | .error e => (.unlock (.error (.config e)), s)
    | .ok () =>
      let f := P.formatted c.toInternal a.str a.formats
      if !f.isZero then (.unlock (.ok f), s)
      else if c.tryPrevious then (.previous s.used.length 0, s)
      else (.load [], s)
  | .previous n i =>
    let c := a.cfg.initiate a.now
    if i < n then
      match s.used[i]? with
      | some l =>
        if (dateStrings P (P.sanitize a.str)).any (P.applicable c.toInternal l) then (.load [l], s)
        else (.previous n (i + 1), s)
      | none => (.previous n (i + 1), s)
    else (.load [], s)
  | .load prev =>
    let c := a.cfg.initiate a.now
    match applicableGiven P s c c.toInternal (P.sanitize a.str) prev with
    | .error e => (.unlock (.error (.load e)), s)
    | .ok ls => (.locales ls, s)
  | .locales [] => (.unlock (.error .unknownFormat), s)
  | .locales (l :: rest) => (.types l rest s.types.length 0, s)
  | .types l rest n j =>
    let c := a.cfg.initiate a.now
    if j < n then
      match s.types[j]? with
      | some t =>
        let dt := tryType P (localeCfg c c.toInternal l) l (P.sanitize a.str) a.formats t
        if !dt.isZero then
          (if c.tryPrevious then .saveTest l { dt with locale := l.name } else .unlock (.ok { dt with locale := l.name }), s)
        else (.types l rest n (j + 1), s)
      | none => (.types l rest n (j + 1), s)
    else (.locales rest, s)
  | .saveTest l dt => if s.tracker.contains l.name then (.unlock (.ok dt), s) else (.saveName l dt, s)
  | .saveName l dt => (.saveLocale l dt, { s with tracker := l.name :: s.tracker })
  | .saveLocale l dt => (.unlock (.ok dt), { s with used := s.used ++ [l] })
  | pc => (pc, s)

/-- The object, its mutex, and any number of calls. -/
structure Sys where
  lock : Option Nat
  obj : ParserSt
  pc : Nat → PC

/-- What can be seen from outside. -/
inductive Ev where
  | invoke (i : Nat)
  | ret (i : Nat) (r : Except ParseErr DateRes)

def Sys.setPC (s : Sys) (i : Nat) (p : PC) : Nat → PC := fun j => if j = i then p else s.pc j

/-- One step of the system: some call does something. -/
inductive SysStep (P : Parts) (args : Nat → Args) : Sys → Option Ev → Sys → Prop
  /-- a call is made -/
  | invoke (s : Sys) (i : Nat) (h : s.pc i = .idle) :
      SysStep P args s (some (.invoke i)) { s with pc := s.setPC i .called }
  /-- parser.go:71: the mutex is taken when nobody has it -/
  | lock (s : Sys) (i : Nat) (h : s.pc i = .called) (hf : s.lock = none) :
      SysStep P args s none { s with lock := some i, pc := s.setPC i (.checkTypes s.obj.types.length 0) }
  /-- a call does one step, whoever has the mutex -/
  | work (s : Sys) (i : Nat) (h : (s.pc i).working = true) :
      SysStep P args s none
        { s with obj := (stepCall P (args i) s.obj (s.pc i)).2, pc := s.setPC i (stepCall P (args i) s.obj (s.pc i)).1 }
  /-- parser.go:72: the mutex is given back and the call returns -/
  | unlock (s : Sys) (i : Nat) (r : Except ParseErr DateRes) (h : s.pc i = .unlock r) :
      SysStep P args s (some (.ret i r)) { s with lock := none, pc := s.setPC i (.done r) }

/-- What can happen on an object, with what is seen. -/
inductive Exec (P : Parts) (args : Nat → Args) (obj : ParserSt) : List Ev → Sys → Prop
  | start : Exec P args obj [] ⟨none, obj, fun _ => .idle⟩
  | silent {h : List Ev} {s s' : Sys} (e : Exec P args obj h s) (st : SysStep P args s none s') : Exec P args obj h s'
  | event {h : List Ev} {s s' : Sys} {ev : Ev} (e : Exec P args obj h s) (st : SysStep P args s (some ev) s') :
      Exec P args obj (h ++ [ev]) s'

end Verif.Model
