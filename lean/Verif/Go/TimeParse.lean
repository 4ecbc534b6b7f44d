import Verif.Go.Time
/-!
# `time.Parse`

Model of Go's `time.Parse` / `time.ParseInLocation` (Go standard library, `time/format.go`:
`nextStdChunk`, `skip`, `getnum`, `lookup`, `parseNanoseconds`, `parseTimeZone`, `parse`).  The fast path of
`time.Parse` for the layout of RFC 3339 is taken to agree with the general one, as its documentation says.
-/
set_option autoImplicit false
namespace Verif.Go

/-- Layout elements (`std…` constants of `time/format.go`); `lit` is literal text and `spaces` a run (of this length)
of literal spaces. -/
inductive Chunk where
  | lit (c : Char) | spaces (n : Nat)
  | year2 | year4 | month3 | monthLong | month1 | month01
  | wday3 | wdayLong | day2 | day02 | dayUnder
  | hour15 | hour3 | hour03 | min4 | min04 | sec5 | sec05 | pm | pmLower
  /-- fraction of a second, `n` digits after the separator; `frac9` without trailing zeros -/
  | frac9 (sep : Char) (n : Nat) | frac0 (sep : Char) (n : Nat)
  | yday3 | ydayUnder
  /-- A numeric zone of one to three two-digit numbers; `iso` if "Z" stands for UTC. -/
  | zone (iso colon : Bool) (n : Nat)
  /-- "MST", a time zone abbreviation -/
  | tzName
deriving DecidableEq, Repr

/-- Go's `startsWithLowerCase`. -/
def startsLower : List Char → Bool
  | [] => false
  | c :: _ => 'a' ≤ c && c ≤ 'z'

/-- Length of the run of `ch` at the start. -/
def runLen (ch : Char) : List Char → Nat
  | [] => 0
  | c :: cs => if c == ch then runLen ch cs + 1 else 0

/-- What follows "-07" or "Z07": with colons?, how many numbers in all, the rest. -/
def zoneTail : List Char → Bool × Nat × List Char
  | '0' :: '0' :: '0' :: '0' :: r => (false, 3, r)
  | ':' :: '0' :: '0' :: ':' :: '0' :: '0' :: r => (true, 3, r)
  | '0' :: '0' :: r => (false, 2, r)
  | ':' :: '0' :: '0' :: r => (true, 2, r)
  | r => (false, 1, r)

/-- `nextStdChunk`, iterated over the whole layout; the fuel is the layout's length. -/
def layoutChunksF : Nat → List Char → List Chunk
  | 0, _ => []
  | n + 1, s =>
    match s with
    | [] => []
    | 'J' :: 'a' :: 'n' :: 'u' :: 'a' :: 'r' :: 'y' :: r => .monthLong :: layoutChunksF n r
    | 'J' :: 'a' :: 'n' :: r =>
      if startsLower r then .lit 'J' :: layoutChunksF n ('a' :: 'n' :: r)
      else .month3 :: layoutChunksF n r
    | 'M' :: 'o' :: 'n' :: 'd' :: 'a' :: 'y' :: r => .wdayLong :: layoutChunksF n r
    | 'M' :: 'o' :: 'n' :: r =>
      if startsLower r then .lit 'M' :: layoutChunksF n ('o' :: 'n' :: r)
      else .wday3 :: layoutChunksF n r
    | 'M' :: 'S' :: 'T' :: r => .tzName :: layoutChunksF n r
    | '0' :: '1' :: r => .month01 :: layoutChunksF n r
    | '0' :: '2' :: r => .day02 :: layoutChunksF n r
    | '0' :: '3' :: r => .hour03 :: layoutChunksF n r
    | '0' :: '4' :: r => .min04 :: layoutChunksF n r
    | '0' :: '5' :: r => .sec05 :: layoutChunksF n r
    | '0' :: '6' :: r => .year2 :: layoutChunksF n r
    | '0' :: '0' :: '2' :: r => .yday3 :: layoutChunksF n r
    | '1' :: '5' :: r => .hour15 :: layoutChunksF n r
    | '1' :: r => .month1 :: layoutChunksF n r
    | '2' :: '0' :: '0' :: '6' :: r => .year4 :: layoutChunksF n r
    | '2' :: r => .day2 :: layoutChunksF n r
    | '_' :: '2' :: '0' :: '0' :: '6' :: r => .lit '_' :: .year4 :: layoutChunksF n r
    | '_' :: '2' :: r => .dayUnder :: layoutChunksF n r
    | '_' :: '_' :: '2' :: r => .ydayUnder :: layoutChunksF n r
    | '3' :: r => .hour3 :: layoutChunksF n r
    | '4' :: r => .min4 :: layoutChunksF n r
    | '5' :: r => .sec5 :: layoutChunksF n r
    | 'P' :: 'M' :: r => .pm :: layoutChunksF n r
    | 'p' :: 'm' :: r => .pmLower :: layoutChunksF n r
    | '-' :: '0' :: '7' :: r => .zone false (zoneTail r).1 (zoneTail r).2.1 :: layoutChunksF n (zoneTail r).2.2
    | 'Z' :: '0' :: '7' :: r => .zone true (zoneTail r).1 (zoneTail r).2.1 :: layoutChunksF n (zoneTail r).2.2
    | c :: r =>
      if (c == '.' || c == ',') && (r.head? == some '0' || r.head? == some '9') then
        let ch := r.headD '0'
        let k := runLen ch r
        let rest := r.drop k
        if (rest.headD 'x').isDigit then .lit c :: layoutChunksF n r
        else if ch == '9' then .frac9 c k :: layoutChunksF n rest
        else .frac0 c k :: layoutChunksF n rest
      else if c == ' ' then .spaces (runLen ' ' (c :: r)) :: layoutChunksF n (r.dropWhile (· == ' '))
      else .lit c :: layoutChunksF n r

/-- All elements of a layout. -/
def layoutChunks (s : List Char) : List Chunk := layoutChunksF s.length s

/-- Value of an ASCII digit. -/
def digitVal (c : Char) : Int := (c.toNat : Int) - 48

/-- Value of a digit string (`strconv.Atoi` on digits only). -/
def natOfDigits (s : List Char) : Int := s.foldl (fun a c => a * 10 + digitVal c) 0

/-- `getnum`: one or two digits, exactly two if `fixed`. -/
def getnum (fixed : Bool) : List Char → Option (Int × List Char)
  | [] => none
  | c :: cs =>
    if !c.isDigit then none
    else match cs with
      | d :: ds =>
        if d.isDigit then some (digitVal c * 10 + digitVal d, ds)
        else if fixed then none else some (digitVal c, cs)
      | [] => if fixed then none else some (digitVal c, [])

/-- `getnum3`: one to three digits, exactly three if `fixed`. -/
def getnum3 (fixed : Bool) (s : List Char) : Option (Int × List Char) :=
  let ds := (s.take 3).takeWhile Char.isDigit
  if ds.isEmpty || (fixed && ds.length != 3) then none else some (natOfDigits ds, s.drop ds.length)

/-- The numbers of a zone offset; `none` is an error. -/
def zoneNums (colon : Bool) : Nat → List Char → Option (List Int × List Char)
  | 0, v => some ([], v)
  | n + 1, v =>
    match v with
    | a :: b :: r =>
      match getnum true [a, b] with
      | none => none
      | some (x, _) =>
        if n = 0 then some ([x], r)
        else match (if colon then (match r with | ':' :: r' => some r' | _ => none) else some r) with
          | none => none
          | some r' => (zoneNums colon n r').map fun p => (x :: p.1, p.2)
    | _ => none

/-- `atoi` of `time/format.go` (accepts a sign; an empty digit part counts as 0). -/
def atoi (s : List Char) : Option Int :=
  match s with
  | '-' :: r => if r.all Char.isDigit then some (-natOfDigits r) else none
  | '+' :: r => if r.all Char.isDigit then some (natOfDigits r) else none
  | r => if r.all Char.isDigit then some (natOfDigits r) else none

/-- ASCII lower case, as Go's `match` folds (`c | 0x20` restricted to letters). -/
def lowerAscii (c : Char) : Char := if 'A' ≤ c ∧ c ≤ 'Z' then Char.ofNat (c.toNat + 32) else c

/-- Case-insensitive prefix test on ASCII letters; returns the rest. -/
def matchName : List Char → List Char → Option (List Char)
  | [], v => some v
  | _ :: _, [] => none
  | p :: ps, c :: cs => if lowerAscii c == lowerAscii p then matchName ps cs else none

/-- `lookup(tab, val)`: index of the first name that is a prefix, and the rest. -/
def lookup : List (List Char) → List Char → Option (Int × List Char)
  | [], _ => none
  | n :: ns, v =>
    match matchName n v with
    | some r => some (0, r)
    | none => (lookup ns v).map (fun p => (p.1 + 1, p.2))

def longMonthNames : List (List Char) :=
  ["January", "February", "March", "April", "May", "June", "July", "August", "September", "October",
   "November", "December"].map String.toList
def shortMonthNames : List (List Char) :=
  ["Jan", "Feb", "Mar", "Apr", "May", "Jun", "Jul", "Aug", "Sep", "Oct", "Nov", "Dec"].map String.toList
def longDayNames : List (List Char) :=
  ["Sunday", "Monday", "Tuesday", "Wednesday", "Thursday", "Friday", "Saturday"].map String.toList
def shortDayNames : List (List Char) :=
  ["Sun", "Mon", "Tue", "Wed", "Thu", "Fri", "Sat"].map String.toList

/-- Components collected by `parse`; `month`/`day` are −1 while unset. -/
structure PState where
  year : Int := 0
  month : Int := -1
  day : Int := -1
  hour : Int := 0
  min : Int := 0
  sec : Int := 0
  nsec : Int := 0
  pmSet : Bool := false
  amSet : Bool := false
  yday : Int := -1
  /-- seconds east of UTC, -1 while unset (as in the Go code) -/
  zoneOff : Int := -1
  /-- the zone is the "Z" of ISO 8601 -/
  isUTC : Bool := false
  /-- the zone's abbreviation, empty while unset -/
  zoneName : List Char := []
deriving DecidableEq, Repr

/-- `parseNanoseconds` on the digits after the period (at most nine count). -/
def nanosOfDigits (ds : List Char) : Int :=
  let t := ds.take 9
  natOfDigits t * 10 ^ (9 - t.length)

/-- A fraction `.ddd` or `,ddd` at the start of the value: its digits and the rest. -/
def fracPrefix : List Char → Option (List Char × List Char)
  | p :: d :: r =>
    if (p == '.' || p == ',') && d.isDigit then
      some (d :: r.takeWhile Char.isDigit, r.dropWhile Char.isDigit)
    else none
  | _ => none

/-- Is the next layout element a fractional second? -/
def nextIsFrac : List Chunk → Bool
  | .frac9 _ _ :: _ => true
  | .frac0 _ _ :: _ => true
  | _ => false

/-- `nextStdChunk` skips literal text when looking for the next element. -/
def nextStd : List Chunk → List Chunk
  | .lit _ :: r => nextStd r
  | .spaces _ :: r => nextStd r
  | r => r

/-- `parseSignedOffset`: how many characters a sign and a number up to 23 take, or 0. -/
def signedOffsetLen : List Char → Nat
  | [] => 0
  | sign :: r =>
    if sign != '-' && sign != '+' then 0
    else
      let ds := r.takeWhile Char.isDigit
      if ds.isEmpty || decide (natOfDigits ds > 23) then 0 else ds.length + 1

/-- `parseTimeZone`: the length of a zone abbreviation at the start; `none` if there is none. -/
def zoneNameLen (v : List Char) : Option Nat :=
  if v.length < 3 then none
  else if v.take 4 == ['C', 'h', 'S', 'T'] || v.take 4 == ['M', 'e', 'S', 'T'] then some 4
  else if v.take 3 == ['G', 'M', 'T'] then some (3 + signedOffsetLen (v.drop 3))
  else if v.headD ' ' == '+' || v.headD ' ' == '-' then
    if signedOffsetLen v > 0 then some (signedOffsetLen v) else none
  else
    let n := ((v.take 6).takeWhile fun c => 'A' ≤ c && c ≤ 'Z').length
    if n = 5 then (if v.getD 4 ' ' == 'T' then some 5 else none)
    else if n = 4 then (if v.getD 3 ' ' == 'T' || v.take 4 == ['W', 'I', 'T', 'A'] then some 4 else none)
    else if n = 3 then some 3
    else none

/-- One layout element. -/
def parseChunk (c : Chunk) (rest : List Chunk) (v : List Char) (s : PState) :
    Option (List Char × PState) :=
  match c with
  | .lit c => match v with
    | x :: xs => if x == c then some (xs, s) else none
    | [] => none
  | .spaces _ => match v with
    | [] => some ([], s)
    | x :: _ => if x == ' ' then some (v.dropWhile (· == ' '), s) else none
  | .year2 =>
    if v.length < 2 then none
    else (atoi (v.take 2)).map fun y =>
      (v.drop 2, { s with year := if y ≥ 69 then y + 1900 else y + 2000 })
  | .year4 =>
    if v.length < 4 ∨ ¬ (v.headD 'x').isDigit then none
    else (atoi (v.take 4)).map fun y => (v.drop 4, { s with year := y })
  | .month3 => (lookup shortMonthNames v).map fun p => (p.2, { s with month := p.1 + 1 })
  | .monthLong => (lookup longMonthNames v).map fun p => (p.2, { s with month := p.1 + 1 })
  | .month1 => (getnum false v).bind fun p =>
      if p.1 ≤ 0 ∨ 12 < p.1 then none else some (p.2, { s with month := p.1 })
  | .month01 => (getnum true v).bind fun p =>
      if p.1 ≤ 0 ∨ 12 < p.1 then none else some (p.2, { s with month := p.1 })
  | .wday3 => (lookup shortDayNames v).map fun p => (p.2, s)
  | .wdayLong => (lookup longDayNames v).map fun p => (p.2, s)
  | .day2 => (getnum false v).map fun p => (p.2, { s with day := p.1 })
  | .day02 => (getnum true v).map fun p => (p.2, { s with day := p.1 })
  | .dayUnder =>
    let v := match v with | ' ' :: r => r | _ => v
    (getnum false v).map fun p => (p.2, { s with day := p.1 })
  | .hour15 => (getnum false v).bind fun p =>
      if p.1 < 0 ∨ 24 ≤ p.1 then none else some (p.2, { s with hour := p.1 })
  | .hour3 => (getnum false v).bind fun p =>
      if p.1 < 0 ∨ 12 < p.1 then none else some (p.2, { s with hour := p.1 })
  | .hour03 => (getnum true v).bind fun p =>
      if p.1 < 0 ∨ 12 < p.1 then none else some (p.2, { s with hour := p.1 })
  | .min4 => (getnum false v).bind fun p =>
      if p.1 < 0 ∨ 60 ≤ p.1 then none else some (p.2, { s with min := p.1 })
  | .min04 => (getnum true v).bind fun p =>
      if p.1 < 0 ∨ 60 ≤ p.1 then none else some (p.2, { s with min := p.1 })
  | .sec5 => (getnum false v).bind fun p => secTail p
  | .sec05 => (getnum true v).bind fun p => secTail p
  | .pm =>
    if v.take 2 == ['P', 'M'] then some (v.drop 2, { s with pmSet := true })
    else if v.take 2 == ['A', 'M'] then some (v.drop 2, { s with amSet := true })
    else none
  | .pmLower =>
    if v.take 2 == ['p', 'm'] then some (v.drop 2, { s with pmSet := true })
    else if v.take 2 == ['a', 'm'] then some (v.drop 2, { s with amSet := true })
    else none
  | .yday3 => (getnum3 true v).map fun p => (p.2, { s with yday := p.1 })
  | .ydayUnder =>
    let v := match v with | ' ' :: r => r | _ => v
    let v := match v with | ' ' :: r => r | _ => v
    (getnum3 false v).map fun p => (p.2, { s with yday := p.1 })
  | .zone iso colon n =>
    if iso && v.head? == some 'Z' then some (v.drop 1, { s with isUTC := true })
    else match v with
      | [] => none
      | sign :: r =>
        match zoneNums colon n r with
        | none => none
        | some (ns, rest) =>
          let hr := ns.getD 0 0
          let mm := ns.getD 1 0
          let ss := ns.getD 2 0
          if hr > 24 ∨ mm > 60 ∨ ss > 60 then none
          else
            let off := (hr * 60 + mm) * 60 + ss
            if sign == '+' then some (rest, { s with zoneOff := off })
            else if sign == '-' then some (rest, { s with zoneOff := -off })
            else none
  | .frac9 _ _ => match fracPrefix v with
    | none => some (v, s)
    | some (ds, r) => some (r, { s with nsec := nanosOfDigits ds })
  -- (for more than nine digits Go counts bytes, which makes a difference on texts that are not ASCII)
  | .frac0 _ n => match v with
    | p :: r =>
      if (p == '.' || p == ',') && n ≤ r.length then
        (atoi ((r.take n).take 9)).bind fun x =>
          if x < 0 then none else some (r.drop n, { s with nsec := x * 10 ^ (9 - (r.take n).length) })
      else none
    | [] => none
  | .tzName =>
    if v.take 3 == ['U', 'T', 'C'] then some (v.drop 3, { s with isUTC := true })
    else (zoneNameLen v).map fun n => (v.drop n, { s with zoneName := v.take n })
where
  /-- Range check of seconds, then a fraction the layout does not mention. -/
  secTail (p : Int × List Char) : Option (List Char × PState) :=
    if p.1 < 0 ∨ 60 ≤ p.1 then none
    else
      let s := { s with sec := p.1 }
      match fracPrefix p.2 with
      | none => some (p.2, s)
      | some (ds, r) =>
        if nextIsFrac (nextStd rest) then some (p.2, s)
        else some (r, { s with nsec := nanosOfDigits ds })

/-- The loop of `parse`: all the elements, and nothing left over. -/
def parseChunks : List Chunk → List Char → PState → Option PState
  | [], v, s => if v.isEmpty then some s else none
  | c :: cs, v, s =>
    match parseChunk c cs v s with
    | none => none
    | some (v', s') => parseChunks cs v' s'

/-- Month and day of a day of the year; `none` if out of range. -/
def ofYearDay (year yday : Int) : Option (Int × Int) :=
  let leap := daysIn year 2 == 29
  if leap && yday == 60 then some (2, 29)
  else
    let yday := if leap && yday > 60 then yday - 1 else yday
    if yday < 1 ∨ yday > 365 then none
    else
      let m := (yday - 1) / 31 + 1
      let m := if m < 12 ∧ daysBeforeMonth 1 (m + 1) < yday then m + 1 else m
      some (m, yday - daysBeforeMonth 1 m)

/-- The month and day at the end of `parse`: from the day of the year, or defaults. -/
def finishDay (s : PState) : Option (Int × Int) :=
  if 0 ≤ s.yday then
    match ofYearDay s.year s.yday with
    | none => none
    | some (m, d) => if (0 ≤ s.month ∧ s.month ≠ m) ∨ (0 ≤ s.day ∧ s.day ≠ d) then none else some (m, d)
  else some (if s.month < 0 then 1 else s.month, if s.day < 0 then 1 else s.day)

/-- `lookupName` of `time/zoneinfo.go`: the offset an abbreviation stands for. -/
def Loc.lookupName (l : Loc) (name : List Char) (unix : Int) : Option Int :=
  match l.zones.find? (fun z => z.1 == name && l.abbr (unix - z.2) == z.1) with
  | some z => some (l.off (unix - z.2))
  | none => (l.zones.find? (fun z => z.1 == name)).map (·.2)

/-- The final part of `parse`: AM/PM, day of the year, defaults, day check, zone, `Date`. -/
def finishParse (s : PState) (l : Loc) : Option Time :=
  let hour := if s.pmSet && s.hour < 12 then s.hour + 12
    else if s.amSet && s.hour == 12 then 0 else s.hour
  match finishDay s with
  | none => none
  | some (month, day) =>
    if day < 1 ∨ day > daysIn s.year month then none
    else if s.isUTC then some (goDate s.year month day hour s.min s.sec s.nsec Loc.utc)
    else if s.zoneOff ≠ -1 then
      let t := goDate s.year month day hour s.min s.sec s.nsec Loc.utc
      let sec := t.sec - s.zoneOff
      some { t with
        sec := sec
        loc := if l.off sec = s.zoneOff ∧ (s.zoneName = [] ∨ l.abbr sec = s.zoneName) then l
          else Loc.fixed (String.ofList s.zoneName) s.zoneOff }
    else if s.zoneName ≠ [] then
      let t := goDate s.year month day hour s.min s.sec s.nsec Loc.utc
      match l.lookupName s.zoneName t.sec with
      | some offset => some { t with sec := t.sec - offset, loc := l }
      | none =>
        let offset := if s.zoneName.length > 3 ∧ s.zoneName.take 3 = ['G', 'M', 'T'] then
          (atoi (s.zoneName.drop 3)).getD 0 * 3600 else 0
        some { t with loc := Loc.fixed (String.ofList s.zoneName) offset }
    else some (goDate s.year month day hour s.min s.sec s.nsec l)

/-- The end of `parse` without a day of the year and a zone. -/
theorem finishParse_plain {s : PState} (hy : s.yday = -1) (hz : s.zoneOff = -1) (hu : s.isUTC = false ∧ s.zoneName = [])
    (l : Loc) :
    finishParse s l =
      (let hour := if s.pmSet && s.hour < 12 then s.hour + 12
        else if s.amSet && s.hour == 12 then 0 else s.hour
      let month := if s.month < 0 then 1 else s.month
      let day := if s.day < 0 then 1 else s.day
      if day < 1 ∨ day > daysIn s.year month then none
      else some (goDate s.year month day hour s.min s.sec s.nsec l)) := by
  simp [finishParse, finishDay, hy, hz, hu.1, hu.2]

/-- `time.ParseInLocation(layout, value, loc)` with the layout already split. -/
def parseWith (cs : List Chunk) (v : List Char) (l : Loc) : Option Time :=
  (parseChunks cs v {}).bind (finishParse · l)

/-- `time.ParseInLocation(layout, value, loc)`; `none` is an error. -/
def timeParseIn (layout v : List Char) (l : Loc) : Option Time := parseWith (layoutChunks layout) v l

/-- `time.Parse(layout, value)`. -/
def timeParse (layout v : List Char) : Option Time := timeParseIn layout v Loc.utc

end Verif.Go
