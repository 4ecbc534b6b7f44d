import Verif.Go.Regexp
import Verif.Go.TimeParse
import Verif.Model.Setting
/-! # internal/parser/timestamp -/
set_option autoImplicit false
namespace Verif.Model
open Verif.Go

/-- `(\d{3})?(\d{3})?(?:\.|\s|$)`, the common tail of the two patterns. -/
def rxStampTail : Rx :=
  .seq (.opt (.grp 2 (Rx.digit.rep 3))) (.seq (.opt (.grp 3 (Rx.digit.rep 3)))
    (.alt (.chr (· == '.')) (.alt Rx.space .eos)))

/-- timestamp/parser.go:13 `rxTimestamp`: `^(\d{10})(\d{3})?(\d{3})?(?:\.|\s|$)`. -/
def rxTimestamp : Rx := .seq .bos (.seq (.grp 1 (Rx.digit.rep 10)) rxStampTail)

/-- timestamp/parser.go:14 `rxNegativeTimestamp`: `^([-]\d{10})(\d{3})?(\d{3})?(?:\.|\s|$)`. -/
def rxNegativeTimestamp : Rx :=
  .seq .bos (.seq (.grp 1 (.seq (.chr (· == '-')) (Rx.digit.rep 10))) rxStampTail)

/-- `strconv.ParseInt(s, 10, 64)` on at most ten digits with an optional minus; 0 on the empty string
(where Go reports an error and 0). -/
def parseSmallInt (s : List Char) : Int :=
  match s with
  | '-' :: r => -(natOfDigits r : Int)
  | _ => natOfDigits s

/-- timestamp/parser.go:18-43 `Parse`.  `localZone` is Go's `time.Local`. -/
def timestampParse (cfg : Cfg) (localZone : Loc) (str : List Char) (negative : Bool) : DateRes :=
  let period := if cfg.timeAsPeriod then .second else .day
  match (if negative then rxNegativeTimestamp else rxTimestamp).findFirst str with
  | some m =>
    let seconds := parseSmallInt (m.after.cap 1)
    let millis := parseSmallInt (m.after.cap 2)
    let micros := parseSmallInt (m.after.cap 3)
    { period := period, time := goUnix seconds (micros * 1000 + millis * 1000000) localZone }
  | none => DateRes.zero

end Verif.Model
