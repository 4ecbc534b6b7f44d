import Verif.Go.Strings
/-! # internal/strutil/strutil.go -/
set_option autoImplicit false
namespace Verif.Model
open Verif.Go

/-- strutil.go:52-56 `SanitizeSpaces`: non-breaking spaces are deleted, then runs of white space
become one space. -/
def sanitizeSpaces (s : List Char) : List Char :=
  joinWith [' '] (fields (s.filter (fun c => c != '\u00a0')))

/-- strutil.go:36-41, 115-118 `StripBraces`. -/
def stripBraces (s : List Char) : List Char :=
  s.filter (fun c => !(['{', '}', '(', ')', '<', '>', '[', ']'].contains c))

end Verif.Model
