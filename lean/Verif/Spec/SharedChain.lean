import Verif.Model.SharedChain
/-! # Specification: what the shared transformer should do -/
set_option autoImplicit false
namespace Verif.Spec
open Verif.Model

/-- All stages, one after the other. -/
def stages : List (List Char → List Char) → List Char → List Char
  | [], s => s
  | f :: fs, s => stages fs (f s)

end Verif.Spec
