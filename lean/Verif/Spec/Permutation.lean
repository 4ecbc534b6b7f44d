/-! # Specification: all combinations -/
set_option autoImplicit false
namespace Verif.Spec

/-- All ways to choose one entry from each list, the choices from the first list varying slowest. -/
def combinations {T : Type} : List (List T) → List (List T)
  | [] => [[]]
  | entries :: rest => entries.flatMap fun x => (combinations rest).map (x :: ·)

end Verif.Spec
