import Verif.Spec.SearchExact
/-! # A chunk of a searched text and its pieces (C64) -/
set_option autoImplicit false
namespace Verif.Spec
open Verif.Go Verif.Model

/-- `e` with the original `o` is the chunk itself, or a piece of it cut at a separator. -/
def PieceOf (entry original e o : List Char) : Prop :=
  (e = entry ∧ o = original) ∨ ∃ sep ∈ separators, ∃ cut ∈ cuts entry original sep, (e, o) ∈ cut.entryParts.zip cut.originalParts

end Verif.Spec
