import Verif.Model.Search
/-! # Specification: search results -/
set_option autoImplicit false
namespace Verif.Spec
open Verif.Go Verif.Model

/-- `e` and `p` are pieces with the same number when `entry` and `original` are both cut at the same separator into the
same number of pieces. -/
def SamePiece (entry original e p : List Char) : Prop :=
  ∃ (sep : List Char) (es ps : List (List Char)) (j : Nat), es.length = ps.length ∧
    joinWith sep es = entry ∧ joinWith sep ps = original ∧ es[j]? = some e ∧ ps[j]? = some p

/-- The text without characters of this set at its ends. -/
def TrimmedOf (chars : List Char) (s t : List Char) : Prop :=
  ∃ a b, t = a ++ s ++ b ∧ (∀ c ∈ a ++ b, c ∈ chars) ∧ (∀ c, s.head? = some c ∨ s.getLast? = some c → c ∉ chars)

/-- The parser answered `d` for this text (with whatever state and current time). -/
def Answered {σ τ D : Type} (env : SearchEnv σ τ D) (entry : List Char) (d : D) : Prop :=
  ∃ s t, (env.parse s t (cleanEntry entry)).2 = some d

/-- `sub` with date `d` is found in the chunk with this entry and original text: the parser answered `d` for the whole
entry and `sub` is the original without punctuation around it, or for a piece of the entry and `sub` is the
corresponding piece of the original without punctuation around it. -/
def FoundIn {σ τ D : Type} (env : SearchEnv σ τ D) (entry original : List Char) (d : D) (sub : List Char) : Prop :=
  (Answered env entry d ∧ TrimmedOf " .,:()[]-'".toList sub original) ∨
  (∃ e p, SamePiece entry original e p ∧ Answered env e d ∧ TrimmedOf " .,:()[]-".toList sub p)

/-- The separators at which an undated chunk is cut. -/
def separators : List (List Char) := [",".toList, "،".toList, "——".toList, "—".toList, "–".toList, ".".toList, " ".toList]

/-- A list in groups of `k` (the last may be shorter). -/
def inGroups {α : Type} (k : Nat) (l : List α) : List (List α) :=
  if h : l = [] ∨ k = 0 then [] else l.take k :: inGroups k (l.drop k)
termination_by l.length
decreasing_by
  have : l.length ≠ 0 := fun e => h (Or.inl (List.eq_nil_of_length_eq_zero e))
  simp only [List.length_drop]
  omega

/-- The ways to cut a chunk at a separator: none if it is missing, or not as often in the original; all pieces; from three separators on
also the pieces in pairs and in threes. -/
def cuts (entry original sep : List Char) : List SplitResult :=
  if countStr sep entry = 0 ∨ countStr sep entry ≠ countStr sep original then []
  else
    let es := splitStr sep entry
    let ps := splitStr sep original
    ⟨es, ps⟩ :: (if 3 ≤ countStr sep entry then
      [2, 3].map fun k => ⟨(inGroups k es).map (joinWith sep), (inGroups k ps).map (joinWith sep)⟩ else [])

end Verif.Spec
