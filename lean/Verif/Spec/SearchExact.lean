import Verif.Spec.Search
/-! # Specification: what a search with a given current time finds, exactly -/
set_option autoImplicit false
namespace Verif.Spec
open Verif.Go Verif.Model

/-- A text as it is given to the parser: without "ngày" and without "am". -/
def textFor (e : List Char) : List Char := deleteStr "am".toList (deleteStr "ngày".toList e)

section
variable {D : Type}

/-- The pieces of a cut with what the parser says of them; pieces of at most two characters do not count. -/
def readCut (f : List Char → Option D) (c : SplitResult) : List (Option D × List Char) :=
  ((c.entryParts.zip c.originalParts).filter fun x => decide (3 ≤ x.1.length)).map fun x =>
    (f (textFor x.1), trimChars x.2 " .,:()[]-".toList)

/-- The number of pieces that are not dates. -/
def undated (a : List (Option D × List Char)) : Nat := (a.filter (·.1.isNone)).length
/-- The number of pieces without digits. -/
def digitless (isDigit : Char → Bool) (a : List (Option D × List Char)) : Nat := (a.filter fun x => !x.2.any isDigit).length

/-- A smaller share of pieces that are not dates; or the same share and fewer pieces; or as many pieces, and no more without digits. -/
def noWorse (isDigit : Char → Bool) (a b : List (Option D × List Char)) : Bool :=
  decide (undated a * b.length < undated b * a.length) ||
  (decide (undated a * b.length = undated b * a.length) &&
    (decide (a.length < b.length) || (decide (a.length = b.length) && decide (digitless isDigit a ≤ digitless isDigit b))))

/-- The first of the best. -/
def bestOf (isDigit : Char → Bool) (l : List (List (Option D × List Char))) : List (Option D × List Char) :=
  (l.find? fun a => l.all fun b => noWorse isDigit a b).getD []

/-- What is found in a chunk: nothing if it has at most two characters; its date, with the original without punctuation around
it; or the dates of the pieces of the best cut. -/
def findsIn (isDigit : Char → Bool) (f : List Char → Option D) (entry original : List Char) : List (D × List Char) :=
  if entry.length ≤ 2 then []
  else match f (textFor entry) with
    | some d => [(d, trimChars original " .,:()[]-'".toList)]
    | none => (bestOf isDigit ((separators.flatMap (cuts entry original)).map (readCut f))).filterMap fun x => x.1.map fun d => (d, x.2)

end

/-- A translation that counts as relative. -/
def SaysRelative (translation : List Char) : Prop :=
  ∃ w ∈ ["ago", "in", "from now", "tomorrow", "today", "yesterday"], w.toList <:+: translation

end Verif.Spec
