/-! # internal/language/utils.go: `createPermutation` -/
set_option autoImplicit false
namespace Verif.Model

/-- utils.go:83-96: the inner loop, filling one column; `none` is an index out of range. -/
def fillColumn {T : Type} (entries : List T) (maxEntrySubmission : Nat) : Nat → Nat → Nat → Option (List T)
  | 0, _, _ => some []
  | n + 1, entryIdx, nEntrySubmitted =>
    let (entryIdx, nEntrySubmitted) :=
      if nEntrySubmitted ≥ maxEntrySubmission then (entryIdx + 1, 0) else (entryIdx, nEntrySubmitted)
    let entryIdx := if entryIdx ≥ entries.length then 0 else entryIdx
    match entries[entryIdx]? with
    | some v => (fillColumn entries maxEntrySubmission n entryIdx (nEntrySubmitted + 1)).map (v :: ·)
    | none => none

/-- utils.go:78-99: the outer loop.  The rows, allocated beforehand in Go, are extended by one entry for each column.
`none` is a division by zero or an index out of range. -/
def fillColumns {T : Type} (nPermutation : Nat) : List (List T) → Nat → List (List T) → Option (List (List T))
  | [], _, results => some results
  | entries :: rest, currentTotal, results =>
    let nEntry := entries.length
    if nEntry = 0 then none
    else
      match fillColumn entries (currentTotal / nEntry) nPermutation 0 0 with
      | none => none
      | some col => fillColumns nPermutation rest (currentTotal / nEntry) (List.zipWith (fun row v => row ++ [v]) results col)

/-- utils.go:63-102 `createPermutation`; `none` is a panic.  (Go's `int` is taken as unbounded: the product cannot overflow
before the rows exhaust the memory.) -/
def createPermutation {T : Type} (input : List (List T)) : Option (List (List T)) :=
  let nPermutation := input.foldl (fun n entries => n * entries.length) 1
  fillColumns nPermutation input nPermutation (List.replicate nPermutation [])

end Verif.Model
