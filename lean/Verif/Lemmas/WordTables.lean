import Verif.Lemmas.WordReach
import Verif.Lemmas.Reduce
/-!
Helper definitions: what is checked of the month names of a locale.
-/
set_option autoImplicit false
set_option maxRecDepth 100000
namespace Verif.Lemmas
open Verif.Go Verif.Model Verif.Data Verif.Spec

/-- Month names of a locale that are read as such. -/
def monthsRead (x : LangData × Option LangData) : Bool :=
  x.1.knownWords.isEmpty || unreadLocales.contains x.1.name ||
    (let d := mergeLangC x.2 x.1
     langOk d && (x.1.translations ++ ((x.2.map (·.translations)).getD [])).all fun t => match t.2 with
      | m :: r => !((monthNames.map (·.1)).contains m) || r.any (· != m) || (t.1.any fun c => decide (c.toNat < 128) && !c.isAlpha) ||
          unreadMonths.contains (x.1.name, t.1) || wordOk d t.1
      | [] => true)

/-- A part of the list of locales. -/
def langChunk (i : Nat) : List (LangData × Option LangData) := (allLangs.drop (42 * i)).take 42

theorem mem_chunk {x : LangData × Option LangData} (h : x ∈ allLangs) : ∃ i < 12, x ∈ langChunk i := by
  obtain ⟨k, hk, e⟩ := List.mem_iff_getElem.mp h
  have hl : allLangs.length = 504 := by decide +kernel
  refine ⟨k / 42, by omega, ?_⟩
  unfold langChunk
  rw [List.mem_iff_getElem]
  have hm : k % 42 < 42 := Nat.mod_lt _ (by decide)
  have hd := Nat.div_add_mod k 42
  refine ⟨k % 42, by simp only [List.length_take, List.length_drop]; omega, ?_⟩
  rw [List.getElem_take, List.getElem_drop]
  simp only [hd]
  exact e

end Verif.Lemmas
