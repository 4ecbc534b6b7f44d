import Verif.Spec.Whole
import Verif.Lemmas.Whole
import Verif.Props.Timezone
/-! # A surrounding of the library that meets `Sound`, for the examples -/
set_option autoImplicit false
namespace Verif.Spec
open Verif.Go Verif.Model Verif.Data Verif.Lemmas

/-- ASCII tables, one of the zone tables, the clock at 2024-03-15 12:00 UTC, English only. -/
def demoEnv : Env where
  uni := asciiUni
  table := Props.tableA
  now := goDate 2024 3 15 12 0 0 0 Loc.utc
  localZone := Loc.utc
  big := 0
  monthFirst := fun _ => true
  lang := fun _ => enData.lang asciiUni

theorem demo_sound : Sound demoEnv := ⟨⟨asciiUni_ok, Props.tableA_isTable, by decide +kernel⟩, rfl⟩

/-- The default configuration and a new parser. -/
theorem demo_first : EnglishFirst {} {} := ⟨rfl, rfl, rfl, Or.inr ⟨rfl, rfl⟩, rfl, rfl, Or.inl rfl⟩

theorem demo_zones (w : Int) : ZonesOk {} demoEnv.now w :=
  ⟨rfl, fun t => by show (-86400 : Int) ≤ 0 ∧ (0 : Int) ≤ 86400; decide, fun l h => by cases h⟩

end Verif.Spec
