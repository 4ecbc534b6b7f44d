import Verif.Lemmas.WordTables
import Verif.Lemmas.WordMonths8
/-! Helper lemmas: the month names of the supported locales, a part. -/
set_option autoImplicit false
set_option maxRecDepth 100000
namespace Verif.Lemmas
open Verif.Go Verif.Model Verif.Data Verif.Spec

theorem months_read_9 : (langChunk 9).all monthsRead = true := by decide +kernel

end Verif.Lemmas
