import Verif.Lemmas.WordTables
import Verif.Lemmas.PhraseReach
import Verif.Lemmas.PhraseTables1
/-! Helper lemmas: the phrases for relative dates of the supported locales, a part. -/
set_option autoImplicit false
set_option maxRecDepth 100000
namespace Verif.Lemmas
open Verif.Go Verif.Model Verif.Data Verif.Spec

theorem phrases_read_3 : (langChunk 3).all phrasesRead = true := by decide +kernel

theorem phrases_read_4 : (langChunk 4).all phrasesRead = true := by decide +kernel

theorem phrases_read_5 : (langChunk 5).all phrasesRead = true := by decide +kernel

end Verif.Lemmas
