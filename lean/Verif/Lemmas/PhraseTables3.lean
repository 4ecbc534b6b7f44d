import Verif.Lemmas.WordTables
import Verif.Lemmas.PhraseReach
import Verif.Lemmas.PhraseTables2
/-! Helper lemmas: the phrases for relative dates of the supported locales, a part. -/
set_option autoImplicit false
set_option maxRecDepth 100000
namespace Verif.Lemmas
open Verif.Go Verif.Model Verif.Data Verif.Spec

theorem phrases_read_6 : (langChunk 6).all phrasesRead = true := by decide +kernel

theorem phrases_read_7 : (langChunk 7).all phrasesRead = true := by decide +kernel

theorem phrases_read_8 : (langChunk 8).all phrasesRead = true := by decide +kernel

end Verif.Lemmas
