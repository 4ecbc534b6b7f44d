import Verif.Lemmas.WordTables
import Verif.Lemmas.PhraseReach
import Verif.Lemmas.PhraseTables3
/-! Helper lemmas: the phrases for relative dates of the supported locales, a part. -/
set_option autoImplicit false
set_option maxRecDepth 100000
namespace Verif.Lemmas
open Verif.Go Verif.Model Verif.Data Verif.Spec

theorem phrases_read_9 : (langChunk 9).all phrasesRead = true := by decide +kernel

theorem phrases_read_10 : (langChunk 10).all phrasesRead = true := by decide +kernel

theorem phrases_read_11 : (langChunk 11).all phrasesRead = true := by decide +kernel

end Verif.Lemmas
