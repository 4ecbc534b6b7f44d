import Verif.Lemmas.WordTables
import Verif.Lemmas.PhraseReach
/-! Helper lemmas: the phrases for relative dates of the supported locales, a part. -/
set_option autoImplicit false
set_option maxRecDepth 100000
namespace Verif.Lemmas
open Verif.Go Verif.Model Verif.Data Verif.Spec

theorem phrases_read_0 : (langChunk 0).all phrasesRead = true := by decide +kernel

theorem phrases_read_1 : (langChunk 1).all phrasesRead = true := by decide +kernel

theorem phrases_read_2 : (langChunk 2).all phrasesRead = true := by decide +kernel

end Verif.Lemmas
