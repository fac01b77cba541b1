/-
Two tables of NoteRows.
-/
import Verif.Parse.NoteRows

namespace Verif.Parse.Notes

theorem plain_ok : toneOk .plain = true := by decide +kernel
theorem macron_ok : toneOk .macron = true := by decide +kernel

end Verif.Parse.Notes
