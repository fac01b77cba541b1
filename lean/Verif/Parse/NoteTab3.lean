/-
Two tables of NoteRows.
-/
import Verif.Parse.NoteRows

namespace Verif.Parse.Notes

theorem hook_ok : toneOk .hook = true := by decide +kernel
theorem circumflex_ok : toneOk .circumflex = true := by decide +kernel

end Verif.Parse.Notes
