/-
Two tables of NoteRows.
-/
import Verif.Parse.NoteRows

namespace Verif.Parse.Notes

theorem acute_ok : toneOk .acute = true := by decide +kernel
theorem caron_ok : toneOk .caron = true := by decide +kernel

end Verif.Parse.Notes
