/-
Two tables of NoteRows.
-/
import Verif.Parse.NoteRows

namespace Verif.Parse.Notes

theorem grave_ok : toneOk .grave = true := by decide +kernel
theorem tilde_ok : toneOk .tilde = true := by decide +kernel

end Verif.Parse.Notes
