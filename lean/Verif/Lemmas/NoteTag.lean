/-
The table of note tag shapes.
-/
import Verif.Spec.NoteTag

namespace OneNote
open Spec

theorem shape_beyond (w : Nat) : NoteTagShape.parse (w + 144) = .error .malformedOneNoteFile := rfl

theorem shape_table : ∀ i : Fin 144,
    (NoteTagShape.parse i).toOption.map shapeCode = some i.val := by decide +kernel

theorem shape_code (s : NoteTagShape) : NoteTagShape.parse (shapeCode s) = .ok s := by
  cases s <;> rfl

theorem shape_checkable (s : NoteTagShape) : s.isCheckable = true ↔ shapeCode s ∈ checkableCodes := by
  cases s <;> decide

end OneNote
