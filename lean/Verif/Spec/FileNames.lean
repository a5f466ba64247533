/-
When a text can be used as the name of a file in a directory.
-/
import Verif.Model.Text

namespace OneNote.Spec.FileNames

/-- A name for a file in a directory: not empty, not the directory itself or the one above it, and
without the characters that separate the parts of a path (on Unix or Windows) or end it. -/
def PlainName (t : Text) : Prop :=
  t ≠ [] ∧ t ≠ ['.'] ∧ t ≠ ['.', '.'] ∧ '/' ∉ t ∧ '\\' ∉ t ∧ Char.ofNat 0 ∉ t

instance (t : Text) : Decidable (PlainName t) := inferInstanceAs (Decidable (_ ∧ _))

end OneNote.Spec.FileNames
