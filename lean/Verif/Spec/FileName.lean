/-
How a table of contents stores the names of files.
-/
import Verif.Spec.Utf16

namespace OneNote.Spec

/-- The name as it is stored: a plus sign as `^M`, a comma as `^J`. -/
def storedName (name : List Char) : List Char :=
  name.flatMap fun c => if c = '+' then ['^', 'M'] else if c = ',' then ['^', 'J'] else [c]

/-- The name itself contains `^M` or `^J`. -/
def LooksEscaped (name : List Char) : Prop :=
  ['^', 'M'] <:+: name ∨ ['^', 'J'] <:+: name

end OneNote.Spec
