/-
Windows paths as they are spelled.
-/
import Verif.Spec.Windows

namespace OneNote.Spec.Windows

/-- File names with a separator in front of each of them: `\a/b\c`. -/
def spelled (names : List (Char × Text)) : Text := names.flatMap fun x => x.1 :: x.2

/-- Ordinary file names with separators: a backslash, or a slash. -/
def Spelled (names : List (Char × Text)) : Prop :=
  ∀ x ∈ names, (x.1 = '/' ∨ x.1 = '\\') ∧ WFileName x.2

/-- Ordinary file names with backslashes. -/
def Backslashed (names : List (Char × Text)) : Prop := ∀ x ∈ names, x.1 = '\\' ∧ WFileName x.2

end OneNote.Spec.Windows
