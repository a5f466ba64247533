/-
Two notebooks of which one has been made from the other: entries moved, renamed, added or taken away.
-/
import Verif.Spec.Moved
import Verif.Spec.Document
import Verif.Spec.Path

namespace OneNote.Spec

/-- At `a'` on the disk `fs'` is what is at `a` on the disk `fs`: a file with the same bytes, or a
directory with the same files and directories below it, listed in the same order. -/
inductive SameEntry (fs fs' : FileSystem) (a a' : Path) : Prop where
  | file : fs.isFile a = true → fs'.isFile a' = true → fs.read a = fs'.read a' → SameEntry fs fs' a a'
  | directory (k k' : Path) : fs.isFile a = false → fs'.isFile a' = false →
      fs.readDir a = fs'.readDir a' → Copied fs fs' a a' k k' → SameOrder fs fs' a a' →
      SameEntry fs fs' a a'

/-- The entry of this name is shown: there is something of this name in the directory, and it is not the
recycle bin. -/
def Visible (fs : FileSystem) (base : Path) (name : Text) : Bool :=
  fs.pathExists (base ++ [.normal name]) && decide (name ≠ "OneNote_RecycleBin".toList)

/-- A table of contents with this name in it is not refused for it: it is an ordinary file name that the
sanitiser leaves alone, and what has this name is really in the directory. -/
structure Usable (fs : FileSystem) (sanitise : Text → Text) (base : Path) (name : Text) : Prop where
  fileName : FileName name
  sanitised : sanitise name = name
  inside : fs.pathExists (base ++ [.normal name]) = true → Inside fs base (base ++ [.normal name])

/-- The second entry is the first one under the name `name`. A section group is shown with that name. A
section is shown with that name without `.one`, unless the file says under which name it is shown. Nothing
else is different. -/
inductive Retitled (name : Text) : SectionEntry → SectionEntry → Prop where
  | stored (s : Section) : Retitled name (.section s) (.section s)
  | file (s : Section) (shown : Text) : Document.Stripped name shown →
      Retitled name (.section s) (.section { s with displayName := shown })
  | directory (old : Text) (entries : List SectionEntry) :
      Retitled name (.sectionGroup ⟨old, entries⟩) (.sectionGroup ⟨name, entries⟩)

end OneNote.Spec
