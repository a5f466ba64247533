/-
A writer for tables of contents: the names of the entries as objects of a file. Nothing here mentions
the model's parsers.
-/
import Verif.Spec.FileName
import Verif.Spec.WriteDocument

namespace OneNote.Spec.Writer

/-- The entries, with increasing ordering ids from `i` on. -/
def tocEntries (i : Nat) : List Text → List Tree
  | [] => []
  | name :: names =>
    node 0x00020001 none
      [(Word.folderChildFilename, .val (some (Scalar.text (storedName name)))),
       (Word.notebookElementOrderingId, .val (some (.u32 i)))] :: tocEntries (i + 1) names

/-- The content and the metadata of a table of contents. -/
def tocTrees (names : List Text) (color : Option Color) : Tree × Tree :=
  (node 0x00020001 none
    [(Word.tocChildren, .many (tocEntries 0 names)),
     (Word.sectionColor, .val (color.map Scalar.color))],
   dummy)

/-- The file of a table of contents. -/
def contentsFile (names : List Text) (color : Option Color) : Bytes :=
  treeFile tocGuid (tocTrees names color) []

end OneNote.Spec.Writer
