/-
Which notebooks can be saved on a disk.
-/
import Verif.Spec.Folder
import Verif.Spec.Sections

namespace OneNote.Spec.Folder

open Storable Writer

/-- All sections can be stored, the names of all section groups can be names of directories and the
color fits. -/
structure NotebookOk (sanitise : Text → Text) (nb : Notebook) : Prop where
  sections : ∀ s, Among s nb.entries → SectionOk s
  groups : ∀ g, GroupAmong g nb.entries → NameOk sanitise g.displayName
  color : Opt ColorOk nb.color

/-- The names of the section groups among some entries. -/
def groupNames : List SectionEntry → List Text
  | [] => []
  | .section _ :: es => groupNames es
  | .sectionGroup g :: es => g.displayName :: groupNames es

/-- So many entries fit into a directory, and groups in the same directory have different names. -/
structure FitsDirectory (es : List SectionEntry) : Prop where
  few : es.length < 2 ^ 24
  different : (groupNames es).Nodup

/-- The sections are within the limits of the file format, the entries of the notebook and of all
section groups fit into a directory and the names of section groups are not too long. -/
structure NotebookWithin (nb : Notebook) : Prop where
  sections : ∀ s, Among s nb.entries → SectionWithin s
  entries : FitsDirectory nb.entries
  groups : ∀ g, GroupAmong g nb.entries → FitsDirectory g.entries ∧ g.displayName.length < 2 ^ 28

/-- There are more names for files than a directory needs. -/
def ManyNames (sanitise : Text → Text) : Prop :=
  ∀ used : List Text, used.length < 2 ^ 26 → ∃ name, NameOk sanitise name ∧ name.length < 2 ^ 28 ∧ name ∉ used

end OneNote.Spec.Folder
