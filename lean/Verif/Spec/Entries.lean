/-
What the entries of a notebook are.
-/
import Verif.Model.Notebook
import Verif.Spec.Each

namespace OneNote.Spec

/-- The name of a table of contents: something followed by `.onetoc2`. -/
def TocName (name : Text) : Prop := ∃ stem, stem ≠ [] ∧ name = stem ++ ".onetoc2".toList

/-- `before` lists entries of a directory that are not tables of contents. -/
def NoToc (before : List (Option Text)) : Prop := ∀ x ∈ before, ∃ name, x = some name ∧ ¬ TocName name

/-- The entry `e` for the path `p`: a section for a file; for anything else a section group with the
name of the directory and the entries of the notebook whose table of contents is the first one in the
directory. `section` and `notebook` say what the files contain. -/
inductive EntryAt (fs : FileSystem) (section_ : Path → Section → Prop)
    (notebook : Path → Notebook → Prop) (p : Path) : SectionEntry → Prop where
  | file (s : Section) : fs.isFile p = true → section_ p s → EntryAt fs section_ notebook p (.section s)
  | directory (name toc : Text) (before after : List (Option Text)) (nb : Notebook) :
      fs.isFile p = false → p.getLast? = some (.normal name) →
      fs.readDir p = some (before ++ some toc :: after) → NoToc before → TocName toc →
      notebook (p ++ [.normal toc]) nb →
      EntryAt fs section_ notebook p (.sectionGroup ⟨name, nb.entries⟩)

/-- The error for a path that is not an entry. -/
inductive EntryFails (fs : FileSystem) (section_ : Path → Err → Prop) (notebook : Path → Err → Prop)
    (p : Path) : Err → Prop where
  | file (e : Err) : fs.isFile p = true → section_ p e → EntryFails fs section_ notebook p e
  | unlistable : fs.isFile p = false → fs.readDir p = none → EntryFails fs section_ notebook p .io
  | unreadable (before after : List (Option Text)) :
      fs.isFile p = false → fs.readDir p = some (before ++ none :: after) → NoToc before →
      EntryFails fs section_ notebook p .io
  | missing (names : List (Option Text)) :
      fs.isFile p = false → fs.readDir p = some names → NoToc names →
      EntryFails fs section_ notebook p .tocFileMissing
  | directory (e : Err) (toc : Text) (before after : List (Option Text)) :
      fs.isFile p = false → fs.readDir p = some (before ++ some toc :: after) → NoToc before →
      TocName toc → notebook (p ++ [.normal toc]) e → EntryFails fs section_ notebook p e

/-- The paths that are parsed: those that exist, without the recycle bin. -/
def Kept (fs : FileSystem) (paths : List Path) : List Path :=
  paths.filter fun p => fs.pathExists p &&
    decide (p.getLast? ≠ some (.normal "OneNote_RecycleBin".toList))

/-- The file at `path` is a table of contents in the directory `base` with these names and color, and
the names lead to `paths`. -/
structure Contents (env : Env) (path base : Path) (names : List Text) (color : Option Color) : Prop where
  opened : ∃ data store, env.fs.read path = some data ∧ readStore env.ord data = .ok store ∧
    store.schema = tocSchema ∧ parseToc env.fuel store.dataRoot = .ok (names, color)
  parent : Path.parent path = some base

end OneNote.Spec
