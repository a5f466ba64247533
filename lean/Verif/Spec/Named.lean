/-
Which file is at fault when an error names one.
-/
import Verif.Spec.Kinds

namespace OneNote.Spec

/-- The file at `p` can be read and is intact, but it is not one with the schema. -/
def OtherFile (env : Env) (schema : Guid) (p : Path) : Prop :=
  ∃ data store, env.fs.read p = some data ∧ readStore env.ord data = .ok store ∧ store.schema ≠ schema

/-- What is wrong with the file or directory `p` of the notebook with the table of contents `path` in the
directory `base`, by the kind of the error that names it. -/
inductive AtFault (env : Env) (path base p : Path) : Err → Prop where
  /-- It is among the entries, but not a section. -/
  | notSection : Below base p → env.fs.isFile p = true → OtherFile env sectionSchema p →
      AtFault env path base p .notASectionFile
  /-- It is in the place of a table of contents, but it is not one. -/
  | notToc : TocOf path base p → OtherFile env tocSchema p → AtFault env path base p .notATocFile
  /-- It is among the entries, not a file, and has no table of contents in it. -/
  | missing (names : List (Option Text)) : Below base p → env.fs.isFile p = false →
      env.fs.readDir p = some names → NoToc names → AtFault env path base p .tocFileMissing

/-- The kinds of errors that name a file or directory. -/
def namesFile : Err → Bool
  | .notASectionFile | .notATocFile | .tocFileMissing => true
  | _ => false

/-- The disk with other contents of the file at `p`. -/
def withFile (env : Env) (p : Path) (data : Bytes) : Env :=
  { env with fs := { env.fs with read := fun q => if q = p then some data else env.fs.read q } }

/-- The notebook at `path` cannot be opened because of the file at `p` and of no other: with other contents
of that file it can be opened. -/
def OnlyFault (env : Env) (n : Nat) (path p : Path) : Prop :=
  (∃ e, parseNotebook env n path = .error e) ∧
  ∃ data nb, parseNotebook (withFile env p data) n path = .ok nb

end OneNote.Spec
