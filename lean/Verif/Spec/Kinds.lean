/-
Which kinds of errors the parts of the parser report.
-/
import Verif.Model.Notebook
import Verif.Spec.Entries
import Verif.Spec.Path

namespace OneNote.Spec

/-- The kinds of errors for a file that is damaged: it ends too early, or what contains its objects is
malformed. (`fuel` stands for a call that does not end, see `C07`, `C23`.) -/
def damaged : Err → Bool
  | .eof | .malformedData | .malformedFssHttpB | .malformedOneStore | .fuel => true
  | _ => false

/-- The kinds of errors for objects of which no section can be made. (`eof` is for a list of numbers that
ends too early; `fuel` and `panic` stand for a call that does not end and a call that panics, see `C41`,
`C26`.) -/
def malformed : Err → Bool
  | .eof | .malformedOneNote | .malformedOneNoteFile | .utf16Error | .fuel | .panic => true
  | _ => false

/-- A table of contents of the notebook at `path` in the directory `base`: that file, or one in a
directory below. -/
def TocOf (path base p : Path) : Prop :=
  p = path ∨ ∃ dir toc, Below base dir ∧ TocName toc ∧ p = dir ++ [.normal toc]

/-- Why a notebook with the table of contents `path` in the directory `base` cannot be opened, by the kind
of the error. `Below base p` is a place in the directory. -/
inductive Cause (env : Env) (path base : Path) : Err → Prop where
  /-- A file cannot be read. -/
  | unreadable (p : Path) : TocOf path base p ∨ Below base p → env.fs.read p = none → Cause env path base .io
  /-- A directory cannot be listed. -/
  | unlistable (dir : Path) : Below base dir →
      (env.fs.readDir dir = none ∨ ∃ names, env.fs.readDir dir = some names ∧ none ∈ names) →
      Cause env path base .io
  /-- A directory has no table of contents. -/
  | missing (dir : Path) (names : List (Option Text)) : Below base dir → env.fs.isFile dir = false →
      env.fs.readDir dir = some names → NoToc names → Cause env path base .tocFileMissing
  /-- A file is damaged. -/
  | damaged (p : Path) (data : Bytes) (e : Err) : TocOf path base p ∨ Below base p → env.fs.read p = some data →
      readStore env.ord data = .error e → damaged e = true → Cause env path base e
  /-- A file is intact, but no section. -/
  | notSection (p : Path) (data : Bytes) (store : Store) : Below base p → env.fs.isFile p = true →
      env.fs.read p = some data → readStore env.ord data = .ok store → store.schema ≠ sectionSchema →
      Cause env path base .notASectionFile
  /-- A file is intact, but no table of contents. -/
  | notToc (p : Path) (data : Bytes) (store : Store) : TocOf path base p →
      env.fs.read p = some data → readStore env.ord data = .ok store → store.schema ≠ tocSchema →
      Cause env path base .notATocFile
  /-- The objects of an intact section file do not make a section. -/
  | malformedSection (p : Path) (data : Bytes) (store : Store) (name : Text) (e : Err) : Below base p →
      env.fs.read p = some data → readStore env.ord data = .ok store → store.schema = sectionSchema →
      parseSectionStore env.fuel store name = .error e → malformed e = true → Cause env path base e
  /-- The objects of an intact table of contents do not make one. -/
  | malformedToc (p : Path) (data : Bytes) (store : Store) (e : Err) : TocOf path base p →
      env.fs.read p = some data → readStore env.ord data = .ok store → store.schema = tocSchema →
      parseToc env.fuel store.dataRoot = .error e → malformed e = true → Cause env path base e
  /-- A table of contents lists something that is not in its directory. -/
  | outside (p dir : Path) (names : List Text) (color : Option Color) (name : Text) :
      TocOf path base p → Contents env p dir names color → name ∈ names →
      (∀ q, resolveEntryPath env.fs env.sanitise dir name ≠ .ok q) → Cause env path base .invalidPath
  /-- The section groups are nested too deeply: a call that does not end, see `C41`. -/
  | nested : Cause env path base .fuel

end OneNote.Spec
