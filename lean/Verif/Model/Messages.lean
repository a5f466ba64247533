/-
The files that errors name.

Models /repo/src/errors.rs L74-84 and the places that report these errors, /repo/src/onenote/mod.rs
L59-194: three kinds of errors carry the path of a file or directory, which is shown in the message. The
rest of the model (`Model/Notebook.lean`) leaves the path out; here it is kept. What the other kinds say is
fixed or made of the contents of a file (the `io` error of the system names no file), and stays left out.
`to_string_lossy` is taken to be the path itself.
-/
import Verif.Model.Notebook

namespace OneNote.Messages

/-- `ErrorKind`, errors.rs L69-137: the kind, and the path if the kind has one. -/
structure Fault where
  kind : Err
  file : Option Path
  deriving DecidableEq

/-- The results of functions whose errors name files. -/
abbrev ResM (α : Type) := Except Fault α

/-- An error that names no file, passed on by `?`. -/
def plain {α : Type} : Res α → ResM α
  | .ok a => .ok a
  | .error e => .error ⟨e, none⟩

/-- An error that names a file or directory. -/
def naming {α : Type} (kind : Err) (file : Path) : ResM α := .error ⟨kind, some file⟩

/-- `Parser::parse_section_buffer`, mod.rs L107-119, with the file name that is given to it. -/
def parseSectionBuffer (fuel : Nat) (ord : Order) (data : Bytes) (fileName : Path) (name : Text) :
    ResM Section := do
  let store ← plain (readStore ord data)
  if store.schema ≠ sectionSchema then naming .notASectionFile fileName else
  plain (parseSectionStore fuel store name)

/-- `Parser::parse_section`, mod.rs L128-150. -/
def parseSectionFile (env : Env) (path : Path) : ResM Section := do
  let data ← plain (orErr .io (env.fs.read path))
  let store ← plain (readStore env.ord data)
  if store.schema ≠ sectionSchema then naming .notASectionFile path else
  let name ← plain (orErr .invalidPath path.fileName)
  plain (parseSectionStore env.fuel store name)

/-- The loop over the entries of a directory and what follows it, mod.rs L161-182. -/
def findToc (dir : Path) : List (Option Text) → ResM Path
  | [] => naming .tocFileMissing dir
  | none :: _ => .error ⟨.io, none⟩
  | some name :: rest =>
    let path := dir.join [.normal name]
    if path.extension = some tocExtension then .ok path else findToc dir rest

/-- `Parser::parse_section_group`, mod.rs L152-183. -/
def parseSectionGroup (notebook : Path → ResM Notebook) (env : Env) (path : Path) :
    ResM SectionGroup := do
  let displayName ← plain (orErr .invalidPath path.fileName)
  let names ← plain (orErr .io (env.fs.readDir path))
  let toc ← findToc path names
  let group ← notebook toc
  pure { displayName, entries := group.entries }

/-- The closure of mod.rs L84-91. -/
def parseEntry (notebook : Path → ResM Notebook) (env : Env) (path : Path) : ResM SectionEntry :=
  if env.fs.isFile path then SectionEntry.section <$> parseSectionFile env path
  else SectionEntry.sectionGroup <$> parseSectionGroup notebook env path

/-- `Parser::parse_notebook`, mod.rs L59-98. -/
def parseNotebook (env : Env) : Nat → Path → ResM Notebook
  | 0, _ => .error ⟨.fuel, none⟩
  | n + 1, path => do
    let data ← plain (orErr .io (env.fs.read path))
    let store ← plain (readStore env.ord data)
    if store.schema ≠ tocSchema then naming .notATocFile path else
    let baseDir ← plain (orErr .invalidPath path.parent)
    let (names, color) ← plain (parseToc env.fuel store.dataRoot)
    let paths ← plain (names.mapM (resolveEntryPath env.fs env.sanitise baseDir))
    let entries ← (paths.filter (keepEntry env)).mapM (parseEntry (parseNotebook env n) env)
    pure { entries, color }

end OneNote.Messages
