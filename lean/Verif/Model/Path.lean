/-
File paths (`std::path::Path` on Unix) and the file system.

Only what /repo/src/onenote/mod.rs uses is modelled. A path is the list of its components, as all
the operations used work on components. A file name is a `Text`; file names that are not UTF-8 are
not modelled.
-/
import Verif.Model.Text

namespace OneNote

/-- `std::path::Component` on Unix (there is no `Prefix` there). -/
inductive Component where
  | rootDir
  | curDir
  | parentDir
  | normal (name : Text)
  deriving DecidableEq, Repr, Inhabited

/-- A `Path` as its components. -/
abbrev Path := List Component

/-- The pieces of a string between slashes (always at least one piece). -/
def splitSlash : Text → List Text
  | [] => [[]]
  | c :: rest =>
    if c = '/' then [] :: splitSlash rest
    else match splitSlash rest with
      | [] => [[c]]
      | p :: ps => (c :: p) :: ps

/-- One piece of a path. Empty pieces and `.` are skipped by `Path::components`. -/
def pieceOf (p : Text) : Option Component :=
  if p = [] then none
  else if p = ['.'] then none
  else if p = ['.', '.'] then some .parentDir
  else some (.normal p)

/-- `Path::new(s).is_absolute()` on Unix, used in /repo/src/onenote/mod.rs L198. -/
def isAbsolute (s : Text) : Bool := s.head? = some '/'

/-- `Path::new(s).components()`, used in /repo/src/onenote/mod.rs L206: the root directory when the
string starts with a slash; a `.` is only kept at the start of a relative path. -/
def componentsOf (s : Text) : Path :=
  let pieces := splitSlash s
  let body := pieces.filterMap pieceOf
  if isAbsolute s then .rootDir :: body
  else if pieces.head? = some ['.'] then .curDir :: body
  else body

namespace Path

/-- `Path::parent`, used in /repo/src/onenote/mod.rs L72. -/
def parent (p : Path) : Option Path :=
  match p.getLast? with
  | none => none
  | some .rootDir => none
  | some _ => some p.dropLast

/-- `Path::file_name`, used in /repo/src/onenote/mod.rs L143, L154. -/
def fileName (p : Path) : Option Text :=
  match p.getLast? with
  | some (.normal name) => some name
  | _ => none

/-- The extension of a file name: what follows the last dot, unless the name has no dot or only a
leading one. -/
def extensionOf (name : Text) : Option Text :=
  let (after, before) := name.reverse.span (· ≠ '.')
  match before with
  | [] => none
  | [_] => none
  | _ :: _ => some after.reverse

/-- `Path::extension`, used in /repo/src/onenote/mod.rs L164-167. -/
def extension (p : Path) : Option Text := p.fileName.bind extensionOf

/-- `Path::starts_with`, used in /repo/src/onenote/mod.rs L251. -/
def startsWith (p base : Path) : Bool := base.isPrefixOf p

/-- `Path::ends_with`, used in /repo/src/onenote/mod.rs L83. -/
def endsWith (p child : Path) : Bool := child.isSuffixOf p

/-- `Path::join` with a relative path, used in /repo/src/onenote/mod.rs L239. -/
def join (p child : Path) : Path := p ++ child

end Path

/-- A snapshot of the file system: what the calls in /repo/src/onenote/mod.rs return. `none` is an
I/O error. Here the file system does not change during a call of the parser; `Model/Timed.lean` models
what happens if it does. -/
structure FileSystem where
  /-- `Path::exists`, L82, L240 -/
  pathExists : Path → Bool
  /-- `Path::is_file`, L85 -/
  isFile : Path → Bool
  /-- `Path::canonicalize`, L241-250 -/
  canonicalize : Path → Option Path
  /-- `Path::read_dir`, L161: the names of the entries in the order they are returned -/
  readDir : Path → Option (List (Option Text))
  /-- `File::open` and `Parser::read`, L60-61, L129-130, L185-193 -/
  read : Path → Option Bytes

end OneNote
