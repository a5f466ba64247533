/-
Notebooks on Windows.

`std::path::Path` works differently there: both kinds of slashes separate components, and a path may
begin with a prefix such as `C:`. The functions of /repo/src/onenote/mod.rs are the same; here they
are modelled over Windows paths. The rest of the model (`Model/Path.lean`, `Model/Notebook.lean`) is
about Unix.
-/
import Verif.Model.Notebook

namespace OneNote.Windows

/-- `std::path::Component` on Windows. What a prefix consists of is kept as text. -/
inductive WComponent where
  | prefixed (text : Text)
  | rootDir
  | curDir
  | parentDir
  | normal (name : Text)
  deriving DecidableEq, Repr, Inhabited

/-- A `Path` as its components. -/
abbrev WPath := List WComponent

/-- A separator. In verbatim paths (`\\?\…`) a slash is none. -/
def isSep (verbatim : Bool) (c : Char) : Bool := c = '\\' || (c = '/' && !verbatim)

/-- The pieces of a string between separators. -/
def splitSep (verbatim : Bool) : Text → List Text
  | [] => [[]]
  | c :: rest =>
    if isSep verbatim c then [] :: splitSep verbatim rest
    else match splitSep verbatim rest with
      | [] => [[c]]
      | p :: ps => (c :: p) :: ps

/-- What is before the first separator, and what is after it. -/
def nextPiece (verbatim : Bool) (s : Text) : Text × Text :=
  let (a, b) := s.span fun c => !isSep verbatim c
  (a, b.drop 1)

/-- A drive letter and a colon. -/
def startsWithDrive : Text → Bool
  | c :: ':' :: _ => c.isAlpha
  | _ => false

/-- The kinds of prefixes: whether the path is verbatim, and whether the prefix is that of a drive. -/
structure PrefixKind where
  length : Nat
  verbatim : Bool
  drive : Bool

/-- The length of a server and a share. -/
def shareLength (verbatim : Bool) (s : Text) : Nat :=
  let (server, rest) := nextPiece verbatim s
  let (share, _) := nextPiece verbatim rest
  server.length + if share = [] then 0 else 1 + share.length

/-- The prefix of a path (`std::sys::path::parse_prefix`): `\\?\UNC\server\share`, `\\?\C:`, `\\?\name`,
`\\.\name`, `\\server\share` or `C:`. -/
def parsePrefix (s : Text) : Option PrefixKind :=
  match s with
  | a :: b :: rest =>
    if isSep false a && isSep false b then
      match rest with
      | '?' :: c :: rest' =>
        if a = '\\' && b = '\\' && c = '\\' then
          if rest'.take 3 = ['U', 'N', 'C'] && ((rest'.drop 3).head?.any fun c => isSep false c) then
            some ⟨8 + shareLength true (rest'.drop 4), true, false⟩
          else if startsWithDrive rest' && ((rest'.drop 2).head?.all fun c => isSep false c) then
            some ⟨6, true, false⟩
          else some ⟨4 + (nextPiece true rest').1.length, true, false⟩
        else serverPrefix rest
      | '.' :: c :: rest' =>
        if isSep false c then some ⟨4 + (nextPiece false rest').1.length, false, false⟩
        else serverPrefix rest
      | _ => serverPrefix rest
    else if startsWithDrive s then some ⟨2, false, true⟩ else none
  | _ => none
where
  /-- `\\server\share` -/
  serverPrefix (rest : Text) : Option PrefixKind :=
    let (server, rest') := nextPiece false rest
    let (share, _) := nextPiece false rest'
    if server ≠ [] && share ≠ [] then some ⟨2 + shareLength false rest, false, false⟩ else none

/-- Whether a separator follows the prefix. -/
def hasPhysicalRoot (s : Text) : Bool :=
  let rest := match parsePrefix s with
    | none => s
    | some k => s.drop k.length
  rest.head?.any fun c => isSep false c

/-- `Path::new(s).is_absolute()` on Windows, used in /repo/src/onenote/mod.rs L198: there is a prefix
and a root. Prefixes other than `C:` stand for a root. -/
def isAbsolute (s : Text) : Bool :=
  match parsePrefix s with
  | none => false
  | some k => !k.drive || hasPhysicalRoot s

/-- One piece of a path. Empty pieces are skipped, and `.` as well except in verbatim paths. -/
def pieceOf (verbatim : Bool) (p : Text) : Option WComponent :=
  if p = [] then none
  else if p = ['.'] then if verbatim then some .curDir else none
  else if p = ['.', '.'] then some .parentDir
  else some (.normal p)

/-- `Path::new(s).components()` on Windows, used in /repo/src/onenote/mod.rs L206. -/
def componentsOf (s : Text) : WPath :=
  match parsePrefix s with
  | none =>
    let pieces := splitSep false s
    let body := pieces.filterMap (pieceOf false)
    if hasPhysicalRoot s then .rootDir :: body
    else if pieces.head? = some ['.'] then .curDir :: body
    else body
  | some k =>
    let pieces := splitSep k.verbatim (s.drop k.length)
    let body := pieces.filterMap (pieceOf k.verbatim)
    .prefixed (s.take k.length) ::
      if hasPhysicalRoot s || (!k.drive && !k.verbatim) then .rootDir :: body
      else if k.drive && pieces.head? = some ['.'] then .curDir :: body
      else body

namespace WPath

/-- `Path::parent`, used in /repo/src/onenote/mod.rs L72. -/
def parent (p : WPath) : Option WPath :=
  match p.getLast? with
  | none => none
  | some .rootDir => none
  | some (.prefixed _) => none
  | some _ => some p.dropLast

/-- `Path::file_name`, used in /repo/src/onenote/mod.rs L143, L154. -/
def fileName (p : WPath) : Option Text :=
  match p.getLast? with
  | some (.normal name) => some name
  | _ => none

/-- `Path::extension`, used in /repo/src/onenote/mod.rs L164-167. -/
def extension (p : WPath) : Option Text := (fileName p).bind Path.extensionOf

/-- `Path::starts_with`, used in /repo/src/onenote/mod.rs L251, where both paths are canonical. -/
def startsWith (p base : WPath) : Bool := base.isPrefixOf p

/-- `Path::ends_with`, used in /repo/src/onenote/mod.rs L83. -/
def endsWith (p child : WPath) : Bool := child.isSuffixOf p

/-- `Path::join`, used in /repo/src/onenote/mod.rs L239 with a path without a root: a path with a prefix
replaces the one it is joined to. (Of the paths it is joined to, `\\server` without a share is the one
that is not modelled: a name that follows would be the share.) -/
def join (p child : WPath) : WPath :=
  match child with
  | .prefixed _ :: _ => child
  | _ => p ++ child

/-- `PathBuf::push` of a string without separators, used in /repo/src/onenote/mod.rs L220: a name such as
`C:` or `C:a` is read as a prefix and what follows it. -/
def push (p : WPath) (name : Text) : WPath :=
  if startsWithDrive name then componentsOf name else p ++ [.normal name]

end WPath

/-- A snapshot of the file system, as `FileSystem`. -/
structure WFileSystem where
  pathExists : WPath → Bool
  isFile : WPath → Bool
  canonicalize : WPath → Option WPath
  readDir : WPath → Option (List (Option Text))
  read : WPath → Option Bytes

/-- The body of the loop in `resolve_entry_path`, /repo/src/onenote/mod.rs L206-230. -/
def resolveComponent (sanitise : Text → Text) (sanitized : WPath) : WComponent → Res WPath
  | .normal name => if sanitise name ≠ name then .error .invalidPath else .ok (WPath.push sanitized name)
  | .curDir => .ok sanitized
  | .parentDir => .error .invalidPath
  | .rootDir => .error .invalidPath
  | .prefixed _ => .error .invalidPath

/-- The check of an existing entry, mod.rs L240-257. -/
def checkInside (fs : WFileSystem) (base candidate : WPath) : Res Unit := do
  if fs.pathExists candidate then
    let baseCanon ← orErr .invalidPath (fs.canonicalize base)
    let candidateCanon ← orErr .invalidPath (fs.canonicalize candidate)
    if WPath.startsWith candidateCanon baseCanon then pure () else .error .invalidPath
  else pure ()

/-- `resolve_entry_path`, mod.rs L196-260. -/
def resolveEntryPath (fs : WFileSystem) (sanitise : Text → Text) (base : WPath) (entry : Text) :
    Res WPath := do
  if isAbsolute entry then .error .invalidPath else
  let sanitized ← (componentsOf entry).foldlM (resolveComponent sanitise) []
  if sanitized.isEmpty then .error .invalidPath else
  let candidate := WPath.join base sanitized
  checkInside fs base candidate
  pure candidate

/-- What a call of the parser works with, as `Env`. -/
structure WEnv where
  fs : WFileSystem
  sanitise : Text → Text
  ord : Order
  fuel : Nat

/-- `Parser::parse_section`, mod.rs L128-150. -/
def parseSectionFile (env : WEnv) (path : WPath) : Res Section := do
  let data ← orErr .io (env.fs.read path)
  let store ← readStore env.ord data
  if store.schema ≠ sectionSchema then .error .notASectionFile else
  let name ← orErr .invalidPath (WPath.fileName path)
  parseSectionStore env.fuel store name

/-- The loop over the entries of a directory, mod.rs L161-176. -/
def findToc (dir : WPath) : List (Option Text) → Res WPath
  | [] => .error .tocFileMissing
  | none :: _ => .error .io
  | some name :: rest =>
    let path := dir ++ [.normal name]
    if WPath.extension path = some tocExtension then .ok path else findToc dir rest

/-- `Parser::parse_section_group`, mod.rs L152-183, where `notebook` is `Parser::parse_notebook`. -/
def parseSectionGroup (notebook : WPath → Res Notebook) (env : WEnv) (path : WPath) :
    Res SectionGroup := do
  let displayName ← orErr .invalidPath (WPath.fileName path)
  let names ← orErr .io (env.fs.readDir path)
  let toc ← findToc path names
  let group ← notebook toc
  pure { displayName, entries := group.entries }

/-- The closure of mod.rs L84-91. -/
def parseEntry (notebook : WPath → Res Notebook) (env : WEnv) (path : WPath) : Res SectionEntry :=
  if env.fs.isFile path then SectionEntry.section <$> parseSectionFile env path
  else SectionEntry.sectionGroup <$> parseSectionGroup notebook env path

/-- The two filters of mod.rs L82-83. -/
def keepEntry (env : WEnv) (path : WPath) : Bool :=
  env.fs.pathExists path && !WPath.endsWith path [.normal recycleBin]

/-- `Parser::parse_notebook`, mod.rs L59-98, with a bound on the nesting of section groups. -/
def parseNotebook (env : WEnv) : Nat → WPath → Res Notebook
  | 0, _ => .error .fuel
  | n + 1, path => do
    let data ← orErr .io (env.fs.read path)
    let store ← readStore env.ord data
    if store.schema ≠ tocSchema then .error .notATocFile else
    let baseDir ← orErr .invalidPath (WPath.parent path)
    let (names, color) ← parseToc env.fuel store.dataRoot
    let paths ← names.mapM (resolveEntryPath env.fs env.sanitise baseDir)
    let entries ← (paths.filter (keepEntry env)).mapM (parseEntry (parseNotebook env n) env)
    pure { entries, color }

end OneNote.Windows
