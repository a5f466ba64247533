/-
Notebooks: the table of contents, the entries of a notebook and their files.

Models /repo/src/onenote/notebook.rs and the rest of /repo/src/onenote/mod.rs.
-/
import Verif.Model.Section
import Verif.Model.Path

namespace OneNote

/-! ### The table of contents (/repo/src/onenote/notebook.rs) -/

/-- `TocEntry`, notebook.rs L28-31. -/
structure TocEntry where
  entries : List (Nat × Text)
  color : Option Color
  deriving DecidableEq, Repr, Inhabited

/-- `parse_toc_entry`, notebook.rs L50-81, with a bound on the nesting. -/
def parseTocEntry (space : ObjectSpace) : Nat → ExGuid → Res TocEntry
  | 0, _ => .error .fuel
  | n + 1, id => do
    let content ← space.object id
    let toc ← TocContainer.parse content
    match toc.filename with
    | some name => do
      let orderingId ← orErr .malformedOneNote toc.orderingId
      pure { entries := [(orderingId, name)], color := toc.color }
    | none => do
      let children ← toc.children.mapM (parseTocEntry space n)
      pure { entries := children.flatMap (·.entries), color := toc.color }

/-- One step of a stable insertion sort. -/
def insertByKey {α : Type} (x : Nat × α) : List (Nat × α) → List (Nat × α)
  | [] => [x]
  | y :: ys => if x.1 ≤ y.1 then x :: y :: ys else y :: insertByKey x ys

/-- `.sorted_by_key(|(ordering_id, _)| *ordering_id)`, notebook.rs L42. The sort of the code is
stable, and so is this insertion sort. -/
def sortByKey {α : Type} : List (Nat × α) → List (Nat × α)
  | [] => []
  | x :: xs => insertByKey x (sortByKey xs)

/-- `.dedup_by(|(_, a), (_, b)| a == b)`, notebook.rs L43: drops an entry with the name of the entry
kept before it. -/
def dedupFrom (last : Nat × Text) : List (Nat × Text) → List (Nat × Text)
  | [] => [last]
  | x :: xs => if last.2 = x.2 then dedupFrom last xs else last :: dedupFrom x xs

/-- `.dedup_by(..)`, notebook.rs L43. -/
def dedupNames : List (Nat × Text) → List (Nat × Text)
  | [] => []
  | x :: xs => dedupFrom x xs

/-- The names in the order of the table of contents, notebook.rs L39-45. -/
def tocNames (entries : List (Nat × Text)) : List Text :=
  (dedupNames (sortByKey entries)).map Prod.snd

/-- `parse_toc`, notebook.rs L33-48. -/
def parseToc (fuel : Nat) (space : ObjectSpace) : Res (List Text × Option Color) := do
  let contentId ← orErr .malformedOneNote space.contentRoot
  let entry ← parseTocEntry space fuel contentId
  pure (tocNames entry.entries, entry.color)

/-! ### Paths of entries (/repo/src/onenote/mod.rs) -/

/-- The body of the loop in `resolve_entry_path`, mod.rs L206-230. `sanitise` is the function of the
crate `sanitise_file_name`, an arbitrary function here. -/
def resolveComponent (sanitise : Text → Text) : Component → Res (Option Component)
  | .normal name => if sanitise name ≠ name then .error .invalidPath else .ok (some (.normal name))
  | .curDir => .ok none
  | .parentDir => .error .invalidPath
  | .rootDir => .error .invalidPath

/-- The check of an existing entry, mod.rs L240-257. -/
def checkInside (fs : FileSystem) (base candidate : Path) : Res Unit := do
  if fs.pathExists candidate then
    let baseCanon ← orErr .invalidPath (fs.canonicalize base)
    let candidateCanon ← orErr .invalidPath (fs.canonicalize candidate)
    if candidateCanon.startsWith baseCanon then pure () else .error .invalidPath
  else pure ()

/-- `resolve_entry_path`, mod.rs L196-260. -/
def resolveEntryPath (fs : FileSystem) (sanitise : Text → Text) (base : Path) (entry : Text) :
    Res Path := do
  if isAbsolute entry then .error .invalidPath else
  let parts ← (componentsOf entry).mapM (resolveComponent sanitise)
  let sanitized := parts.filterMap fun x => x
  if sanitized.isEmpty then .error .invalidPath else
  let candidate := base.join sanitized
  checkInside fs base candidate
  pure candidate

/-! ### Notebooks (/repo/src/onenote/mod.rs) -/

mutual

/-- `SectionEntry`, /repo/src/onenote/section.rs L11-14. -/
inductive SectionEntry where
  | section (s : Section)
  | sectionGroup (g : SectionGroup)

/-- `SectionGroup`, /repo/src/onenote/section.rs L48-51. -/
structure SectionGroup where
  displayName : Text
  entries : List SectionEntry

end

/-- `Notebook`, /repo/src/onenote/notebook.rs L11-14. -/
structure Notebook where
  entries : List SectionEntry
  color : Option Color

/-- What a call of the parser works with: the file system, the sanitiser, the iteration order of hash
maps and the bound on the nesting of outlines and tables of contents. -/
structure Env where
  fs : FileSystem
  sanitise : Text → Text
  ord : Order
  fuel : Nat

/-- `Parser::parse_section`, mod.rs L128-150. -/
def parseSectionFile (env : Env) (path : Path) : Res Section := do
  let data ← orErr .io (env.fs.read path)
  let store ← readStore env.ord data
  if store.schema ≠ sectionSchema then .error .notASectionFile else
  let name ← orErr .invalidPath path.fileName
  parseSectionStore env.fuel store name

/-- `"onetoc2"` -/
def tocExtension : Text := ['o', 'n', 'e', 't', 'o', 'c', '2']

/-- The loop over the entries of a directory, mod.rs L161-176: the first entry with the extension
`onetoc2`. -/
def findToc (dir : Path) : List (Option Text) → Res Path
  | [] => .error .tocFileMissing
  | none :: _ => .error .io
  | some name :: rest =>
    let path := dir.join [.normal name]
    if path.extension = some tocExtension then .ok path else findToc dir rest

/-- `Parser::parse_section_group`, mod.rs L152-183, where `notebook` is `Parser::parse_notebook`. -/
def parseSectionGroup (notebook : Path → Res Notebook) (env : Env) (path : Path) :
    Res SectionGroup := do
  let displayName ← orErr .invalidPath path.fileName
  let names ← orErr .io (env.fs.readDir path)
  let toc ← findToc path names
  let group ← notebook toc
  pure { displayName, entries := group.entries }

/-- The closure of mod.rs L84-91. -/
def parseEntry (notebook : Path → Res Notebook) (env : Env) (path : Path) : Res SectionEntry :=
  if env.fs.isFile path then SectionEntry.section <$> parseSectionFile env path
  else SectionEntry.sectionGroup <$> parseSectionGroup notebook env path

/-- `"OneNote_RecycleBin"`, mod.rs L83. -/
def recycleBin : Text := "OneNote_RecycleBin".toList

/-- The two filters of mod.rs L82-83. -/
def keepEntry (env : Env) (path : Path) : Bool :=
  env.fs.pathExists path && !path.endsWith [.normal recycleBin]

/-- `Parser::parse_notebook`, mod.rs L59-98, with a bound on the nesting of section groups. -/
def parseNotebook (env : Env) : Nat → Path → Res Notebook
  | 0, _ => .error .fuel
  | n + 1, path => do
    let data ← orErr .io (env.fs.read path)
    let store ← readStore env.ord data
    if store.schema ≠ tocSchema then .error .notATocFile else
    let baseDir ← orErr .invalidPath path.parent
    let (names, color) ← parseToc env.fuel store.dataRoot
    let paths ← names.mapM (resolveEntryPath env.fs env.sanitise baseDir)
    let entries ← (paths.filter (keepEntry env)).mapM (parseEntry (parseNotebook env n) env)
    pure { entries, color }

end OneNote
