/-
The entries of a notebook with the places they come from, and disks from which something has been
deleted.
-/
import Verif.Spec.Entries
import Verif.Spec.Path

namespace OneNote.Spec

/-- A section with its file, or a section group with its directory. -/
inductive Located where
  | file (path : Path) (s : Section)
  | directory (path : Path) (name : Text) (entries : List Located)

namespace Located

mutual

/-- The entry without its place. -/
def entry : Located → SectionEntry
  | .file _ s => .section s
  | .directory _ name es => .sectionGroup ⟨name, entries es⟩

def entries : List Located → List SectionEntry
  | [] => []
  | e :: es => entry e :: entries es

end

def path : Located → Path
  | .file p _ => p
  | .directory p _ _ => p

mutual

/-- What is left of an entry that is not itself deleted. -/
def keep (gone : Path → Bool) : Located → Located
  | .file p s => .file p s
  | .directory p name es => .directory p name (prune gone es)

/-- The entries without those, at any depth, whose places are deleted. -/
def prune (gone : Path → Bool) : List Located → List Located
  | [] => []
  | e :: es => if gone (path e) then prune gone es else keep gone e :: prune gone es

end

end Located

mutual

/-- The entries that the table of contents at `path` leads to: one for each of its names whose path
exists and is not the recycle bin. -/
inductive Opens (env : Env) : Path → List Located → Option Color → Prop where
  | mk {path base : Path} {names : List Text} {color : Option Color} {paths : List Path}
      {es : List Located} :
      Contents env path base names color →
      Each (fun name p => resolveEntryPath env.fs env.sanitise base name = .ok p) names paths →
      Each (OpensEntry env) (Kept env.fs paths) es → Opens env path es color

inductive OpensEntry (env : Env) : Path → Located → Prop where
  | file {p : Path} {s : Section} : env.fs.isFile p = true → parseSectionFile env p = .ok s →
      OpensEntry env p (.file p s)
  | directory {p : Path} {name toc : Text} {before after : List (Option Text)} {es : List Located}
      {color : Option Color} :
      env.fs.isFile p = false → p.getLast? = some (.normal name) →
      env.fs.readDir p = some (before ++ some toc :: after) → NoToc before → TocName toc →
      Opens env (p ++ [.normal toc]) es color → OpensEntry env p (.directory p name es)

end

/-- What is left of the listing of a directory. -/
def leftIn (gone : Path → Bool) (dir : Path) (names : List (Option Text)) : List (Option Text) :=
  names.filter fun
    | some name => !gone (dir ++ [.normal name])
    | none => true

/-- `fs'` is what is left of `fs` after the paths for which `gone` holds have been deleted. A deleted
directory goes with everything in it; a directory that is left keeps its tables of contents. -/
structure Deleted (gone : Path → Bool) (fs fs' : FileSystem) : Prop where
  /-- What is in a deleted directory is deleted. -/
  whole : ∀ dir c, gone dir = true → gone (dir ++ [c]) = true
  /-- Tables of contents are only deleted with their directories. -/
  tocs : ∀ dir name, TocName name → gone dir = false → gone (dir ++ [.normal name]) = false
  pathExists : ∀ p, fs'.pathExists p = (fs.pathExists p && !gone p)
  /-- The directories that are left list what is left. -/
  readDir : ∀ p, gone p = false → fs'.readDir p = (fs.readDir p).map (leftIn gone p)
  isFile : ∀ p, gone p = false → fs'.isFile p = fs.isFile p
  canonicalize : ∀ p, gone p = false → fs'.canonicalize p = fs.canonicalize p
  read : ∀ p, gone p = false → fs'.read p = fs.read p

end OneNote.Spec
