/-
Notebooks on a disk that changes while they are read.

The same functions of /repo/src/onenote/mod.rs as in `Notebook.lean`, one file
operation after the other in the order of the code. Other programs may change
the files and directories between any two operations.

Simplifications: `File::open`, `metadata` and `read_to_end` (L60-61, L129-130,
L185-193) are one operation, and so is `read_dir` with its iteration (L161-163).
-/
import Verif.Model.Notebook

namespace OneNote

/-- What a call of the parser works with. `world t` is the disk as the operation number `t` finds it:
any sequence of disks. -/
structure Timed where
  world : Nat → FileSystem
  sanitise : Text → Text
  ord : Order
  fuel : Nat

/-- The disk at one moment. -/
def Timed.moment (e : Timed) (t : Nat) : Env := ⟨e.world t, e.sanitise, e.ord, e.fuel⟩

/-- A computation that starts with operation number `t`, with the number of the next operation after
it. -/
def T (α : Type) := Nat → Res (α × Nat)

namespace T

variable {α β : Type}

def pure' (a : α) : T α := fun t => .ok (a, t)

def bind' (p : T α) (f : α → T β) : T β := fun t =>
  match p t with
  | .ok (a, t') => f a t'
  | .error e => .error e

instance : Monad T where
  pure := pure'
  bind := bind'

/-- One file operation. -/
def op (e : Timed) (f : FileSystem → α) : T α := fun t => .ok (f (e.world t), t + 1)

/-- `res?` for a result without file operations. -/
def ofRes : Res α → T α
  | .ok a => fun t => .ok (a, t)
  | .error e => fun _ => .error e

/-- `iter.map(f).collect::<Result<Vec<_>>>()?` -/
def mapAll (f : α → T β) : List α → T (List β)
  | [] => pure []
  | a :: as => do
    let b ← f a
    let bs ← mapAll f as
    pure (b :: bs)

end T

namespace Timed

open T

/-- The check of an existing entry, mod.rs L240-257. -/
def checkInside (e : Timed) (base candidate : Path) : T Unit := do
  let found ← op e (·.pathExists candidate)
  if found then
    let baseCanon ← op e (·.canonicalize base)
    let baseCanon ← ofRes (orErr .invalidPath baseCanon)
    let candidateCanon ← op e (·.canonicalize candidate)
    let candidateCanon ← ofRes (orErr .invalidPath candidateCanon)
    if candidateCanon.startsWith baseCanon then pure () else ofRes (.error .invalidPath)
  else pure ()

/-- The part of `resolve_entry_path` without file operations, mod.rs L197-239. -/
def candidate (sanitise : Text → Text) (base : Path) (entry : Text) : Res Path := do
  if isAbsolute entry then .error .invalidPath else
  let parts ← (componentsOf entry).mapM (resolveComponent sanitise)
  let sanitized := parts.filterMap fun x => x
  if sanitized.isEmpty then .error .invalidPath else
  pure (base.join sanitized)

/-- `resolve_entry_path`, mod.rs L196-260. -/
def resolveEntryPath (e : Timed) (base : Path) (entry : Text) : T Path := do
  let p ← ofRes (candidate e.sanitise base entry)
  checkInside e base p
  pure p

/-- What `Parser::parse_section` does with the data it has read, mod.rs L131-149. -/
def section' (e : Timed) (path : Path) (data : Option Bytes) : Res Section := do
  let data ← orErr .io data
  let store ← readStore e.ord data
  if store.schema ≠ sectionSchema then .error .notASectionFile else
  let name ← orErr .invalidPath path.fileName
  parseSectionStore e.fuel store name

/-- `Parser::parse_section`, mod.rs L128-150. -/
def parseSectionFile (e : Timed) (path : Path) : T Section := do
  let data ← op e (·.read path)
  ofRes (section' e path data)

/-- `Parser::parse_section_group`, mod.rs L152-183. -/
def parseSectionGroup (notebook : Path → T Notebook) (e : Timed) (path : Path) : T SectionGroup := do
  let displayName ← ofRes (orErr .invalidPath path.fileName)
  let names ← op e (·.readDir path)
  let names ← ofRes (orErr .io names)
  let toc ← ofRes (findToc path names)
  let group ← notebook toc
  pure { displayName, entries := group.entries }

/-- The closure of mod.rs L84-91. -/
def parseEntry (notebook : Path → T Notebook) (e : Timed) (path : Path) : T SectionEntry := do
  let file ← op e (·.isFile path)
  if file then do
    let s ← parseSectionFile e path
    pure (.section s)
  else do
    let g ← parseSectionGroup notebook e path
    pure (.sectionGroup g)

/-- The filters and the closure, entry by entry (the iterators are lazy), mod.rs L80-92. -/
def parseEntries (notebook : Path → T Notebook) (e : Timed) : List Path → T (List SectionEntry)
  | [] => pure []
  | path :: paths => do
    let found ← op e (·.pathExists path)
    if found && !path.endsWith [.normal recycleBin] then do
      let entry ← parseEntry notebook e path
      let entries ← parseEntries notebook e paths
      pure (entry :: entries)
    else parseEntries notebook e paths

/-- What `Parser::parse_notebook` does with the data it has read, mod.rs L62-75: the directory, the
names and the color. -/
def contents (e : Timed) (path : Path) (data : Option Bytes) :
    Res (Path × List Text × Option Color) := do
  let data ← orErr .io data
  let store ← readStore e.ord data
  if store.schema ≠ tocSchema then .error .notATocFile else
  let baseDir ← orErr .invalidPath path.parent
  let (names, color) ← parseToc e.fuel store.dataRoot
  pure (baseDir, names, color)

/-- `Parser::parse_notebook`, mod.rs L59-98, with a bound on the nesting of section groups. -/
def parseNotebook (e : Timed) : Nat → Path → T Notebook
  | 0, _ => ofRes (.error .fuel)
  | n + 1, path => do
    let data ← op e (·.read path)
    let c ← ofRes (contents e path data)
    let paths ← mapAll (resolveEntryPath e c.1) c.2.1
    let entries ← parseEntries (parseNotebook e n) e paths
    pure { entries, color := c.2.2 }

end Timed
end OneNote
