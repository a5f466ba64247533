/-
Notebooks on a disk: the files of a notebook under chosen names.
-/
import Verif.Spec.WriteToc
import Verif.Spec.Storable
import Verif.Spec.Whole

namespace OneNote.Spec.Folder

open Storable Writer

/-- A section with the name of its file, or a section group with the names of its directory and of the
table of contents in it. -/
inductive Saved where
  | section (file : Text) (s : Section)
  | group (name toc : Text) (entries : List Saved)

/-- The name in the directory. -/
def Saved.name : Saved → Text
  | .section file _ => file
  | .group name _ _ => name

mutual
/-- What is saved. -/
def Saved.entry : Saved → SectionEntry
  | .section _ s => .section s
  | .group name _ entries => .sectionGroup ⟨name, savedEntries entries⟩

def savedEntries : List Saved → List SectionEntry
  | [] => []
  | e :: es => e.entry :: savedEntries es
end

/-- The table of contents of the entries. -/
def tocOf (entries : List Saved) (color : Option Color) : Bytes :=
  contentsFile (entries.map (·.name)) color

/-! ### What can be saved -/

/-- A name for an entry: an ordinary file name that the sanitiser does not change, without NUL, `^M`
and `^J`, and not that of the recycle bin. -/
structure NameOk (sanitise : Text → Text) (name : Text) : Prop where
  file : FileName name
  plain : Plain name
  unescaped : ¬ LooksEscaped name
  kept : name ≠ "OneNote_RecycleBin".toList
  sanitised : sanitise name = name

/-- The entries of a directory have different names, also from the table of contents, their sections
can be stored, and every file is within the limits of the file format. -/
inductive EntriesOk (sanitise : Text → Text) : Text → List Saved → Option Color → Prop where
  | mk {toc : Text} {entries : List Saved} {color : Option Color} :
      (∀ e ∈ entries, NameOk sanitise e.name) → (toc :: entries.map (·.name)).Nodup →
      WithinLimits [tocTrees (entries.map (·.name)) color] → Opt ColorOk color →
      (∀ file s, .section file s ∈ entries → SectionOk s ∧ SectionWithin s) →
      (∀ name toc es, .group name toc es ∈ entries → TocName toc) →
      (∀ name toc es, .group name toc es ∈ entries → EntriesOk sanitise toc es none) →
      EntriesOk sanitise toc entries color

/-! ### What is on the disk -/

/-- The entry is in the directory `dir`, and nothing about it leads outside. A directory may have other
files if they are not tables of contents, in any order. -/
inductive OnDisk (fs : FileSystem) : Path → Saved → Prop where
  | section {dir : Path} {file : Text} {s : Section} :
      fs.pathExists (dir ++ [.normal file]) = true → fs.isFile (dir ++ [.normal file]) = true →
      Inside fs dir (dir ++ [.normal file]) →
      fs.read (dir ++ [.normal file]) = some (sectionFile s) → OnDisk fs dir (.section file s)
  | group {dir : Path} {name toc : Text} {entries : List Saved} {before after : List (Option Text)} :
      fs.pathExists (dir ++ [.normal name]) = true → fs.isFile (dir ++ [.normal name]) = false →
      Inside fs dir (dir ++ [.normal name]) →
      fs.readDir (dir ++ [.normal name]) = some (before ++ some toc :: after) → NoToc before →
      fs.read (dir ++ [.normal name] ++ [.normal toc]) = some (tocOf entries none) →
      (∀ e ∈ entries, OnDisk fs (dir ++ [.normal name]) e) → OnDisk fs dir (.group name toc entries)

/-- The table of contents and the entries are in the directory `dir`. -/
structure NotebookOnDisk (fs : FileSystem) (dir : Path) (toc : Text) (entries : List Saved)
    (color : Option Color) : Prop where
  toc : fs.read (dir ++ [.normal toc]) = some (tocOf entries color)
  entries : ∀ e ∈ entries, OnDisk fs dir e

/-! ### A disk -/

/-- A file or a directory. -/
inductive Item where
  | file (data : Bytes)
  | dir (items : List (Text × Item))

/-- What is at the end of a list of names. -/
def Item.find : Item → List Text → Option Item
  | item, [] => some item
  | .file _, _ :: _ => none
  | .dir items, name :: names => (items.lookup name).bind fun item => item.find names

/-- The names of an absolute path. -/
def namesOf : Path → Option (List Text)
  | .rootDir :: path => path.mapM fun
    | .normal name => some name
    | _ => none
  | _ => none

/-- What is at a path. -/
def Item.at (root : Item) (path : Path) : Option Item := (namesOf path).bind root.find

/-- The file system of a disk without links. -/
def disk (root : Item) : FileSystem where
  pathExists path := (root.at path).isSome
  isFile path := match root.at path with
    | some (.file _) => true
    | _ => false
  canonicalize path := (root.at path).map fun _ => path
  readDir path := match root.at path with
    | some (.dir items) => some (items.map fun e => some e.1)
    | _ => none
  read path := match root.at path with
    | some (.file data) => some data
    | _ => none

mutual
/-- The files of an entry. -/
def Saved.item : Saved → Item
  | .section _ s => .file (sectionFile s)
  | .group _ toc entries => .dir ((toc, .file (tocOf entries none)) :: itemsOf entries)

def itemsOf : List Saved → List (Text × Item)
  | [] => []
  | e :: es => (e.name, e.item) :: itemsOf es
end

/-- The files of a notebook. -/
def notebookItem (toc : Text) (entries : List Saved) (color : Option Color) : Item :=
  .dir ((toc, .file (tocOf entries color)) :: itemsOf entries)

end OneNote.Spec.Folder
