/-
What a file shows, from its bytes: the three descriptions put together. `LaxFile` says how the data
elements are written in the bytes, `StoreIs` which store the data elements describe and `SectionIs`
which section the objects of the store describe.
-/
import Verif.Spec.Accepted
import Verif.Spec.StoreContents
import Verif.Spec.Document
import Verif.Spec.Entries
import Verif.Spec.Path
import Verif.Spec.Toc

namespace OneNote.Spec

open StoreContents Document

/-- The bytes begin with a container holding the data elements of `p`; anything may follow. -/
def Contains (data : Bytes) (p : Packaging) : Prop :=
  ∃ a b c d si schema es bs rest, LaxFile a b c d si schema es bs ∧ data = bs ++ rest ∧
    p = ⟨a, b, c, d, si, schema, laxPackageOf es⟩

/-- The store written in the bytes. -/
def FileStore (data : Bytes) (s : Store) : Prop := ∃ p, Contains data p ∧ StoreIs p s

/-- The bytes leave no choice to the iteration order of hash maps. -/
def PlainFile (data : Bytes) : Prop := ∀ p, Contains data p → Unambiguous p

/-- The schema of section files, `{1F937CB4-B26F-445F-B9F8-17E20160E461}` ([MS-ONE] 1.3). -/
def sectionFileSchema : Guid :=
  ⟨0x1F, 0x93, 0x7C, 0xB4, 0xB2, 0x6F, 0x44, 0x5F, 0xB9, 0xF8, 0x17, 0xE2, 0x01, 0x60, 0xE4, 0x61⟩

/-- The section written in the bytes of a file with this name. -/
def SectionFile (data : Bytes) (name : Text) (s : Section) : Prop :=
  ∃ store, FileStore data store ∧ store.schema = sectionFileSchema ∧ SectionIs store name s

/-! ### Notebooks -/

/-- The schema of tables of contents, `{E4DBFD38-E5C7-408B-A8A1-0E7B421E1F5F}` ([MS-ONE] 1.3). -/
def tocFileSchema : Guid :=
  ⟨0xE4, 0xDB, 0xFD, 0x38, 0xE5, 0xC7, 0x40, 0x8B, 0xA8, 0xA1, 0x0E, 0x7B, 0x42, 0x1E, 0x1F, 0x5F⟩

/-- The names of a table of contents: those in the tree below the content root, in the order of their
ordering ids, without direct repeats. The color is that of the root. -/
def TocIs (space : ObjectSpace) (names : List Text) (color : Option Color) : Prop :=
  ∃ root entries sorted o t, space.roots.get? .defaultContent = some root ∧ Toc.TocTree space root entries ∧
    Toc.SortedByKey entries sorted ∧ Toc.WithoutRepeats (sorted.map Prod.snd) names ∧
    At space root o ∧ Objects.IsTocContainer o t ∧ color = t.color

/-- The names and the color written in the bytes of a table of contents. -/
def TocFile (data : Bytes) (names : List Text) (color : Option Color) : Prop :=
  ∃ store, FileStore data store ∧ store.schema = tocFileSchema ∧ TocIs store.dataRoot names color

/-- The pieces of a text between slashes. -/
inductive Pieces : Text → List Text → Prop where
  | last {p : Text} : '/' ∉ p → Pieces p [p]
  | slash {p s : Text} {ps : List Text} : '/' ∉ p → Pieces s ps → Pieces (p ++ '/' :: s) (p :: ps)

/-- The path of the entry with this name in the directory `base`: the pieces of the name other than
`.` and empty ones. The name must be relative and without `..`, its pieces must not be changed by the
sanitiser, and if the path exists it must lead to somewhere inside `base`. -/
def EntryPath (fs : FileSystem) (sanitise : Text → Text) (base : Path) (name : Text) (p : Path) : Prop :=
  ∃ pieces, Pieces name pieces ∧ name.head? ≠ some '/' ∧ ['.', '.'] ∉ pieces ∧
    (∃ n ∈ pieces, n ≠ [] ∧ n ≠ ['.']) ∧
    (∀ n ∈ pieces, n ≠ [] → n ≠ ['.'] → sanitise n = n) ∧
    p = base ++ (pieces.filter fun n => decide (n ≠ [] ∧ n ≠ ['.'])).map .normal ∧
    (fs.pathExists p = true → Inside fs base p)

/-- The section in the file at `path`. -/
def SectionAt (fs : FileSystem) (path : Path) (s : Section) : Prop :=
  ∃ data name, fs.read path = some data ∧ path.getLast? = some (.normal name) ∧ SectionFile data name s

mutual

/-- The notebook whose table of contents is the file at `path`: one entry for each of its names whose
path exists and is not the recycle bin, in order. -/
inductive NotebookIs (fs : FileSystem) (sanitise : Text → Text) : Path → Notebook → Prop where
  | mk {base : Path} {last : Component} {data : Bytes} {names : List Text} {color : Option Color}
      {paths : List Path} {entries : List SectionEntry} :
      last ≠ .rootDir → fs.read (base ++ [last]) = some data → TocFile data names color →
      Each (EntryPath fs sanitise base) names paths →
      Each (EntryIs fs sanitise) (Kept fs paths) entries →
      NotebookIs fs sanitise (base ++ [last]) ⟨entries, color⟩

/-- The entry at `path`: the section in a file, or the section group in a directory with the entries
of the first table of contents in the directory. -/
inductive EntryIs (fs : FileSystem) (sanitise : Text → Text) : Path → SectionEntry → Prop where
  | file {p : Path} {s : Section} : fs.isFile p = true → SectionAt fs p s →
      EntryIs fs sanitise p (.section s)
  | directory {dir : Path} {name toc : Text} {before after : List (Option Text)} {nb : Notebook} :
      fs.isFile (dir ++ [.normal name]) = false →
      fs.readDir (dir ++ [.normal name]) = some (before ++ some toc :: after) →
      NoToc before → TocName toc →
      NotebookIs fs sanitise (dir ++ [.normal name] ++ [.normal toc]) nb →
      EntryIs fs sanitise (dir ++ [.normal name]) (.sectionGroup ⟨name, nb.entries⟩)

end

/-- All files are without ambiguities. -/
def PlainFiles (fs : FileSystem) : Prop := ∀ path data, fs.read path = some data → PlainFile data

open Classical in
/-- The file system in which only the files without ambiguities can be read. -/
noncomputable def plainPart (fs : FileSystem) : FileSystem :=
  { fs with read := fun path => (fs.read path).filter fun data => decide (PlainFile data) }

end OneNote.Spec
